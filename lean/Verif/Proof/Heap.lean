import Verif.Model.Heap
import Verif.Proof.Frame

/-! Handles on the heap: the three blocks of a handle, loading, storing, construction, copying, closing. -/

namespace Verif
open Spec

/-! ### elementary steps -/

theorem ok_bindH {α β : Type} (a : α) (f : α → H β) : ((Except.ok a : H α) >>= f) = f a := rfl
theorem pure_bindH {α β : Type} (a : α) (f : α → H β) : ((pure a : H α) >>= f) = f a := rfl

theorem bind_okH {α β : Type} {x : H α} {f : α → H β} {b : β} (h : (x >>= f) = .ok b) : ∃ a, x = .ok a ∧ f a = .ok b := by
  cases x with
  | error e => simp [bind, Except.bind] at h
  | ok a => exact ⟨a, rfl, h⟩

theorem okH_inj {α : Type} {a b : α} (h : (pure a : H α) = .ok b) : a = b := Except.ok.inj h

theorem set_blocks (w : World) (a : ℕ) (b : Block) (x : ℕ) : (w.set a b).blocks x = if x = a then some b else w.blocks x := by
  unfold World.set
  by_cases h : x = a
  · subst h; simp
  · simp [h]

theorem peek_ok {w : World} {a : ℕ} {b : Block} (h : w.blocks a = some b) : peek w a = .ok b := by
  unfold peek; rw [h]; rfl

theorem poke_ok {w : World} {a : ℕ} {b c : Block} (h : w.blocks a = some b) : poke w a c = .ok (w.set a c) := by
  unfold poke; rw [peek_ok h]; rfl

/-- The world with the block at `a` removed. -/
def World.drop (w : World) (a : ℕ) : World := { w with blocks := Function.update w.blocks a none }

theorem drop_blocks (w : World) (a x : ℕ) : (w.drop a).blocks x = if x = a then none else w.blocks x := by
  unfold World.drop
  by_cases h : x = a
  · subst h; simp
  · simp [h]

theorem free_ok {w : World} {a : ℕ} {b : Block} (h0 : a ≠ 0) (h : w.blocks a = some b) : free w a = .ok (w.drop a) := by
  unfold free; rw [if_neg h0, h]; rfl

/-- The two outcomes of an allocation. -/
theorem allocate_cases (A : Alloc) (w : World) (b : Block) :
    (∃ w', allocate A w b = (0, w') ∧ w'.blocks = w.blocks ∧ w'.refused = w.refused + 1) ∨
    (∃ a w', allocate A w b = (a, w') ∧ a ≠ 0 ∧ w.blocks a = none ∧ (∀ x, w'.blocks x = if x = a then some b else w.blocks x) ∧
      w'.refused = w.refused) := by
  unfold allocate
  cases h : A.pick w b with
  | none => exact Or.inl ⟨_, rfl, rfl, rfl⟩
  | some a =>
    obtain ⟨h1, h2⟩ := A.fresh w b a h
    exact Or.inr ⟨a, _, rfl, h1, h2, fun x => set_blocks w a b x, rfl⟩

/-! ### the blocks of a handle -/

/-- The block of the private data. -/
def privBlock : Priv → ℕ → Block
  | .zoh z, r => .zoh { z with lastValue := [] } r
  | .linear z, r => .linear { z with lastValue := [] } r
  | .sinc f, r => .sinc { f with buffer := fun _ => zero32 } r
  | .null, _ => .foreign 0

/-- The block of the array. -/
def arrBlock (ch : ℤ) : Priv → Block
  | .zoh z => .values z.lastValue
  | .linear z => .values z.lastValue
  | .sinc f => .buffer (f.bLen + ch) f.buffer
  | .null => .foreign 0

/-- The buffer of a sinc handle is 0 outside its range. -/
def Tight (ch : ℤ) : Priv → Prop
  | .sinc f => ∀ i, ¬ (0 ≤ i ∧ i < f.bLen + ch) → f.buffer i = zero32
  | _ => True

/-- The three blocks at `p`, `q`, `r` make up a handle with value `st`. -/
structure Handle (w : World) (p q r : ℕ) (st : SrcState) : Prop where
  hp : w.blocks p = some (.state { st with priv := .null } q)
  hq : w.blocks q = some (privBlock st.priv r)
  hr : w.blocks r = some (arrBlock st.channels st.priv)
  tight : Tight st.channels st.priv
  like : Like st st

theorem Handle.pq {w : World} {p q r : ℕ} {st : SrcState} (h : Handle w p q r st) : p ≠ q := by
  rintro rfl
  have := h.hp.symm.trans h.hq
  cases hs : st.priv <;> rw [hs] at this <;> simp [privBlock] at this

theorem Handle.pr {w : World} {p q r : ℕ} {st : SrcState} (h : Handle w p q r st) : p ≠ r := by
  rintro rfl
  have := h.hp.symm.trans h.hr
  cases hs : st.priv <;> rw [hs] at this <;> simp [arrBlock] at this

theorem like_notnull {st st' : SrcState} (h : Like st st') : st'.priv ≠ .null := by
  intro hn
  have := h.priv
  rw [hn] at this
  cases hs : st.priv <;> rw [hs] at this <;> exact this

theorem Handle.qr {w : World} {p q r : ℕ} {st : SrcState} (h : Handle w p q r st) : q ≠ r := by
  rintro rfl
  have := h.hq.symm.trans h.hr
  have hn := like_notnull h.like
  cases hs : st.priv <;> rw [hs] at this <;> simp [arrBlock, privBlock] at this
  exact hn hs

/-- Blocks away from the handle do not matter. -/
theorem Handle.congr {w w' : World} {p q r : ℕ} {st : SrcState} (h : Handle w p q r st) (hp : w'.blocks p = w.blocks p)
    (hq : w'.blocks q = w.blocks q) (hr : w'.blocks r = w.blocks r) : Handle w' p q r st :=
  ⟨hp.trans h.hp, hq.trans h.hq, hr.trans h.hr, h.tight, h.like⟩

section
variable {w : World} {p q r : ℕ} {st : SrcState} (h0 : w.blocks 0 = none) (h : Handle w p q r st)
include h0 h

theorem Handle.q0 : q ≠ 0 := by rintro rfl; rw [h.hq] at h0; cases h0
theorem Handle.r0 : r ≠ 0 := by rintro rfl; rw [h.hr] at h0; cases h0
theorem Handle.p0 : p ≠ 0 := by rintro rfl; rw [h.hp] at h0; cases h0

theorem load_ok : load w p = .ok st := by
  unfold load
  rw [peek_ok h.hp, ok_bindH]
  simp only [asState, pure_bindH]
  have : loadPriv w q = .ok st.priv := by
    unfold loadPriv
    rw [if_neg (h.q0 h0), peek_ok h.hq, ok_bindH]
    have hn := like_notnull h.like
    have hr := h.hr
    cases hs : st.priv with
    | null => exact absurd hs hn
    | zoh z => rw [hs] at hr; simp only [privBlock, peek_ok hr, ok_bindH, arrBlock, asValues, pure_bindH]; rfl
    | linear z => rw [hs] at hr; simp only [privBlock, peek_ok hr, ok_bindH, arrBlock, asValues, pure_bindH]; rfl
    | sinc f => rw [hs] at hr; simp only [privBlock, peek_ok hr, ok_bindH, arrBlock, asBuffer, pure_bindH]; rfl
  rw [this, ok_bindH]
  rfl

/-- The outcome of writing a handle back. -/
theorem store_gen {st' : SrcState} (hch : st'.channels = st.channels) (hpl : PrivLike st.channels st.priv st'.priv) (hl' : Like st' st')
    (ht : Tight st'.channels st'.priv) :
    ∃ w', store w p st' = .ok w' ∧ Handle w' p q r st' ∧ (∀ x, x ≠ p → x ≠ q → x ≠ r → w'.blocks x = w.blocks x) ∧
      w'.refused = w.refused ∧ w'.requests = w.requests := by
  have hpq := h.pq; have hpr := h.pr; have hqr := h.qr
  have hn := like_notnull h.like
  have hn' := like_notnull hl'
  unfold store
  rw [peek_ok h.hp, ok_bindH]
  simp only [asState, pure_bindH]
  rw [poke_ok h.hp, ok_bindH]
  have hq1 : (w.set p (.state { st' with priv := .null } q)).blocks q = some (privBlock st.priv r) := by
    rw [set_blocks, if_neg hpq.symm, h.hq]
  have hr1 : (w.set p (.state { st' with priv := .null } q)).blocks r = some (arrBlock st.channels st.priv) := by
    rw [set_blocks, if_neg hpr.symm, h.hr]
  unfold storePriv
  rw [if_neg (h.q0 h0), peek_ok hq1, ok_bindH]
  have fin : ∀ b c, privBlock st'.priv r = b → arrBlock st'.channels st'.priv = c →
      ∃ w', (poke (w.set p (.state { st' with priv := .null } q)) q b >>= fun w1 => poke w1 r c) = .ok w' ∧
        Handle w' p q r st' ∧ (∀ x, x ≠ p → x ≠ q → x ≠ r → w'.blocks x = w.blocks x) ∧ w'.refused = w.refused ∧ w'.requests = w.requests := by
    rintro b c rfl rfl
    refine ⟨((w.set p (.state { st' with priv := .null } q)).set q (privBlock st'.priv r)).set r (arrBlock st'.channels st'.priv), ?_, ⟨?_, ?_, ?_, ht, hl'⟩, ?_, rfl, rfl⟩
    · rw [poke_ok hq1, ok_bindH, poke_ok (b := arrBlock st.channels st.priv)]
      rw [set_blocks, if_neg hqr.symm, hr1]
    · simp [set_blocks, hpq, hpr]
    · simp [set_blocks, hqr]
    · simp [set_blocks]
    · intro x h1 h2 h3; simp [set_blocks, h1, h2, h3]
  cases hs : st.priv with
  | null => exact absurd hs hn
  | zoh z =>
    cases hs' : st'.priv <;> rw [hs, hs'] at hpl <;> simp only [PrivLike] at hpl
    have := fin _ _ rfl rfl
    rw [hs'] at this; exact this
  | linear z =>
    cases hs' : st'.priv <;> rw [hs, hs'] at hpl <;> simp only [PrivLike] at hpl
    have := fin _ _ rfl rfl
    rw [hs'] at this; exact this
  | sinc f =>
    cases hs' : st'.priv <;> rw [hs, hs'] at hpl <;> simp only [PrivLike] at hpl
    have := fin _ _ rfl rfl
    rw [hs'] at this
    simp only [privBlock]
    rw [peek_ok hr1, hs, ok_bindH]
    simp only [arrBlock, asBuffer, pure_bindH]
    simp only [privBlock, arrBlock, hpl.1.bLen, hch] at this ⊢
    exact this

theorem store_ok {st' : SrcState} (hl : Like st st') (ht : Tight st'.channels st'.priv) :
    ∃ w', store w p st' = .ok w' ∧ Handle w' p q r st' ∧ (∀ x, x ≠ p → x ≠ q → x ≠ r → w'.blocks x = w.blocks x) ∧
      w'.refused = w.refused ∧ w'.requests = w.requests :=
  store_gen h0 h hl.channels hl.priv (like_self_priv hl) ht

end

/-! ### new blocks -/

/-- `w'` is `w` with three more blocks, at `a`, `b`, `c`. -/
structure Added (w w' : World) (a b c : ℕ) : Prop where
  na : w.blocks a = none
  nb : w.blocks b = none
  nc : w.blocks c = none
  a0 : a ≠ 0
  b0 : b ≠ 0
  c0 : c ≠ 0
  other : ∀ x, x ≠ a → x ≠ b → x ≠ c → w'.blocks x = w.blocks x

/-- A constructor has failed for want of memory: nothing has changed. -/
def Failed (w w' : World) : Prop := w'.blocks = w.blocks ∧ w.refused < w'.refused

theorem tight_like {st st' : SrcState} (hl : Like st st') (ht : Tight st.channels st.priv) : Tight st'.channels st'.priv := by
  have hp := hl.priv
  rw [hl.channels]
  cases hs : st.priv <;> cases hs' : st'.priv <;> rw [hs, hs'] at hp <;> simp only [PrivLike] at hp <;> try exact trivial
  rw [hs] at ht
  intro i hi
  rw [hp.1.bLen] at hi
  rw [hp.1.out i hi]
  exact ht i hi

theorem world_ext {w w' : World} (h : ∀ x, w'.blocks x = w.blocks x) : w'.blocks = w.blocks := funext h

/-- A data block and its array, as the constructors of private data make them; `some` means success. -/
def DataNew (w w' : World) (ch : ℤ) (priv : Priv) (q : ℕ) : Prop :=
  (q = 0 ∧ Failed w w') ∨
  (q ≠ 0 ∧ w.blocks q = none ∧ w'.refused = w.refused ∧ ∃ r, r ≠ 0 ∧ r ≠ q ∧ w.blocks r = none ∧ w'.blocks q = some (privBlock priv r) ∧
    w'.blocks r = some (arrBlock ch priv) ∧ ∀ x, x ≠ q → x ≠ r → w'.blocks x = w.blocks x)

theorem interpDataNew_spec (A : Alloc) (k : IKind) (w : World) {ch : ℤ} (hc : 0 < ch) :
    ∃ q w', interpDataNew A k w ch = .ok (q, w') ∧
      DataNew w w' ch (match k with | .zoh => .zoh (interpInit ch) | .linear => .linear (interpInit ch)) q := by
  unfold interpDataNew
  have : assertM (decide (ch > 0)) = .ok () := by simp [assertM, hc]; rfl
  simp only [this, ofM, ok_bindH]
  rcases allocate_cases A w (k.block { interpInit ch with lastValue := [] } 0) with ⟨w1, e1, b1, f1⟩ | ⟨q, w1, e1, q0, nq, b1, f1⟩
  · rw [e1]; exact ⟨0, w1, rfl, Or.inl ⟨rfl, b1, by omega⟩⟩
  rw [e1]
  dsimp only
  rw [if_neg q0]
  rcases allocate_cases A w1 (.values (List.replicate ch.toNat zero32)) with ⟨w2, e2, b2, f2⟩ | ⟨r, w2, e2, r0, nr, b2, f2⟩
  · rw [e2]
    dsimp only
    have hq : w2.blocks q = some (k.block { interpInit ch with lastValue := [] } 0) := by rw [b2, b1, if_pos rfl]
    rw [poke_ok hq, ok_bindH, if_pos rfl, free_ok (b := k.block { interpInit ch with lastValue := [] } 0) q0 (by rw [set_blocks, if_pos rfl]), ok_bindH]
    refine ⟨_, _, rfl, Or.inl ⟨rfl, world_ext fun x => ?_, ?_⟩⟩
    · rw [drop_blocks, set_blocks, b2, b1]
      split_ifs with hx
      · rw [hx, nq]
      · rfl
    · show w.refused < w2.refused; omega
  · rw [e2]
    dsimp only
    rw [b1] at nr
    have hrq : r ≠ q := by rintro rfl; rw [if_pos rfl] at nr; cases nr
    rw [if_neg hrq] at nr
    have hq : w2.blocks q = some (k.block { interpInit ch with lastValue := [] } 0) := by rw [b2, if_neg hrq.symm, b1, if_pos rfl]
    rw [poke_ok hq, ok_bindH, if_neg r0]
    refine ⟨_, _, rfl, Or.inr ⟨q0, nq, f2.trans f1, r, r0, hrq, nr, ?_, ?_, fun x h1 h2 => ?_⟩⟩
    · rw [set_blocks, if_pos rfl]; cases k <;> rfl
    · rw [set_blocks, if_neg hrq, b2, if_pos rfl]; cases k <;> rfl
    · rw [set_blocks, if_neg h1, b2, if_neg h2, b1, if_neg h1]

theorem sincFilterNew_spec (A : Alloc) (t : CoeffTable) (w : World) {ch bLen : ℤ} (hc : 0 < ch) (hc' : ch ≤ 128)
    (hb : sincBLen t ch = .ok bLen) :
    ∃ q w', sincFilterNew A t w ch = .ok (q, w') ∧ DataNew w w' ch (.sinc (sincFilterInit t bLen)) q := by
  unfold sincFilterNew
  have : assertM (decide (ch > 0) && decide (ch ≤ 128)) = .ok () := by simp [assertM, hc, hc']; rfl
  simp only [this, ofM, ok_bindH]
  rcases allocate_cases A w (.sinc (sincFilterInit t 0) 0) with ⟨w1, e1, b1, f1⟩ | ⟨q, w1, e1, q0, nq, b1, f1⟩
  · rw [e1]; exact ⟨0, w1, rfl, Or.inl ⟨rfl, b1, by omega⟩⟩
  rw [e1]
  dsimp only
  rw [if_neg q0, hb]
  dsimp only
  rw [ok_bindH]
  rcases allocate_cases A w1 (.buffer (bLen + ch) (fun _ => zero32)) with ⟨w2, e2, b2, f2⟩ | ⟨r, w2, e2, r0, nr, b2, f2⟩
  · rw [e2]
    dsimp only
    have hq : w2.blocks q = some (.sinc (sincFilterInit t 0) 0) := by rw [b2, b1, if_pos rfl]
    rw [poke_ok hq, ok_bindH, if_pos rfl, free_ok (b := .sinc (sincFilterInit t bLen) 0) q0 (by rw [set_blocks, if_pos rfl]), ok_bindH]
    refine ⟨_, _, rfl, Or.inl ⟨rfl, world_ext fun x => ?_, ?_⟩⟩
    · rw [drop_blocks, set_blocks, b2, b1]
      split_ifs with hx
      · rw [hx, nq]
      · rfl
    · show w.refused < w2.refused; omega
  · rw [e2]
    dsimp only
    rw [b1] at nr
    have hrq : r ≠ q := by rintro rfl; rw [if_pos rfl] at nr; cases nr
    rw [if_neg hrq] at nr
    have hq : w2.blocks q = some (.sinc (sincFilterInit t 0) 0) := by rw [b2, if_neg hrq.symm, b1, if_pos rfl]
    rw [poke_ok hq, ok_bindH, if_neg r0]
    refine ⟨_, _, rfl, Or.inr ⟨q0, nq, f2.trans f1, r, r0, hrq, nr, ?_, ?_, fun x h1 h2 => ?_⟩⟩
    · rw [set_blocks, if_pos rfl]; rfl
    · rw [set_blocks, if_neg hrq, b2, if_pos rfl]; rfl
    · rw [set_blocks, if_neg h1, b2, if_neg h2, b1, if_neg h1]

/-- Outcome of a constructor of handles: refused for want of memory with nothing changed, or a new handle with value `st`. -/
def Made (w : World) (res : H (ℤ × ℕ × World)) (st : SrcState) : Prop :=
  ∃ e p w', res = .ok (e, p, w') ∧ ((p = 0 ∧ e = Err.MALLOC_FAILED ∧ Failed w w') ∨
    (e = 0 ∧ w'.refused = w.refused ∧ ∃ q r, Added w w' p q r ∧ Handle w' p q r st))

theorem blocks0 {w w' : World} {a b c : ℕ} (h : Added w w' a b c) (h0 : w.blocks 0 = none) : w'.blocks 0 = none := by
  rw [h.other 0 h.a0.symm h.b0.symm h.c0.symm, h0]

/-- The end of the constructors: the private data is attached and reset. -/
theorem attach_spec {w w1 w2 : World} {p q : ℕ} {s st1 : SrcState} {priv : Priv} (h0 : w.blocks 0 = none) (p0 : p ≠ 0) (np : w.blocks p = none)
    (hs : s.priv = .null) (b1 : ∀ x, w1.blocks x = if x = p then some (.state s 0) else w.blocks x) (f1 : w1.refused = w.refused)
    (hst : st1 = { s with priv }) (hl : Like st1 st1) (ht : Tight st1.channels priv) (hd : DataNew w1 w2 s.channels priv q) :
    Made w (do
      let w ← poke w2 p (.state s q)
      if q = 0 then do
        let w ← free w p
        return (Err.MALLOC_FAILED, 0, w)
      let w ← resetAt w p
      return (Err.NO_ERROR, p, w)) { st1 with priv := resetPriv st1 } := by
  have hp1 : w1.blocks p = some (.state s 0) := by rw [b1, if_pos rfl]
  rcases hd with ⟨rfl, hb, hf⟩ | ⟨q0, nq, hf, r, r0, hrq, nr, hq2, hr2, ho⟩
  · have hp2 : w2.blocks p = some (.state s 0) := by rw [hb, hp1]
    rw [poke_ok hp2, ok_bindH, if_pos rfl, free_ok p0 (b := .state s 0) (by rw [set_blocks, if_pos rfl]), ok_bindH]
    refine ⟨_, _, _, rfl, Or.inl ⟨rfl, rfl, world_ext fun x => ?_, ?_⟩⟩
    · rw [drop_blocks, set_blocks, hb, b1]
      split_ifs with hx
      · rw [hx, np]
      · rfl
    · show w.refused < w2.refused; omega
  · have hqp : q ≠ p := by rintro rfl; rw [hp1] at nq; cases nq
    have hrp : r ≠ p := by rintro rfl; rw [hp1] at nr; cases nr
    rw [b1, if_neg hqp] at nq
    rw [b1, if_neg hrp] at nr
    have hp2 : w2.blocks p = some (.state s 0) := by rw [ho p hqp.symm hrp.symm, hp1]
    rw [poke_ok hp2, ok_bindH, if_neg q0]
    have hH : Handle (w2.set p (.state s q)) p q r st1 := by
      subst hst
      refine ⟨?_, ?_, ?_, ht, hl⟩
      · rw [set_blocks, if_pos rfl]; cases s; cases hs; rfl
      · rw [set_blocks, if_neg hqp, hq2]
      · rw [set_blocks, if_neg hrp, hr2]
    have h00 : (w2.set p (.state s q)).blocks 0 = none := by
      rw [set_blocks, if_neg p0.symm, ho 0 q0.symm r0.symm, b1, if_neg p0.symm, h0]
    have hl' : Like st1 { st1 with priv := resetPriv st1 } :=
      ⟨rfl, rfl, rfl, rfl, rfl, resetPriv_like hl, hl.kind, hl.pos⟩
    obtain ⟨w', e', hH', ho', hf', -⟩ := store_ok h00 hH hl' (tight_like hl' (by subst hst; exact ht))
    unfold resetAt
    rw [load_ok h00 hH, ok_bindH, e', ok_bindH]
    refine ⟨_, _, _, rfl, Or.inr ⟨rfl, ?_, q, r, ⟨np, nq, nr, p0, q0, r0, fun x h1 h2 h3 => ?_⟩, hH'⟩⟩
    · rw [hf']; show w2.refused = _; rw [hf, f1]
    · rw [ho' x h1 h2 h3, set_blocks, if_neg h1, ho x h2 h3, b1, if_neg h1]

theorem newH_spec (A : Alloc) {cfg : Config} {w : World} {type ch e : ℤ} {st : SrcState} (h0 : w.blocks 0 = none)
    (h : srcNew cfg type ch = .ok (e, some st)) : e = 0 ∧ Made w (newH A cfg w type ch) st := by
  have hl := new_like h
  unfold srcNew at h
  unfold newH
  cases ht : cfg.table type with
  | some t =>
    rw [ht] at h
    dsimp only at h ⊢
    unfold sincStateNew at h
    obtain ⟨u, hc, h⟩ := bind_ok h
    have hc := assert_pos hc
    split at h
    · have h := ok_inj h; simp at h
    rename_i hle
    obtain ⟨bLen, hb, h⟩ := bind_ok h
    have h := ok_inj h
    simp only [Prod.mk.injEq, Option.some.injEq] at h
    obtain ⟨rfl, rfl⟩ := h
    refine ⟨rfl, ?_⟩
    unfold sincStateNewH
    have : assertM (decide (ch > 0)) = .ok () := by simp [assertM, hc]; rfl
    simp only [this, ofM, ok_bindH]
    rw [if_neg hle]
    rcases allocate_cases A w (.state (stateInit (sincVt ch) ch) 0) with ⟨w1, e1, b1, f1⟩ | ⟨p, w1, e1, p0, np, b1, f1⟩
    · rw [e1]; exact ⟨_, 0, w1, rfl, Or.inl ⟨rfl, rfl, b1, by omega⟩⟩
    rw [e1]
    dsimp only
    rw [if_neg p0]
    obtain ⟨q, w2, e2, hd⟩ := sincFilterNew_spec A t w1 hc (by omega) hb
    rw [e2, ok_bindH]
    refine attach_spec h0 p0 np rfl b1 f1 rfl ?_ ?_ hd
    · have := hl.pos
      unfold sincVt
      have hb0 : 0 ≤ bLen := by
        have := hl.priv
        rw [show ({ stateInit (sincVt ch) ch with priv := resetPriv { stateInit (sincVt ch) ch with priv := .sinc (sincFilterInit t bLen) } } : SrcState).priv
          = .sinc (sincReset ch (sincFilterInit t bLen)) by
            show resetPriv _ = _
            unfold resetPriv stateInit sincVt; dsimp only; split_ifs <;> rfl] at this
        exact this.2
      split_ifs <;> exact ⟨rfl, rfl, rfl, rfl, rfl, ⟨FGeom.refl _ _, hb0⟩, trivial, hc⟩
    · intro i _; rfl
  | none =>
    rw [ht] at h
    dsimp only at h ⊢
    by_cases h3 : type = SRC_ZERO_ORDER_HOLD
    · rw [if_pos h3] at h ⊢
      unfold zohStateNew at h
      obtain ⟨u, hc, h⟩ := bind_ok h
      have hc := assert_pos hc
      have h := ok_inj h
      simp only [Prod.mk.injEq, Option.some.injEq] at h
      obtain ⟨rfl, rfl⟩ := h
      refine ⟨rfl, ?_⟩
      unfold interpStateNew
      have : assertM (decide (ch > 0)) = .ok () := by simp [assertM, hc]; rfl
      simp only [this, ofM, ok_bindH]
      rcases allocate_cases A w (.state (stateInit IKind.zoh.vt ch) 0) with ⟨w1, e1, b1, f1⟩ | ⟨p, w1, e1, p0, np, b1, f1⟩
      · rw [e1]; exact ⟨_, 0, w1, rfl, Or.inl ⟨rfl, rfl, b1, by omega⟩⟩
      rw [e1]
      dsimp only
      rw [if_neg p0]
      obtain ⟨q, w2, e2, hd⟩ := interpDataNew_spec A .zoh w1 hc
      rw [e2, ok_bindH]
      exact attach_spec (priv := .zoh (interpInit ch)) h0 p0 np rfl b1 f1 rfl ⟨rfl, rfl, rfl, rfl, rfl, by simp [PrivLike, stateInit, interpInit], trivial, hc⟩ trivial hd
    rw [if_neg h3] at h ⊢
    by_cases h4 : type = SRC_LINEAR
    · rw [if_pos h4] at h ⊢
      unfold linearStateNew at h
      obtain ⟨u, hc, h⟩ := bind_ok h
      have hc := assert_pos hc
      have h := ok_inj h
      simp only [Prod.mk.injEq, Option.some.injEq] at h
      obtain ⟨rfl, rfl⟩ := h
      refine ⟨rfl, ?_⟩
      unfold interpStateNew
      have : assertM (decide (ch > 0)) = .ok () := by simp [assertM, hc]; rfl
      simp only [this, ofM, ok_bindH]
      rcases allocate_cases A w (.state (stateInit IKind.linear.vt ch) 0) with ⟨w1, e1, b1, f1⟩ | ⟨p, w1, e1, p0, np, b1, f1⟩
      · rw [e1]; exact ⟨_, 0, w1, rfl, Or.inl ⟨rfl, rfl, b1, by omega⟩⟩
      rw [e1]
      dsimp only
      rw [if_neg p0]
      obtain ⟨q, w2, e2, hd⟩ := interpDataNew_spec A .linear w1 hc
      rw [e2, ok_bindH]
      exact attach_spec (priv := .linear (interpInit ch)) h0 p0 np rfl b1 f1 rfl ⟨rfl, rfl, rfl, rfl, rfl, by simp [PrivLike, stateInit, interpInit], trivial, hc⟩ trivial hd
    · rw [if_neg h4] at h
      have h := ok_inj h; simp at h

/-- Without a handle nothing happens on the heap: the arguments are refused. -/
theorem newH_none (A : Alloc) {cfg : Config} {w : World} {type ch e : ℤ} (h : srcNew cfg type ch = .ok (e, none)) :
    newH A cfg w type ch = .ok (e, 0, w) := by
  unfold srcNew at h
  unfold newH
  cases ht : cfg.table type with
  | some t =>
    rw [ht] at h
    dsimp only at h ⊢
    unfold sincStateNew at h
    obtain ⟨u, hc, h⟩ := bind_ok h
    have hc := assert_pos hc
    have : assertM (decide (ch > 0)) = .ok () := by simp [assertM, hc]; rfl
    unfold sincStateNewH
    simp only [this, ofM, ok_bindH]
    split at h
    · rename_i hle
      have h := ok_inj h; simp only [Prod.mk.injEq] at h
      rw [if_pos hle, ← h.1]; rfl
    · obtain ⟨bLen, hb, h⟩ := bind_ok h
      have h := ok_inj h
      simp at h
  | none =>
    rw [ht] at h
    dsimp only at h ⊢
    split at h
    · unfold zohStateNew at h
      obtain ⟨u, hc, h⟩ := bind_ok h
      have h := ok_inj h
      simp at h
    split at h
    · unfold linearStateNew at h
      obtain ⟨u, hc, h⟩ := bind_ok h
      have h := ok_inj h
      simp at h
    · rename_i h3 h4
      have h := ok_inj h; simp only [Prod.mk.injEq] at h
      rw [if_neg h3, if_neg h4, ← h.1]; rfl

/-! ### copying -/

/-- Outcome of a copy. -/
def Copied (w : World) (res : H (ℕ × World)) (st : SrcState) : Prop :=
  ∃ d w', res = .ok (d, w') ∧ ((d = 0 ∧ Failed w w') ∨ (w'.refused = w.refused ∧ ∃ q r, Added w w' d q r ∧ Handle w' d q r st))

theorem kind_get (k : IKind) (z : InterpData) (r : ℕ) : k.get (k.block z r) = .ok (z, r) := by cases k <;> rfl

theorem interpCopy_spec (A : Alloc) (k : IKind) {w : World} {p q r : ℕ} {st : SrcState} {z : InterpData} (h0 : w.blocks 0 = none)
    (h : Handle w p q r st) (hz : st.priv = match k with | .zoh => .zoh z | .linear => .linear z) : Copied w (interpCopy A k w p) st := by
  have hqb : w.blocks q = some (k.block { z with lastValue := [] } r) := by rw [h.hq, hz]; cases k <;> rfl
  have hrb : w.blocks r = some (.values z.lastValue) := by rw [h.hr, hz]; cases k <;> rfl
  have hlen : z.lastValue.length = st.channels.toNat := by
    have := h.like.priv
    rw [hz] at this
    cases k <;> exact this
  unfold interpCopy
  rw [peek_ok h.hp, ok_bindH]
  simp only [asState, pure_bindH]
  rw [if_neg (h.q0 h0)]
  rcases allocate_cases A w (.state (stateInit .zoh 0) 0) with ⟨w1, e1, b1, f1⟩ | ⟨d, w1, e1, d0, nd, b1, f1⟩
  · rw [e1]; exact ⟨0, w1, rfl, Or.inl ⟨rfl, b1, by omega⟩⟩
  rw [e1]
  dsimp only
  have hqd : q ≠ d := by rintro rfl; rw [hqb] at nd; cases nd
  have hrd : r ≠ d := by rintro rfl; rw [hrb] at nd; cases nd
  rw [if_neg d0, poke_ok (b := .state (stateInit .zoh 0) 0) (by rw [b1, if_pos rfl]), ok_bindH]
  generalize hW1 : w1.set d (.state { st with priv := .null } q) = W1
  have B1 : ∀ x, W1.blocks x = if x = d then some (.state { st with priv := .null } q) else w.blocks x := by
    intro x; rw [← hW1, set_blocks]; split_ifs with hx
    · rfl
    · rw [b1, if_neg hx]
  have F1 : W1.refused = w.refused := by rw [← hW1]; exact f1
  have hq1 : W1.blocks q = some (k.block { z with lastValue := [] } r) := by rw [B1, if_neg hqd, hqb]
  rw [peek_ok hq1, ok_bindH, kind_get, ok_bindH]
  dsimp only
  rcases allocate_cases A W1 (k.block { interpInit 0 with lastValue := [] } 0) with ⟨w2, e2, b2, f2⟩ | ⟨t, w2, e2, t0, nt, b2, f2⟩
  · rw [e2]
    dsimp only
    rw [if_pos rfl, free_ok d0 (b := .state { st with priv := .null } q) (by rw [b2, B1, if_pos rfl]), ok_bindH]
    refine ⟨0, _, rfl, Or.inl ⟨rfl, world_ext fun x => ?_, ?_⟩⟩
    · rw [drop_blocks, b2, B1]; split_ifs with hx
      · rw [hx, nd]
      · rfl
    · show w.refused < w2.refused; omega
  rw [e2]
  dsimp only
  have htd : t ≠ d := by rintro rfl; rw [B1, if_pos rfl] at nt; cases nt
  rw [B1, if_neg htd] at nt
  rw [if_neg t0, poke_ok (b := k.block { interpInit 0 with lastValue := [] } 0) (by rw [b2, if_pos rfl]), ok_bindH]
  generalize hW2 : w2.set t (k.block { z with lastValue := [] } r) = W2
  have B2 : ∀ x, W2.blocks x = if x = t then some (k.block { z with lastValue := [] } r) else W1.blocks x := by
    intro x; rw [← hW2, set_blocks]; split_ifs with hx
    · rfl
    · rw [b2, if_neg hx]
  have F2 : W2.refused = w.refused := by rw [← hW2]; exact f2.trans F1
  have hrt : r ≠ t := by rintro rfl; rw [hrb] at nt; cases nt
  have hqt : q ≠ t := by rintro rfl; rw [hqb] at nt; cases nt
  rcases allocate_cases A W2 (.values ((List.range st.channels.toNat).map fun i : ℕ => A.junk W2 i)) with ⟨w3, e3, b3, f3⟩ | ⟨l, w3, e3, l0, nl, b3, f3⟩
  · rw [e3]
    dsimp only
    rw [poke_ok (b := k.block { z with lastValue := [] } r) (by rw [b3, B2, if_pos rfl]), ok_bindH, if_pos rfl,
      free_ok d0 (b := .state { st with priv := .null } q) (by rw [set_blocks, if_neg htd.symm, b3, B2, if_neg htd.symm, B1, if_pos rfl]), ok_bindH,
      free_ok t0 (b := k.block { z with lastValue := [] } 0) (by rw [drop_blocks, if_neg htd, set_blocks, if_pos rfl]), ok_bindH]
    refine ⟨0, _, rfl, Or.inl ⟨rfl, world_ext fun x => ?_, ?_⟩⟩
    · rw [drop_blocks, drop_blocks, set_blocks, b3, B2, B1]
      by_cases hx : x = t
      · rw [if_pos hx, hx, nt]
      by_cases hx' : x = d
      · rw [if_neg hx, if_pos hx', hx', nd]
      · simp only [hx, hx', if_false]
    · show w.refused < w3.refused; omega
  rw [e3]
  dsimp only
  have hlt : l ≠ t := by rintro rfl; rw [B2, if_pos rfl] at nl; cases nl
  rw [B2, if_neg hlt] at nl
  have hld : l ≠ d := by rintro rfl; rw [B1, if_pos rfl] at nl; cases nl
  rw [B1, if_neg hld] at nl
  have hrl : r ≠ l := by rintro rfl; rw [hrb] at nl; cases nl
  rw [poke_ok (b := k.block { z with lastValue := [] } r) (by rw [b3, if_neg hlt.symm, B2, if_pos rfl]), ok_bindH, if_neg l0]
  generalize hW3 : w3.set t (k.block { z with lastValue := [] } l) = W3
  have B3 : ∀ x, W3.blocks x = if x = t then some (k.block { z with lastValue := [] } l) else if x = l then
      some (.values ((List.range st.channels.toNat).map fun i : ℕ => A.junk W2 i)) else W1.blocks x := by
    intro x; rw [← hW3, set_blocks]; split_ifs with hx hx'
    · rfl
    · rw [b3, if_pos hx']
    · rw [b3, if_neg hx', B2, if_neg hx]
  have F3 : W3.refused = w.refused := by rw [← hW3]; exact f3.trans F2
  rw [peek_ok (b := .values z.lastValue) (by rw [B3, if_neg hrt, if_neg hrl, B1, if_neg hrd, hrb]), ok_bindH]
  have hl3 : W3.blocks l = some (.values ((List.range st.channels.toNat).map fun i : ℕ => A.junk W2 i)) := by rw [B3, if_neg hlt, if_pos rfl]
  rw [peek_ok hl3]
  simp only [asValues, pure_bindH, ok_bindH]
  have hin : inBounds (decide (st.channels.toNat ≤ z.lastValue.length ∧
      st.channels.toNat ≤ ((List.range st.channels.toNat).map fun i : ℕ => A.junk W2 i).length)) = .ok () := by
    unfold inBounds; rw [if_pos (by simp [hlen])]; rfl
  have hcp : z.lastValue.take st.channels.toNat ++ ((List.range st.channels.toNat).map fun i : ℕ => A.junk W2 i).drop st.channels.toNat =
      z.lastValue := by
    rw [List.take_of_length_le hlen.le, List.drop_of_length_le (by simp), List.append_nil]
  rw [hin, ok_bindH, poke_ok hl3, ok_bindH, hcp, poke_ok (b := .state { st with priv := .null } q)
    (by rw [set_blocks, if_neg hld.symm, B3, if_neg htd.symm, if_neg hld.symm, B1, if_pos rfl]), ok_bindH]
  refine ⟨d, _, rfl, Or.inr ⟨F3, t, l, ⟨nd, nt, nl, d0, t0, l0, fun x h1 h2 h3 => ?_⟩, ⟨?_, ?_, ?_, h.tight, h.like⟩⟩⟩
  · rw [set_blocks, if_neg h1, set_blocks, if_neg h3, B3, if_neg h2, if_neg h3, B1, if_neg h1]
  · rw [set_blocks, if_pos rfl]
  · rw [set_blocks, if_neg htd, set_blocks, if_neg hlt.symm, B3, if_pos rfl, hz]; cases k <;> rfl
  · rw [set_blocks, if_neg hld, set_blocks, if_pos rfl, hz]; cases k <;> rfl

theorem sincCopy_spec (A : Alloc) {w : World} {p q r : ℕ} {st : SrcState} {f : SincFilter} (h0 : w.blocks 0 = none)
    (h : Handle w p q r st) (hz : st.priv = .sinc f) : Copied w (sincCopy A w p) st := by
  have hqb : w.blocks q = some (.sinc { f with buffer := fun _ => zero32 } r) := by rw [h.hq, hz]; rfl
  have hrb : w.blocks r = some (.buffer (f.bLen + st.channels) f.buffer) := by rw [h.hr, hz]; rfl
  have ht := h.tight
  rw [hz] at ht
  unfold sincCopy
  rw [peek_ok h.hp, ok_bindH]
  simp only [asState, pure_bindH]
  rw [if_neg (h.q0 h0)]
  rcases allocate_cases A w (.state (stateInit .zoh 0) 0) with ⟨w1, e1, b1, f1⟩ | ⟨d, w1, e1, d0, nd, b1, f1⟩
  · rw [e1]; exact ⟨0, w1, rfl, Or.inl ⟨rfl, b1, by omega⟩⟩
  rw [e1]
  dsimp only
  have hqd : q ≠ d := by rintro rfl; rw [hqb] at nd; cases nd
  have hrd : r ≠ d := by rintro rfl; rw [hrb] at nd; cases nd
  rw [if_neg d0, poke_ok (b := .state (stateInit .zoh 0) 0) (by rw [b1, if_pos rfl]), ok_bindH]
  generalize hW1 : w1.set d (.state { st with priv := .null } q) = W1
  have B1 : ∀ x, W1.blocks x = if x = d then some (.state { st with priv := .null } q) else w.blocks x := by
    intro x; rw [← hW1, set_blocks]; split_ifs with hx
    · rfl
    · rw [b1, if_neg hx]
  have F1 : W1.refused = w.refused := by rw [← hW1]; exact f1
  have hq1 : W1.blocks q = some (.sinc { f with buffer := fun _ => zero32 } r) := by rw [B1, if_neg hqd, hqb]
  rw [peek_ok hq1, ok_bindH]
  simp only [asSinc, pure_bindH]
  rcases allocate_cases A W1 (.sinc (sincFilterInit ⟨0, 0, fun _ => zero32⟩ 0) 0) with ⟨w2, e2, b2, f2⟩ | ⟨t, w2, e2, t0, nt, b2, f2⟩
  · rw [e2]
    dsimp only
    rw [if_pos rfl, free_ok d0 (b := .state { st with priv := .null } q) (by rw [b2, B1, if_pos rfl]), ok_bindH]
    refine ⟨0, _, rfl, Or.inl ⟨rfl, world_ext fun x => ?_, ?_⟩⟩
    · rw [drop_blocks, b2, B1]; split_ifs with hx
      · rw [hx, nd]
      · rfl
    · show w.refused < w2.refused; omega
  rw [e2]
  dsimp only
  have htd : t ≠ d := by rintro rfl; rw [B1, if_pos rfl] at nt; cases nt
  rw [B1, if_neg htd] at nt
  rw [if_neg t0, poke_ok (b := .sinc (sincFilterInit ⟨0, 0, fun _ => zero32⟩ 0) 0) (by rw [b2, if_pos rfl]), ok_bindH]
  generalize hW2 : w2.set t (.sinc { f with buffer := fun _ => zero32 } r) = W2
  have B2 : ∀ x, W2.blocks x = if x = t then some (.sinc { f with buffer := fun _ => zero32 } r) else W1.blocks x := by
    intro x; rw [← hW2, set_blocks]; split_ifs with hx
    · rfl
    · rw [b2, if_neg hx]
  have F2 : W2.refused = w.refused := by rw [← hW2]; exact f2.trans F1
  have hrt : r ≠ t := by rintro rfl; rw [hrb] at nt; cases nt
  have hqt : q ≠ t := by rintro rfl; rw [hqb] at nt; cases nt
  rcases allocate_cases A W2 (.buffer (f.bLen + st.channels) (copied (f.bLen + st.channels) (A.junk W2) fun _ => zero32))
    with ⟨w3, e3, b3, f3⟩ | ⟨l, w3, e3, l0, nl, b3, f3⟩
  · rw [e3]
    dsimp only
    rw [poke_ok (b := .sinc { f with buffer := fun _ => zero32 } r) (by rw [b3, B2, if_pos rfl]), ok_bindH, if_pos rfl,
      free_ok d0 (b := .state { st with priv := .null } q) (by rw [set_blocks, if_neg htd.symm, b3, B2, if_neg htd.symm, B1, if_pos rfl]), ok_bindH,
      free_ok t0 (b := .sinc { f with buffer := fun _ => zero32 } 0) (by rw [drop_blocks, if_neg htd, set_blocks, if_pos rfl]), ok_bindH]
    refine ⟨0, _, rfl, Or.inl ⟨rfl, world_ext fun x => ?_, ?_⟩⟩
    · rw [drop_blocks, drop_blocks, set_blocks, b3, B2, B1]
      by_cases hx : x = t
      · rw [if_pos hx, hx, nt]
      by_cases hx' : x = d
      · rw [if_neg hx, if_pos hx', hx', nd]
      · simp only [hx, hx', if_false]
    · show w.refused < w3.refused; omega
  rw [e3]
  dsimp only
  have hlt : l ≠ t := by rintro rfl; rw [B2, if_pos rfl] at nl; cases nl
  rw [B2, if_neg hlt] at nl
  have hld : l ≠ d := by rintro rfl; rw [B1, if_pos rfl] at nl; cases nl
  rw [B1, if_neg hld] at nl
  have hrl : r ≠ l := by rintro rfl; rw [hrb] at nl; cases nl
  rw [poke_ok (b := .sinc { f with buffer := fun _ => zero32 } r) (by rw [b3, if_neg hlt.symm, B2, if_pos rfl]), ok_bindH, if_neg l0]
  generalize hW3 : w3.set t (.sinc { f with buffer := fun _ => zero32 } l) = W3
  have B3 : ∀ x, W3.blocks x = if x = t then some (.sinc { f with buffer := fun _ => zero32 } l) else if x = l then
      some (.buffer (f.bLen + st.channels) (copied (f.bLen + st.channels) (A.junk W2) fun _ => zero32)) else W1.blocks x := by
    intro x; rw [← hW3, set_blocks]; split_ifs with hx hx'
    · rfl
    · rw [b3, if_pos hx']
    · rw [b3, if_neg hx', B2, if_neg hx]
  have F3 : W3.refused = w.refused := by rw [← hW3]; exact f3.trans F2
  rw [peek_ok (b := .buffer (f.bLen + st.channels) f.buffer) (by rw [B3, if_neg hrt, if_neg hrl, B1, if_neg hrd, hrb]), ok_bindH]
  have hl3 : W3.blocks l = some (.buffer (f.bLen + st.channels) (copied (f.bLen + st.channels) (A.junk W2) fun _ => zero32)) := by
    rw [B3, if_neg hlt, if_pos rfl]
  rw [peek_ok hl3]
  simp only [asBuffer, pure_bindH, ok_bindH]
  have hin : inBounds (decide (f.bLen + st.channels ≤ f.bLen + st.channels ∧ f.bLen + st.channels ≤ f.bLen + st.channels)) = .ok () := by
    unfold inBounds; rw [if_pos (by simp)]; rfl
  have hcp : copied (f.bLen + st.channels) f.buffer (copied (f.bLen + st.channels) (A.junk W2) fun _ => zero32) = f.buffer := by
    funext i
    unfold copied
    split_ifs with hi
    · rfl
    · exact (ht i hi).symm
  rw [hin, ok_bindH, poke_ok hl3, ok_bindH, hcp, poke_ok (b := .state { st with priv := .null } q)
    (by rw [set_blocks, if_neg hld.symm, B3, if_neg htd.symm, if_neg hld.symm, B1, if_pos rfl]), ok_bindH]
  refine ⟨d, _, rfl, Or.inr ⟨F3, t, l, ⟨nd, nt, nl, d0, t0, l0, fun x h1 h2 h3 => ?_⟩, ⟨?_, ?_, ?_, h.tight, h.like⟩⟩⟩
  · rw [set_blocks, if_neg h1, set_blocks, if_neg h3, B3, if_neg h2, if_neg h3, B1, if_neg h1]
  · rw [set_blocks, if_pos rfl]
  · rw [set_blocks, if_neg htd, set_blocks, if_neg hlt.symm, B3, if_pos rfl, hz]; rfl
  · rw [set_blocks, if_neg hld, set_blocks, if_pos rfl, hz]; rfl

theorem copyH_spec (A : Alloc) {w : World} {p q r : ℕ} {st : SrcState} (h0 : w.blocks 0 = none) (h : Handle w p q r st) :
    Copied w (copyH A w p) st := by
  unfold copyH
  rw [peek_ok h.hp, ok_bindH]
  simp only [asState, pure_bindH]
  have hk := h.like.kind
  cases hv : st.vt <;> rw [hv] at hk <;> cases hs : st.priv <;> rw [hs] at hk <;> simp only [PrivKind] at hk
  · exact interpCopy_spec A .zoh h0 h hs
  · exact interpCopy_spec A .linear h0 h hs
  all_goals exact sincCopy_spec A h0 h hs

theorem closeH_spec {w : World} {p q r : ℕ} {st : SrcState} (h0 : w.blocks 0 = none) (h : Handle w p q r st) :
    ∃ w', closeH w p = .ok w' ∧ (∀ x, w'.blocks x = if x = p ∨ x = q ∨ x = r then none else w.blocks x) ∧ w'.refused = w.refused := by
  have hpq := h.pq; have hpr := h.pr; have hqr := h.qr
  unfold closeH
  rw [peek_ok h.hp, ok_bindH]
  simp only [asState, pure_bindH]
  rw [if_neg (h.q0 h0), peek_ok h.hq, ok_bindH]
  have ha : (privBlock st.priv r).array = .ok r := by
    have := like_notnull h.like
    cases hs : st.priv <;> first | exact absurd hs this | rfl
  rw [ha, ok_bindH, free_ok (h.r0 h0) h.hr, ok_bindH, free_ok (h.q0 h0) (b := privBlock st.priv r) (by rw [drop_blocks, if_neg hqr, h.hq]), ok_bindH,
    free_ok (h.p0 h0) (b := .state { st with priv := .null } q) (by rw [drop_blocks, if_neg hpq, drop_blocks, if_neg hpr, h.hp])]
  refine ⟨_, rfl, fun x => ?_, rfl⟩
  rw [drop_blocks, drop_blocks, drop_blocks]
  by_cases h1 : x = p
  · simp [h1]
  by_cases h2 : x = q
  · simp [h2]
  by_cases h3 : x = r
  · simp [h3]
  simp [h1, h2, h3]

/-! ### the calls -/

theorem ofM_ok {α : Type} (a : α) : ofM (.ok a) = .ok a := rfl
theorem ofM_err {α : Type} (f : Fault) : ofM (.error f : M α) = .error (.code f) := rfl
theorem err_bindH {α β : Type} (e : HFault) (f : α → H β) : ((.error e : H α) >>= f) = .error e := rfl

theorem like_reset {st : SrcState} (L : Like st st) : Like st (srcResetState st) := by
  have := op_like L (op := .reset) (o := ⟨(srcReset (some st)).1, none, none, 0, srcError (srcReset (some st)).2, srcGetChannels (srcReset (some st)).2⟩)
    (st' := srcResetState st) rfl
  exact this

/-- If the model on values stops, so does the one on the heap, unless memory runs out before. -/
theorem newH_err (A : Alloc) {cfg : Config} {w : World} {type ch : ℤ} {f : Fault} (h : srcNew cfg type ch = .error f) :
    newH A cfg w type ch = .error (.code f) ∨ ∃ w', newH A cfg w type ch = .ok (Err.MALLOC_FAILED, 0, w') ∧ Failed w w' := by
  unfold srcNew at h
  unfold newH
  cases ht : cfg.table type with
  | some t =>
    rw [ht] at h
    dsimp only at h ⊢
    unfold sincStateNew at h
    unfold sincStateNewH
    cases ha : assertM (decide (ch > 0)) with
    | error g =>
      rw [ha] at h
      have : g = f := by injection h
      subst this
      exact Or.inl rfl
    | ok u =>
      have hc := assert_pos ha
      rw [ha] at h
      replace h : (if ch > 128 then pure (Err.BAD_CHANNEL_COUNT, none) else _ : M (ℤ × Option SrcState)) = .error f := h
      simp only [ofM_ok, ok_bindH]
      split at h
      · cases h
      rename_i hle
      rw [if_neg hle]
      cases hb : sincBLen t ch with
      | ok b => rw [hb] at h; cases h
      | error g =>
        rw [hb] at h
        have : g = f := by injection h
        subst this
        rcases allocate_cases A w (.state (stateInit (sincVt ch) ch) 0) with ⟨w1, e1, b1, f1⟩ | ⟨p, w1, e1, p0, np, b1, f1⟩
        · rw [e1]; exact Or.inr ⟨w1, rfl, b1, by omega⟩
        rw [e1]
        dsimp only
        rw [if_neg p0]
        unfold sincFilterNew
        have : assertM (decide (ch > 0) && decide (ch ≤ 128)) = .ok () := by
          have : ch ≤ 128 := by omega
          simp [assertM, hc, this]; rfl
        simp only [this, ofM_ok, ok_bindH]
        rcases allocate_cases A w1 (.sinc (sincFilterInit t 0) 0) with ⟨w2, e2, b2, f2⟩ | ⟨q, w2, e2, q0, nq, b2, f2⟩
        · rw [e2]
          dsimp only
          rw [if_pos rfl, pure_bindH]
          dsimp only
          have hp : w2.blocks p = some (.state (stateInit (sincVt ch) ch) 0) := by rw [b2, b1, if_pos rfl]
          rw [poke_ok hp, ok_bindH, if_pos rfl, free_ok p0 (b := .state (stateInit (sincVt ch) ch) 0) (by rw [set_blocks, if_pos rfl]), ok_bindH]
          refine Or.inr ⟨_, rfl, world_ext fun x => ?_, ?_⟩
          · rw [drop_blocks, set_blocks, b2, b1]
            split_ifs with hx
            · rw [hx, np]
            · rfl
          · show w.refused < w2.refused; omega
        · rw [e2]
          dsimp only
          rw [if_neg q0, hb]
          exact Or.inl rfl
  | none =>
    rw [ht] at h
    dsimp only at h ⊢
    have key : ∀ (k : IKind), assertM (decide (ch > 0)) = .error f → interpStateNew A k w ch = .error (.code f) := by
      intro k ha
      unfold interpStateNew
      rw [ha]; rfl
    have inv : ∀ (s : M (ℤ × Option SrcState)) (x : SrcState), s = (assertM (decide (ch > 0)) >>= fun _ => pure (Err.NO_ERROR, some x)) → s = .error f →
        assertM (decide (ch > 0)) = .error f := by
      rintro s x rfl hs
      cases ha : assertM (decide (ch > 0)) with
      | ok u => rw [ha] at hs; cases hs
      | error g => rw [ha] at hs; injection hs with hs; rw [hs]
    split at h
    · rename_i h3
      rw [if_pos h3]
      exact Or.inl (key _ (inv _ _ rfl h))
    rename_i h3
    rw [if_neg h3]
    split at h
    · rename_i h4
      rw [if_pos h4]
      exact Or.inl (key _ (inv _ _ rfl h))
    · cases h

theorem new_err0 {cfg : Config} {type ch e : ℤ} (h : srcNew cfg type ch = .ok (e, none)) : e = Err.BAD_CONVERTER ∨ e = Err.BAD_CHANNEL_COUNT := by
  unfold srcNew at h
  split at h
  · unfold sincStateNew at h
    obtain ⟨u, hc, h⟩ := bind_ok h
    split at h
    · have h := ok_inj h; simp only [Prod.mk.injEq] at h; exact Or.inr h.1.symm
    · obtain ⟨bLen, hb, h⟩ := bind_ok h
      have h := ok_inj h; simp at h
  split at h
  · unfold zohStateNew at h
    obtain ⟨u, hc, h⟩ := bind_ok h
    have h := ok_inj h; simp at h
  split at h
  · unfold linearStateNew at h
    obtain ⟨u, hc, h⟩ := bind_ok h
    have h := ok_inj h; simp at h
  · have h := ok_inj h; simp only [Prod.mk.injEq] at h; exact Or.inl h.1.symm

/-- `src_callback_new` on the heap. -/
theorem callbackNewH_spec (A : Alloc) {cfg : Config} {w : World} {func : Option ℕ} {type ch : ℤ} {ud : ℕ} {e : ℤ} {st : SrcState} (h0 : w.blocks 0 = none)
    (h : srcCallbackNew cfg func type ch ud = .ok (e, some st)) : e = 0 ∧ Made w (callbackNewH A cfg w func type ch ud) st := by
  unfold srcCallbackNew at h
  unfold callbackNewH
  by_cases hf : func = none
  · rw [if_pos hf] at h
    have h := ok_inj h; simp at h
  rw [if_neg hf] at h ⊢
  obtain ⟨⟨e1, s1⟩, h1, h⟩ := bind_ok h
  cases s1 with
  | none => have h := ok_inj h; simp at h
  | some s =>
    have h := ok_inj h
    simp only [Prod.mk.injEq, Option.some.injEq] at h
    obtain ⟨rfl, rfl⟩ := h
    obtain ⟨he, e', p, w', hr, hm⟩ := newH_spec A h0 h1
    refine ⟨he, ?_⟩
    rw [hr, ok_bindH]
    dsimp only
    rcases hm with ⟨rfl, rfl, hF⟩ | ⟨rfl, hrf, q, r, hA, hH⟩
    · rw [if_pos rfl]
      exact ⟨_, 0, w', rfl, Or.inl ⟨rfl, rfl, hF⟩⟩
    rw [if_neg hA.a0]
    have h0' := blocks0 hA h0
    rw [load_ok h0' hH, ok_bindH]
    have L := like_reset hH.like
    have L' := like_self_priv L
    obtain ⟨w2, e2, hH2, ho, hf2, _⟩ := store_gen (st' := { srcResetState s with mode := .callback, callbackFunc := func, userData := ud }) h0' hH L.channels L.priv
      ⟨rfl, rfl, rfl, rfl, rfl, L'.priv, L'.kind, L'.pos⟩ (show Tight (srcResetState s).channels (srcResetState s).priv from tight_like L hH.tight)
    rw [e2, ok_bindH]
    refine ⟨0, p, w2, rfl, Or.inr ⟨rfl, hf2.trans hrf, q, r, ⟨hA.na, hA.nb, hA.nc, hA.a0, hA.b0, hA.c0, fun x a b c => ?_⟩, hH2⟩⟩
    rw [ho x a b c, hA.other x a b c]

theorem callbackNewH_none (A : Alloc) {cfg : Config} {w : World} {func : Option ℕ} {type ch : ℤ} {ud : ℕ} {e : ℤ}
    (h : srcCallbackNew cfg func type ch ud = .ok (e, none)) : callbackNewH A cfg w func type ch ud = .ok (e, 0, w) ∧
      (e = Err.BAD_CONVERTER ∨ e = Err.BAD_CHANNEL_COUNT ∨ e = Err.BAD_CALLBACK) := by
  unfold srcCallbackNew at h
  unfold callbackNewH
  by_cases hf : func = none
  · rw [if_pos hf] at h ⊢
    have h := ok_inj h; simp only [Prod.mk.injEq] at h
    rw [← h.1]; exact ⟨rfl, Or.inr (Or.inr rfl)⟩
  rw [if_neg hf] at h ⊢
  obtain ⟨⟨e1, s1⟩, h1, h⟩ := bind_ok h
  cases s1 with
  | some s => have h := ok_inj h; simp at h
  | none =>
    have h := ok_inj h; simp only [Prod.mk.injEq] at h
    obtain ⟨rfl, -⟩ := h
    rw [newH_none A h1, ok_bindH]
    refine ⟨rfl, ?_⟩
    rcases new_err0 h1 with h | h
    · exact Or.inl h
    · exact Or.inr (Or.inl h)

theorem callbackNewH_err (A : Alloc) {cfg : Config} {w : World} {func : Option ℕ} {type ch : ℤ} {ud : ℕ} {f : Fault}
    (h : srcCallbackNew cfg func type ch ud = .error f) : callbackNewH A cfg w func type ch ud = .error (.code f) ∨
      ∃ w', callbackNewH A cfg w func type ch ud = .ok (Err.MALLOC_FAILED, 0, w') ∧ Failed w w' := by
  unfold srcCallbackNew at h
  unfold callbackNewH
  by_cases hf : func = none
  · rw [if_pos hf] at h; cases h
  rw [if_neg hf] at h ⊢
  cases h1 : srcNew cfg type ch with
  | ok x =>
    obtain ⟨e, s⟩ := x
    rw [h1] at h
    cases s <;> cases h
  | error g =>
    rw [h1] at h
    have : g = f := by injection h
    subst this
    rcases newH_err A (w := w) h1 with h2 | ⟨w', h2, hF⟩
    · rw [h2]; exact Or.inl rfl
    · rw [h2]; exact Or.inr ⟨w', rfl, hF⟩

/-- A call on a handle: what happens is what the call does to the value. -/
theorem onH_spec {w : World} {p q r : ℕ} {st : SrcState} (h0 : w.blocks 0 = none) (h : Handle w p q r st) (op : Op) :
    (∀ f, op.run st = .error f → onH w p op = .error (.code f)) ∧
    (∀ o st', op.run st = .ok (o, st') → ∃ w', onH w p op = .ok (o, w') ∧ Handle w' p q r st' ∧
      (∀ x, x ≠ p → x ≠ q → x ≠ r → w'.blocks x = w.blocks x) ∧ w'.refused = w.refused) := by
  unfold onH
  rw [load_ok h0 h, ok_bindH]
  constructor
  · intro f hf; rw [hf]; rfl
  · intro o st' ho
    have L := op_like h.like ho
    obtain ⟨w', e, hH, hx, hf, _⟩ := store_ok h0 h L (tight_like L h.tight)
    rw [ho, ofM_ok, ok_bindH]
    dsimp only
    rw [e, ok_bindH]
    exact ⟨w', rfl, hH, hx, hf⟩

/-- `src_simple` on the heap. -/
theorem simpleH_spec (A : Alloc) (cfg : Config) {w : World} (h0 : w.blocks 0 = none) (m : Mem) (d : Option SrcData) (type ch : ℤ) :
    (∃ f, simpleH A cfg w m d type ch = .error (.code f)) ∨ ∃ e m' d' w', simpleH A cfg w m d type ch = .ok ((e, m', d'), w') ∧ w'.blocks = w.blocks := by
  unfold simpleH
  cases hn : srcNew cfg type ch with
  | error f =>
    rcases newH_err A (w := w) hn with h2 | ⟨w', h2, hF⟩
    · rw [h2]; exact Or.inl ⟨f, rfl⟩
    · rw [h2]; exact Or.inr ⟨_, _, _, w', rfl, hF.1⟩
  | ok x =>
    obtain ⟨e, s⟩ := x
    cases s with
    | none => rw [newH_none A hn]; exact Or.inr ⟨_, _, _, w, rfl, rfl⟩
    | some st =>
      obtain ⟨he, e', p, w', hr, hm⟩ := newH_spec A h0 hn
      rw [hr, ok_bindH]
      dsimp only
      rcases hm with ⟨rfl, rfl, hF⟩ | ⟨rfl, hrf, q, r, hA, hH⟩
      · rw [if_pos rfl]; exact Or.inr ⟨_, _, _, w', rfl, hF.1⟩
      rw [if_neg hA.a0]
      have h0' := blocks0 hA h0
      cases d with
      | none => exact Or.inl ⟨_, rfl⟩
      | some d =>
        dsimp only
        rw [load_ok h0' hH, ok_bindH]
        cases hp : srcProcess m (some st) (some { d with endOfInput := 1 }) with
        | error f => exact Or.inl ⟨f, rfl⟩
        | ok y =>
          obtain ⟨e2, m2, s2, d2⟩ := y
          obtain ⟨s', rfl, L⟩ := process_like hH.like hp
          rw [ofM_ok, ok_bindH]
          dsimp only
          obtain ⟨w2, e2', hH2, ho, hf2, _⟩ := store_ok h0' hH L (tight_like L hH.tight)
          rw [show (some s').getD st = s' from rfl, e2', ok_bindH]
          have h02 : w2.blocks 0 = none := by rw [ho 0 hA.a0.symm hA.b0.symm hA.c0.symm, h0']
          obtain ⟨w3, e3, hx, _⟩ := closeH_spec h02 hH2
          unfold deleteH
          rw [if_neg hA.a0, e3, ok_bindH]
          refine Or.inr ⟨_, _, _, w3, rfl, world_ext fun x => ?_⟩
          rw [hx]
          split_ifs with hc
          · rcases hc with rfl | rfl | rfl
            · exact hA.na.symm
            · exact hA.nb.symm
            · exact hA.nc.symm
          · push Not at hc
            rw [ho x hc.1 hc.2.1 hc.2.2, hA.other x hc.1 hc.2.1 hc.2.2]

end Verif
