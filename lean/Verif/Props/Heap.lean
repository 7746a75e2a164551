import Verif.Proof.Separation
import Verif.Proof.SincTables
import Verif.Props.Api

/-! Handles on the heap: C14, C15, C30 (src_new), C31, C32, C33, C34. -/

namespace Verif
open Spec

/-! ### An allocator and a checked program, for the examples -/

/-- Returns fresh addresses in turn, but refuses the request number `n`. -/
def refuseNth (n : Option ℕ) : Alloc where
  pick w _ := if n = some w.requests then none else if (w.blocks (w.requests + 1)).isNone then some (w.requests + 1) else none
  junk _ _ := .nan
  fresh w b a h := by
    split_ifs at h with h1 h2
    injection h with h
    subst h
    exact ⟨by omega, by simpa using h2⟩

/-- `Call.live` on lists. -/
def liveList (L : List ℕ) : Call → Answer → List ℕ
  | .new _ _, .handle _ p => if p = 0 then L else p :: L
  | .callbackNew _ _ _ _, .handle _ p => if p = 0 then L else p :: L
  | .clone _, .handle _ p => if p = 0 then L else p :: L
  | .delete p, _ => L.filter (· ≠ p)
  | _, _ => L

theorem liveList_eq (L : List ℕ) (c : Call) (a : Answer) : {p | p ∈ liveList L c a} = Call.live {p | p ∈ L} c a := by
  cases c <;> cases a <;> simp only [liveList, Call.live] <;> (try split_ifs) <;> (try rfl) <;> ext x <;> simp

/-- `Call.uses` on lists. -/
def usesList (L : List ℕ) : Call → Bool
  | .clone p | .delete p | .on p _ => p == 0 || L.contains p
  | _ => true

/-- Runs a program and checks that it is correct; result: answers, handles in use, heap. -/
def trace (A : Alloc) (cfg : Config) : List ℕ → List Call → World → Option (List Answer × List ℕ × World)
  | L, [], w => some ([], L, w)
  | L, c :: cs, w =>
    if usesList L c then
      match c.run A cfg w with
      | .error _ => none
      | .ok (a, w') => (trace A cfg (liveList L c a) cs w').map fun x => (a :: x.1, x.2)
    else none

theorem trace_sound (A : Alloc) (cfg : Config) : ∀ (cs : List Call) (L : List ℕ) (w : World) (as : List Answer) (L' : List ℕ) (w' : World),
    trace A cfg L cs w = some (as, L', w') → Correct A cfg {p | p ∈ L} cs w ∧ runCalls A cfg cs w = .ok (as, w') ∧
      liveAfter {p | p ∈ L} cs as = {p | p ∈ L'} := by
  intro cs
  induction cs with
  | nil =>
    intro L w as L' w' h
    simp only [trace, Option.some.injEq, Prod.mk.injEq] at h
    obtain ⟨rfl, rfl, rfl⟩ := h
    exact ⟨trivial, rfl, rfl⟩
  | cons c cs ih =>
    intro L w as L' w' h
    unfold trace at h
    split at h
    swap
    · cases h
    rename_i hu
    have hu : Call.uses {p | p ∈ L} c := by cases c <;> first | trivial | simpa [usesList, Call.uses] using hu
    split at h
    · cases h
    rename_i a w1 hr
    cases ht : trace A cfg (liveList L c a) cs w1 with
    | none => rw [ht] at h; cases h
    | some y =>
    obtain ⟨as1, L2, w2⟩ := y
    rw [ht] at h
    simp only [Option.map_some, Option.some.injEq, Prod.mk.injEq] at h
    obtain ⟨rfl, rfl, rfl⟩ := h
    obtain ⟨i1, i2, i3⟩ := ih _ _ _ _ _ ht
    rw [liveList_eq] at i1 i3
    refine ⟨⟨hu, fun a' w'' h' => ?_⟩, ?_, i3⟩
    · rw [hr] at h'
      injection h' with h'
      simp only [Prod.mk.injEq] at h'
      obtain ⟨rfl, rfl⟩ := h'
      exact i1
    · simp only [runCalls, hr, ok_bindH, i2]; rfl

/-! ### C14 -/

/-- C14: `src_clone` of a handle `p` in use gives a new handle `q`, and from then on every sequence of calls gives the same answers (return
values, memory, frame counts, errors, and also the same faults) on the clone as it would on the original, whether the original
is used without the clone having been made (first equation) or beside it (second).  The last part extends this to any program: whatever else it does
between its calls on the clone, the answers it gets from the clone are those the original would have given alone. -/
theorem C14 (A : Alloc) (cfg : Config) (w w1 : World) (L : Set ℕ) (hw : At A cfg w L) (p : ℕ) (hp : p ∈ L) (e : ℤ) (q : ℕ)
    (h : (Call.clone p).run A cfg w = .ok (.handle e q, w1)) (hq : q ≠ 0) :
    e = 0 ∧ q ∉ L ∧
    (∀ ops, answers (runCalls A cfg (only q ops) w1) = answers (runCalls A cfg (only p ops) w)) ∧
    (∀ ops, answers (runCalls A cfg (only q ops) w1) = answers (runCalls A cfg (only p ops) w1)) ∧
    (∀ cs as w2, Correct A cfg (insert q L) cs w1 → Keeps q cs → runCalls A cfg cs w1 = .ok (as, w2) →
      answers (runCalls A cfg (only p (callsOn q cs)) w) = .ok (answersOn q cs as)) := by
  obtain ⟨w0, V, S, rfl⟩ := at_sep hw
  rcases step_sep A cfg S (.clone p) (Or.inr hp) with ⟨f, hf⟩ | ⟨a, w', V', hr, hF, S'⟩
  · rw [hf] at h; cases h
  rw [hr] at h
  injection h with h
  simp only [Prod.mk.injEq] at h
  obtain ⟨rfl, rfl⟩ := h
  have hl := (flat_live hF S.v0).1
  cases hF with
  | cloneFail => exact absurd rfl hq
  | clone p q st hst hq0 hv =>
    have e1 : Function.update V q (some st) q = some st := by rw [Function.update_self]
    have hpq : p ≠ q := by rintro rfl; rw [hst] at hv; cases hv
    have e2 : Function.update V q (some st) p = some st := by rw [Function.update_of_ne hpq, hst]
    refine ⟨rfl, by simp [hv], fun ops => ?_, fun ops => ?_, fun cs as w2 hC hk hr2 => ?_⟩
    · rw [only_answers A cfg ops S' e1, only_answers A cfg ops S hst]
    · rw [only_answers A cfg ops S' e1, only_answers A cfg ops S' e2]
    · have hl' : {p | Function.update V q (some st) p ≠ none} = insert q {p | V p ≠ none} := by
        rw [hl]; simp [Call.live, hq]
      rw [← hl'] at hC
      obtain ⟨-, i2⟩ := prog_sep A cfg cs w' _ S' hC
      obtain ⟨V2, S2, -, hp2⟩ := i2 as w2 hr2
      obtain ⟨os, st', a1, a2, a3⟩ := hp2 q st e1 hk
      rw [only_answers A cfg _ S hst, a1, a2]; rfl

/-! ### C15 -/

/-- C15: in any program, what the calls on a handle `p` tell is what the same calls would tell if all others were left out, as
long as the program does not delete `p`: creating, cloning, using and deleting other handles, and `src_simple`, do not matter.  The last part: also
a further call on `p` has the same answer (or stops at the same fault). -/
theorem C15 (A : Alloc) (cfg : Config) (w w1 : World) (L : Set ℕ) (hw : At A cfg w L) (p : ℕ) (hp : p ∈ L) (cs : List Call) (as : List Answer)
    (hC : Correct A cfg L cs w) (hk : Keeps p cs) (h : runCalls A cfg cs w = .ok (as, w1)) :
    ∃ w2, runCalls A cfg (only p (callsOn p cs)) w = .ok (answersOn p cs as, w2) ∧
      ∀ op, answers ((Call.on p op).run A cfg w1) = answers ((Call.on p op).run A cfg w2) := by
  obtain ⟨w0, V, S, rfl⟩ := at_sep hw
  obtain ⟨st, hst⟩ := Option.ne_none_iff_exists'.mp hp
  obtain ⟨-, i2⟩ := prog_sep A cfg cs w _ S hC
  obtain ⟨V2, S2, -, hp2⟩ := i2 as w1 h
  obtain ⟨os, st', a1, a2, a3⟩ := hp2 p st hst hk
  obtain ⟨w2, b1, b2⟩ := (only_run A cfg (callsOn p cs) w V p st S hst).2 os st' a1
  refine ⟨w2, by rw [b1, a2], fun op => ?_⟩
  rw [on_answer A cfg op S2 a3, on_answer A cfg op b2 (by rw [Function.update_self])]

/-! ### C31 -/

theorem table_ok {cfg : Config} (hL : LibraryTables cfg) {type : ℤ} {t : CoeffTable} (h : cfg.table type = some t) {ch : ℤ} (h1 : 1 ≤ ch) (h2 : ch ≤ 128) :
    ∃ b, sincBLen t ch = .ok b := by
  have hg : (t.increment = 128 ∧ t.count = 2464) ∨ (t.increment = 491 ∧ t.count = 22438) ∨ (t.increment = 2381 ∧ t.count = 340239) := by
    unfold Config.table at h
    split_ifs at h
    · exact Or.inr (Or.inr (hL.best t h))
    · exact Or.inr (Or.inl (hL.mid t h))
    · exact Or.inl (hL.fast t h)
  obtain ⟨B, -, -, -, hb⟩ := table_geom hg
  have := hb ch.toNat (by omega)
  rw [Int.toNat_of_nonneg (by omega)] at this
  exact ⟨_, this⟩

/-- `src_new` on values, by cases of the arguments. -/
theorem new_cases {cfg : Config} (hL : LibraryTables cfg) (type ch : ℤ) :
    (¬ Known cfg type → srcNew cfg type ch = .ok (Err.BAD_CONVERTER, none)) ∧
    (Known cfg type → ch < 1 → srcNew cfg type ch = .error .assertFailed) ∧
    (cfg.table type ≠ none → 128 < ch → srcNew cfg type ch = .ok (Err.BAD_CHANNEL_COUNT, none)) ∧
    (Known cfg type → 1 ≤ ch → (cfg.table type ≠ none → ch ≤ 128) → ∃ st, srcNew cfg type ch = .ok (0, some st)) := by
  have as0 : ch < 1 → assertM (decide (ch > 0)) = .error .assertFailed := by
    intro h; unfold assertM; rw [if_neg (by simp; omega)]; rfl
  have as1 : 1 ≤ ch → assertM (decide (ch > 0)) = .ok () := by
    intro h; unfold assertM; rw [if_pos (by simp; omega)]; rfl
  unfold srcNew
  cases ht : cfg.table type with
  | some t =>
    have hk : Known cfg type := Or.inr (Or.inr (by rw [ht]; simp))
    refine ⟨fun h => absurd hk h, fun _ h => ?_, fun _ h => ?_, fun _ h h' => ?_⟩
    · dsimp only; unfold sincStateNew; rw [as0 h]; rfl
    · dsimp only; unfold sincStateNew; rw [as1 (by omega)]
      show (if ch > 128 then _ else _) = _
      rw [if_pos h]; rfl
    · have h128 := h' (by simp)
      obtain ⟨b, hb⟩ := table_ok hL ht h h128
      dsimp only; unfold sincStateNew; rw [as1 h]
      show ∃ st, (if ch > 128 then _ else _) = _
      rw [if_neg (by omega), hb]
      exact ⟨_, rfl⟩
  | none =>
    refine ⟨fun h => ?_, fun hk h => ?_, fun h => absurd rfl h, fun hk h _ => ?_⟩
    · dsimp only
      rw [if_neg fun e => h (Or.inl e), if_neg fun e => h (Or.inr (Or.inl e))]; rfl
    · dsimp only
      unfold zohStateNew linearStateNew
      rw [as0 h]
      rcases hk with hk | hk | hk
      · rw [if_pos hk]; rfl
      · rw [if_neg (by rw [hk]; decide), if_pos hk]; rfl
      · exact absurd ht hk
    · dsimp only
      unfold zohStateNew linearStateNew
      rw [as1 h]
      rcases hk with hk | hk | hk
      · rw [if_pos hk]; exact ⟨_, rfl⟩
      · rw [if_neg (by rw [hk]; decide), if_pos hk]; exact ⟨_, rfl⟩
      · exact absurd ht hk

/-- C31: `src_new` for every type, channel count and behaviour of the allocator.  An unknown type gives `NULL` and `SRC_ERR_BAD_CONVERTER` (10); more than 128
channels for a sinc converter give `NULL` and `SRC_ERR_BAD_CHANNEL_COUNT` (11); less than one channel stops the program at an assertion; otherwise
the result is a fresh handle and no error, or, exactly if an allocation was refused, `NULL` and `SRC_ERR_MALLOC_FAILED` (1). -/
theorem C31 (A : Alloc) (cfg : Config) (hL : LibraryTables cfg) (w : World) (L : Set ℕ) (hw : At A cfg w L) (type ch : ℤ) :
    (¬ Known cfg type → (Call.new type ch).run A cfg w = .ok (.handle 10 0, w)) ∧
    (cfg.table type ≠ none → 128 < ch → (Call.new type ch).run A cfg w = .ok (.handle 11 0, w)) ∧
    (Known cfg type → ch < 1 → (Call.new type ch).run A cfg w = .error (.code .assertFailed)) ∧
    (Known cfg type → 1 ≤ ch → (cfg.table type ≠ none → ch ≤ 128) →
      ∃ e p w', (Call.new type ch).run A cfg w = .ok (.handle e p, w') ∧
        ((w'.refused = w.refused ∧ e = 0 ∧ p ≠ 0 ∧ p ∉ L) ∨ (w.refused < w'.refused ∧ e = 1 ∧ p = 0))) := by
  obtain ⟨c1, c2, c3, c4⟩ := new_cases hL type ch
  obtain ⟨w0, V, S, rfl⟩ := at_sep hw
  obtain ⟨lay, own, S⟩ := S
  refine ⟨fun h => ?_, fun h h' => ?_, fun h h' => ?_, fun h h' h'' => ?_⟩
  · unfold Call.run; dsimp only; rw [newH_none A (c1 h)]; rfl
  · unfold Call.run; dsimp only; rw [newH_none A (c3 h h')]; rfl
  · have hn := c2 h h'
    have as0 : assertM (decide (ch > 0)) = .error .assertFailed := by
      unfold assertM; rw [if_neg (by simp; omega)]; rfl
    have : newH A cfg w type ch = .error (.code .assertFailed) := by
      unfold newH sincStateNewH interpStateNew
      rw [as0]
      cases ht : cfg.table type with
      | some t => rfl
      | none =>
        dsimp only
        rcases h with hk | hk | hk
        · rw [if_pos hk]; rfl
        · rw [if_neg (by rw [hk]; decide), if_pos hk]; rfl
        · exact absurd ht hk
    unfold Call.run; dsimp only; rw [this]; rfl
  · obtain ⟨st, hn⟩ := c4 h h' h''
    obtain ⟨-, e', p, w', hr, hm⟩ := newH_spec A S.zero hn
    unfold Call.run; dsimp only; rw [hr]
    refine ⟨e', p, w', rfl, ?_⟩
    rcases hm with ⟨rfl, rfl, hF⟩ | ⟨rfl, hrf, q, r, hA, hH⟩
    · exact Or.inr ⟨hF.2, rfl, rfl⟩
    · obtain ⟨hv, -⟩ := S.add hA hH
      exact Or.inl ⟨hrf, rfl, hA.a0, by simp [hv]⟩

/-- C30: names and descriptions exist exactly for the converter types 0..4, names are distinct, and `src_new` answers every other type, with any channel count,
with `NULL` and `SRC_ERR_BAD_CONVERTER` (10). -/
theorem C30 (n : ℤ) : (srcGetName n ≠ none ↔ 0 ≤ n ∧ n ≤ 4) ∧ (srcGetDescription n ≠ none ↔ 0 ≤ n ∧ n ≤ 4) ∧
    (∀ n', srcGetName n ≠ none → srcGetName n = srcGetName n' → n = n') ∧
    (¬ (0 ≤ n ∧ n ≤ 4) → ∀ (A : Alloc) (cfg : Config) (w : World) (ch : ℤ), (Call.new n ch).run A cfg w = .ok (.handle 10 0, w)) := by
  obtain ⟨h1, h2, h3, -⟩ := C30_tables n
  refine ⟨h1, h2, h3, fun h A cfg w ch => ?_⟩
  have : newH A cfg w n ch = .ok (10, 0, w) := by
    have ht : cfg.table n = none := by
      unfold Config.table
      rw [if_neg (show ¬ n = SRC_SINC_BEST_QUALITY by unfold SRC_SINC_BEST_QUALITY; omega), if_neg (show ¬ n = SRC_SINC_MEDIUM_QUALITY by unfold SRC_SINC_MEDIUM_QUALITY; omega),
        if_neg (show ¬ n = SRC_SINC_FASTEST by unfold SRC_SINC_FASTEST; omega)]
    unfold newH
    rw [ht]
    dsimp only
    rw [if_neg (show ¬ n = SRC_ZERO_ORDER_HOLD by unfold SRC_ZERO_ORDER_HOLD; omega), if_neg (show ¬ n = SRC_LINEAR by unfold SRC_LINEAR; omega)]; rfl
  unfold Call.run; dsimp only; rw [this]; rfl

/-! ### C32 -/

/-- The calls that make handles. -/
def Makes (L : Set ℕ) (c : Call) : Prop :=
  (∃ t ch, c = .new t ch) ∨ (∃ f t ch u, c = .callbackNew f t ch u) ∨ ∃ p ∈ L, c = .clone p

/-- C32: for every behaviour of the allocator and every heap, `src_new`, `src_callback_new` and `src_clone` answer `SRC_ERR_MALLOC_FAILED` (1) exactly if an
allocation was refused, return `NULL` then, and leave every block as it was: nothing is leaked and nothing changed.  (The same holds for
every other `NULL` answer.)  A success changes no existing block either.  The only way not to return is the assertion on the channel count. -/
theorem C32 (A : Alloc) (cfg : Config) (hL : LibraryTables cfg) (w : World) (L : Set ℕ) (hw : At A cfg w L) (c : Call) (hc : Makes L c) :
    (∃ e p w', c.run A cfg w = .ok (.handle e p, w') ∧ (w'.refused ≠ w.refused ↔ e = 1) ∧ (e = 1 → p = 0) ∧ (p = 0 → w'.blocks = w.blocks) ∧
      (p ≠ 0 → e = 0 ∧ ∀ a, w.blocks a ≠ none → w'.blocks a = w.blocks a)) ∨
    (c.run A cfg w = .error (.code .assertFailed) ∧ ((∃ t ch, ch < 1 ∧ c = .new t ch) ∨ ∃ f t ch u, ch < 1 ∧ c = .callbackNew f t ch u)) := by
  obtain ⟨w0, V, S, rfl⟩ := at_sep hw
  obtain ⟨lay, own, S⟩ := S
  -- the outcomes
  have made : ∀ {res : H (ℤ × ℕ × World)} {st : SrcState}, Made w res st →
      ∃ e p w', (res >>= fun x => (pure (Answer.handle x.1 x.2.1, x.2.2) : H _)) = .ok (.handle e p, w') ∧ (w'.refused ≠ w.refused ↔ e = 1) ∧ (e = 1 → p = 0) ∧ (p = 0 → w'.blocks = w.blocks) ∧
      (p ≠ 0 → e = 0 ∧ ∀ a, w.blocks a ≠ none → w'.blocks a = w.blocks a) := by
    rintro res st ⟨e, p, w', rfl, hm⟩
    refine ⟨e, p, w', rfl, ?_⟩
    rcases hm with ⟨rfl, rfl, hF⟩ | ⟨rfl, hrf, q, r, hA, hH⟩
    · exact ⟨⟨fun _ => rfl, fun _ => by have := hF.2; omega⟩, fun _ => rfl, fun _ => hF.1, fun h => absurd rfl h⟩
    · refine ⟨⟨fun h => absurd hrf h, fun h => absurd h (by decide)⟩, fun h => absurd h (by decide), fun h => absurd h hA.a0, fun _ => ⟨rfl, fun a ha => ?_⟩⟩
      refine hA.other a ?_ ?_ ?_ <;> rintro rfl
      · exact ha hA.na
      · exact ha hA.nb
      · exact ha hA.nc
  have refused : ∀ {res : H (ℤ × ℕ × World)} {e : ℤ}, res = .ok (e, 0, w) → e ≠ 1 →
      ∃ e p w', (res >>= fun x => (pure (Answer.handle x.1 x.2.1, x.2.2) : H _)) = .ok (.handle e p, w') ∧ (w'.refused ≠ w.refused ↔ e = 1) ∧ (e = 1 → p = 0) ∧ (p = 0 → w'.blocks = w.blocks) ∧
      (p ≠ 0 → e = 0 ∧ ∀ a, w.blocks a ≠ none → w'.blocks a = w.blocks a) := by
    rintro res e rfl he
    exact ⟨e, 0, w, rfl, ⟨fun h => absurd rfl h, fun h => absurd h he⟩, fun _ => rfl, fun _ => rfl, fun h => absurd rfl h⟩
  have failed : ∀ {res : H (ℤ × ℕ × World)} {w' : World}, res = .ok (Err.MALLOC_FAILED, 0, w') → Failed w w' →
      ∃ e p w', (res >>= fun x => (pure (Answer.handle x.1 x.2.1, x.2.2) : H _)) = .ok (.handle e p, w') ∧ (w'.refused ≠ w.refused ↔ e = 1) ∧ (e = 1 → p = 0) ∧ (p = 0 → w'.blocks = w.blocks) ∧
      (p ≠ 0 → e = 0 ∧ ∀ a, w.blocks a ≠ none → w'.blocks a = w.blocks a) := by
    rintro res w' rfl hF
    exact ⟨_, 0, w', rfl, ⟨fun _ => rfl, fun _ => by have := hF.2; omega⟩, fun _ => rfl, fun _ => hF.1, fun h => absurd rfl h⟩
  have small : ∀ {t ch : ℤ} {f : Fault}, srcNew cfg t ch = .error f → ch < 1 ∧ f = .assertFailed := by
    intro t ch f h
    obtain ⟨c1, c2, c3, c4⟩ := new_cases hL t ch
    by_cases hk : Known cfg t
    · by_cases hch : ch < 1
      · rw [c2 hk hch] at h; injection h with h; exact ⟨hch, h.symm⟩
      · by_cases ht : cfg.table t ≠ none ∧ 128 < ch
        · rw [c3 ht.1 ht.2] at h; cases h
        · obtain ⟨st, hs⟩ := c4 hk (by omega) (fun h => by by_contra hc; exact ht ⟨h, by omega⟩)
          rw [hs] at h; cases h
    · rw [c1 hk] at h; cases h
  rcases hc with ⟨t, ch, rfl⟩ | ⟨f, t, ch, u, rfl⟩ | ⟨p, hp, rfl⟩
  · unfold Call.run; dsimp only
    cases hn : srcNew cfg t ch with
    | error g =>
      obtain ⟨h1, rfl⟩ := small hn
      rcases newH_err A (w := w) hn with h2 | ⟨w', h2, hF⟩
      · rw [h2]; exact Or.inr ⟨rfl, Or.inl ⟨t, ch, h1, rfl⟩⟩
      · exact Or.inl (failed h2 hF)
    | ok x =>
      obtain ⟨e, s⟩ := x
      cases s with
      | none => exact Or.inl (refused (newH_none A hn) (by rcases new_err0 hn with h | h <;> rw [h] <;> decide))
      | some st => exact Or.inl (made (newH_spec A S.zero hn).2)
  · unfold Call.run; dsimp only
    cases hn : srcCallbackNew cfg f t ch u with
    | error g =>
      have hg : srcNew cfg t ch = .error g := by
        unfold srcCallbackNew at hn
        split_ifs at hn
        · cases hn
        · cases h1 : srcNew cfg t ch with
          | error g' => rw [h1] at hn; injection hn with hn; rw [hn]
          | ok x => obtain ⟨e, s⟩ := x; rw [h1] at hn; cases s <;> cases hn
      obtain ⟨h1, rfl⟩ := small hg
      rcases callbackNewH_err A (w := w) hn with h2 | ⟨w', h2, hF⟩
      · rw [h2]; exact Or.inr ⟨rfl, Or.inr ⟨f, t, ch, u, h1, rfl⟩⟩
      · exact Or.inl (failed h2 hF)
    | ok x =>
      obtain ⟨e, s⟩ := x
      cases s with
      | none => exact Or.inl (refused (callbackNewH_none A hn).1 (by rcases (callbackNewH_none (w := w) A hn).2 with h | h | h <;> rw [h] <;> decide))
      | some st => exact Or.inl (made (callbackNewH_spec A S.zero hn).2)
  · obtain ⟨st, hst⟩ := Option.ne_none_iff_exists'.mp hp
    have H := S.handle p st hst
    obtain ⟨d, w', hr, hm⟩ := copyH_spec A S.zero H
    refine Or.inl (made (res := cloneH A w p) (st := st) ?_)
    unfold cloneH
    rw [if_neg (H.p0 S.zero), hr, ok_bindH]
    dsimp only
    refine ⟨_, d, w', rfl, ?_⟩
    rcases hm with ⟨rfl, hF⟩ | ⟨hrf, q, r, hA, hH⟩
    · exact Or.inl ⟨rfl, rfl, hF⟩
    · exact Or.inr ⟨by rw [if_neg hA.a0]; rfl, hrf, q, r, hA, hH⟩

/-! ### C33 -/

/-- C33: a correct program never frees a block twice, never touches a freed block or one of another kind and never copies beyond a block: the only faults it can stop
at are those of the code that works on one handle.  It leaves the blocks of the application alone, every further block belongs to exactly one handle in use, three
blocks to each, and when no handle is in use the heap is as it was. -/
theorem C33 (A : Alloc) (cfg : Config) (w0 : World) (h0 : w0.blocks 0 = none) (cs : List Call) (hC : Correct A cfg ∅ cs w0) :
    (∀ e, runCalls A cfg cs w0 = .error e → ∃ f, e = .code f) ∧
    ∀ as w, runCalls A cfg cs w0 = .ok (as, w) →
      (∀ a, w0.blocks a ≠ none → w.blocks a = w0.blocks a) ∧
      (∃ own : ℕ → Option ℕ, (∀ a, own a = none → w.blocks a = w0.blocks a) ∧
        (∀ a p, own a = some p → p ∈ liveAfter ∅ cs as ∧ w0.blocks a = none ∧ w.blocks a ≠ none) ∧
        ∀ p ∈ liveAfter ∅ cs as, ∃ q r, p ≠ q ∧ p ≠ r ∧ q ≠ r ∧ ∀ a, own a = some p ↔ a = p ∨ a = q ∨ a = r) ∧
      (liveAfter ∅ cs as = ∅ → w.blocks = w0.blocks) := by
  have e : (∅ : Set ℕ) = {p : ℕ | (fun _ => none : ℕ → Option SrcState) p ≠ none} := by ext; simp
  have hC' := hC
  rw [e] at hC'
  obtain ⟨i1, i2⟩ := prog_sep A cfg cs w0 (fun _ => none) (sep_start h0) hC'
  refine ⟨i1, fun as w hr => ?_⟩
  obtain ⟨V, ⟨lay, own, S⟩, hl, -⟩ := i2 as w hr
  rw [← e] at hl
  rw [hl]
  have ownV : ∀ a p, own a = some p → V p ≠ none := fun a p h => (S.ownr a p h).1
  refine ⟨fun a ha => ?_, ⟨own, S.frame, fun a p h => ⟨ownV a p h, S.base a (by rw [h]; simp), ?_⟩, fun p hp => ?_⟩, fun hemp => ?_⟩
  · apply S.frame
    by_contra hn
    exact ha (S.base a hn)
  · intro hn
    have := S.free_own hn
    rw [h] at this; cases this
  · obtain ⟨st, hst⟩ := Option.ne_none_iff_exists'.mp hp
    have H := S.handle p st hst
    have o := S.ownp p st hst
    refine ⟨(lay p).1, (lay p).2, H.pq, H.pr, H.qr, fun a => ⟨fun h => (S.ownr a p h).2, ?_⟩⟩
    rintro (h | h | h) <;> subst h
    · exact o.1
    · exact o.2.1
    · exact o.2.2
  · funext a
    apply S.frame
    cases ho : own a with
    | none => rfl
    | some p =>
      have : p ∈ {p | V p ≠ none} := ownV a p ho
      rw [hemp] at this
      exact absurd this (Set.notMem_empty p)

/-- C33, one handle: a handle that is made, used in any way and deleted leaves the heap exactly as it was, whatever else is on the heap. -/
theorem C33_delete (A : Alloc) (cfg : Config) (w w1 w2 : World) (L : Set ℕ) (hw : At A cfg w L) (c : Call) (hc : Makes L c) (e : ℤ) (p : ℕ) (hp : p ≠ 0)
    (h : c.run A cfg w = .ok (.handle e p, w1)) (ops : List Op) (as : List Answer) (h2 : runCalls A cfg (only p ops) w1 = .ok (as, w2)) :
    ∃ w3, (Call.delete p).run A cfg w2 = .ok (.deleted, w3) ∧ w3.blocks = w.blocks := by
  obtain ⟨w0, V, S, rfl⟩ := at_sep hw
  obtain ⟨lay, own, S⟩ := S
  -- everything that was on the heap before is foreign
  have main : ∀ st q r, Added w w1 p q r → Handle w1 p q r st → ∃ w3, (Call.delete p).run A cfg w2 = .ok (.deleted, w3) ∧ w3.blocks = w.blocks := by
    intro st q r hA hH
    have S0 : Sep w w (fun _ => none) (fun _ => (0, 0)) fun _ => none := ⟨S.zero, by simp, by simp, by simp, by simp, by simp⟩
    obtain ⟨-, S1⟩ := S0.add hA hH
    have hrun := only_run A cfg ops w1 _ p st S1 (by rw [Function.update_self])
    cases hr : run ops st with
    | error f => rw [hrun.1 f hr] at h2; cases h2
    | ok x =>
      obtain ⟨os, st'⟩ := x
      obtain ⟨w', e1, S2⟩ := hrun.2 os st' hr
      rw [e1] at h2
      injection h2 with h2
      simp only [Prod.mk.injEq] at h2
      obtain ⟨-, rfl⟩ := h2
      rw [Function.update_idem] at S2
      have hv : Function.update (fun _ => none : ℕ → Option SrcState) p (some st') p = some st' := by rw [Function.update_self]
      rcases step_sep A cfg S2 (.delete p) (Or.inr (by rw [Set.mem_ofPred_eq, hv]; simp)) with ⟨f, hf⟩ | ⟨a, w3, V', hr3, hF, S3⟩
      · exfalso
        obtain ⟨lay2, own2, S2⟩ := S2
        obtain ⟨w3, hr3, -⟩ := closeH_spec S2.zero (S2.handle p st' hv)
        unfold Call.run deleteH at hf
        dsimp only at hf
        rw [if_neg hp, hr3] at hf; cases hf
      · cases hF with
        | deleteNull => exact absurd rfl hp
        | delete =>
          refine ⟨w3, hr3, ?_⟩
          obtain ⟨lay3, own3, S3⟩ := S3
          funext a
          apply S3.frame
          cases ho : own3 a with
          | none => rfl
          | some p' =>
            have := (S3.ownr a p' ho).1
            rw [Function.update_idem] at this
            by_cases hpp : p' = p
            · subst hpp; simp at this
            · rw [Function.update_of_ne hpp] at this; exact absurd rfl this
  have fin : ∀ {res : H (ℤ × ℕ × World)} {st : SrcState}, Made w res st → (res >>= fun x => (pure (Answer.handle x.1 x.2.1, x.2.2) : H _)) = .ok (.handle e p, w1) →
      ∃ w3, (Call.delete p).run A cfg w2 = .ok (.deleted, w3) ∧ w3.blocks = w.blocks := by
    rintro res st ⟨e', p', w', rfl, hm⟩ hr
    injection hr with hr
    simp only [Prod.mk.injEq, Answer.handle.injEq] at hr
    obtain ⟨⟨rfl, rfl⟩, rfl⟩ := hr
    rcases hm with ⟨h0, -⟩ | ⟨-, -, q, r, hA, hH⟩
    · exact absurd h0 hp
    · exact main st q r hA hH
  have none0 : ∀ {res : H (ℤ × ℕ × World)} {e' : ℤ} {w' : World}, res = .ok (e', 0, w') → (res >>= fun x => (pure (Answer.handle x.1 x.2.1, x.2.2) : H _)) = .ok (.handle e p, w1) → False := by
    rintro res e' w' rfl hr
    injection hr with hr
    simp only [Prod.mk.injEq, Answer.handle.injEq] at hr
    exact hp hr.1.2.symm
  rcases hc with ⟨t, ch, rfl⟩ | ⟨f, t, ch, u, rfl⟩ | ⟨p', hp', rfl⟩
  · unfold Call.run at h; dsimp only at h
    cases hn : srcNew cfg t ch with
    | error g =>
      rcases newH_err A (w := w) hn with h3 | ⟨w', h3, hF⟩
      · rw [h3] at h; cases h
      · exact (none0 h3 h).elim
    | ok x =>
      obtain ⟨e', s⟩ := x
      cases s with
      | none => exact (none0 (newH_none A hn) h).elim
      | some st => exact fin (newH_spec A S.zero hn).2 h
  · unfold Call.run at h; dsimp only at h
    cases hn : srcCallbackNew cfg f t ch u with
    | error g =>
      rcases callbackNewH_err A (w := w) hn with h3 | ⟨w', h3, hF⟩
      · rw [h3] at h; cases h
      · exact (none0 h3 h).elim
    | ok x =>
      obtain ⟨e', s⟩ := x
      cases s with
      | none => exact (none0 (callbackNewH_none A hn).1 h).elim
      | some st => exact fin (callbackNewH_spec A S.zero hn).2 h
  · obtain ⟨st, hst⟩ := Option.ne_none_iff_exists'.mp hp'
    have H := S.handle p' st hst
    obtain ⟨d, w', hr, hm⟩ := copyH_spec A S.zero H
    have : Made w (cloneH A w p') st := by
      unfold cloneH
      rw [if_neg (H.p0 S.zero), hr, ok_bindH]
      dsimp only
      refine ⟨_, d, w', rfl, ?_⟩
      rcases hm with ⟨rfl, hF⟩ | ⟨hrf, q, r, hA, hH⟩
      · exact Or.inl ⟨rfl, rfl, hF⟩
      · exact Or.inr ⟨by rw [if_neg hA.a0]; rfl, hrf, q, r, hA, hH⟩
    exact fin this h

/-- C33, `src_simple`: it leaves the heap as it found it. -/
theorem C33_simple (A : Alloc) (cfg : Config) (w w' : World) (L : Set ℕ) (hw : At A cfg w L) (m : Mem) (d : Option SrcData) (type ch : ℤ) (a : Answer)
    (h : (Call.simple m d type ch).run A cfg w = .ok (a, w')) : w'.blocks = w.blocks := by
  obtain ⟨w0, V, ⟨lay, own, S⟩, rfl⟩ := at_sep hw
  unfold Call.run at h
  dsimp only at h
  rcases simpleH_spec A cfg S.zero m d type ch with ⟨f, hf⟩ | ⟨e, m', d', w2, hr, hb⟩
  · rw [hf] at h; cases h
  · rw [hr] at h
    injection h with h
    simp only [Prod.mk.injEq] at h
    rw [← h.2]; exact hb

/-! ### C34 -/

/-- C34: `src_simple (data, type, ch)` does what `src_new (type, ch)`, `src_process` with `end_of_input` set and `src_delete` do: if `src_new` returns `NULL`, it returns
that error and does nothing; otherwise its return value, the memory and `SRC_DATA` are those of `src_process`; and it stops at a fault exactly if one of them does. -/
theorem C34 (A : Alloc) (cfg : Config) (w : World) (L : Set ℕ) (hw : At A cfg w L) (m : Mem) (d : SrcData) (type ch : ℤ) :
    (∀ x, (Call.new type ch).run A cfg w = .error x → (Call.simple m (some d) type ch).run A cfg w = .error x) ∧
    (∀ e w1, (Call.new type ch).run A cfg w = .ok (.handle e 0, w1) → (Call.simple m (some d) type ch).run A cfg w = .ok (.simple e m (some d), w1)) ∧
    (∀ e p w1, (Call.new type ch).run A cfg w = .ok (.handle e p, w1) → p ≠ 0 →
      (∀ x, (Call.on p (.process m (some { d with endOfInput := 1 }))).run A cfg w1 = .error x → (Call.simple m (some d) type ch).run A cfg w = .error x) ∧
      (∀ o w2, (Call.on p (.process m (some { d with endOfInput := 1 }))).run A cfg w1 = .ok (.obs o, w2) →
        ∃ m' w3, o.mem = some m' ∧ (Call.delete p).run A cfg w2 = .ok (.deleted, w3) ∧
          (Call.simple m (some d) type ch).run A cfg w = .ok (.simple o.ret m' o.data, w3))) := by
  obtain ⟨w0, V, ⟨lay, own, S⟩, rfl⟩ := at_sep hw
  have hnew : ∀ {y}, (Call.new type ch).run A cfg w = y → (newH A cfg w type ch >>= fun x => (pure (Answer.handle x.1 x.2.1, x.2.2) : H _)) = y := fun h => h
  refine ⟨fun x h => ?_, fun e w1 h => ?_, fun e p w1 h hp => ?_⟩
  · have h := hnew h
    cases hn : newH A cfg w type ch with
    | error y =>
      rw [hn] at h; injection h with h; subst h
      unfold Call.run simpleH; dsimp only; rw [hn]; rfl
    | ok y => rw [hn] at h; cases h
  · have h := hnew h
    cases hn : newH A cfg w type ch with
    | error y => rw [hn] at h; cases h
    | ok y =>
      obtain ⟨e', p', w'⟩ := y
      rw [hn] at h; injection h with h
      simp only [Prod.mk.injEq, Answer.handle.injEq] at h
      obtain ⟨⟨rfl, rfl⟩, rfl⟩ := h
      unfold Call.run simpleH; dsimp only; rw [hn]; rfl
  · have h := hnew h
    cases hn : newH A cfg w type ch with
    | error y => rw [hn] at h; cases h
    | ok y =>
      obtain ⟨e', p', w'⟩ := y
      rw [hn] at h; injection h with h
      simp only [Prod.mk.injEq, Answer.handle.injEq] at h
      obtain ⟨⟨rfl, rfl⟩, rfl⟩ := h
      -- the handle
      have hM : ∃ st, Made w (newH A cfg w type ch) st := by
        cases hs : srcNew cfg type ch with
        | error f =>
          rcases newH_err A (w := w) hs with h3 | ⟨w', h3, hF⟩
          · rw [h3] at hn; cases hn
          · rw [h3] at hn; injection hn with hn; simp only [Prod.mk.injEq] at hn; exact absurd hn.2.1.symm hp
        | ok x =>
          obtain ⟨e2, s⟩ := x
          cases s with
          | none => rw [newH_none A hs] at hn; injection hn with hn; simp only [Prod.mk.injEq] at hn; exact absurd hn.2.1.symm hp
          | some st => exact ⟨st, (newH_spec A S.zero hs).2⟩
      obtain ⟨st, e2, p2, w2, hr, hm⟩ := hM
      rw [hn] at hr
      injection hr with hr
      simp only [Prod.mk.injEq] at hr
      obtain ⟨rfl, rfl, rfl⟩ := hr
      rcases hm with ⟨h0, -⟩ | ⟨-, -, q, r, hA, hH⟩
      · exact absurd h0 hp
      have h0' := blocks0 hA S.zero
      have hon : (Call.on p' (.process m (some { d with endOfInput := 1 }))).run A cfg w' =
          (onH w' p' (.process m (some { d with endOfInput := 1 })) >>= fun x => pure (Answer.obs x.1, x.2)) := by
        unfold Call.run; dsimp only; rw [if_neg hp]
      rw [hon]
      unfold Call.run simpleH
      dsimp only
      rw [hn, ok_bindH]
      dsimp only
      rw [if_neg hp, load_ok h0' hH, ok_bindH]
      unfold onH Op.run
      rw [load_ok h0' hH, ok_bindH]
      dsimp only
      cases hs : srcProcess m (some st) (some { d with endOfInput := 1 }) with
      | error f =>
        refine ⟨fun x h => ?_, fun o w2 h => by cases h⟩
        injection h with h; subst h; rfl
      | ok y =>
        obtain ⟨e3, m3, s3, d3⟩ := y
        obtain ⟨s', rfl, L⟩ := process_like hH.like hs
        obtain ⟨w4, e4, hH4, ho, -, -⟩ := store_ok h0' hH L (tight_like L hH.tight)
        simp only [ofM, bind, Except.bind, pure, Except.pure, Option.getD_some, e4]
        refine ⟨fun x h => (by cases h), fun o w2 h => ?_⟩
        injection h with h
        simp only [Prod.mk.injEq, Answer.obs.injEq] at h
        obtain ⟨rfl, rfl⟩ := h
        have h04 : w4.blocks 0 = none := by rw [ho 0 hA.a0.symm hA.b0.symm hA.c0.symm, h0']
        obtain ⟨w5, e5, -⟩ := closeH_spec h04 hH4
        refine ⟨m3, w5, rfl, ?_, ?_⟩
        · unfold deleteH; rw [if_neg hp, e5]
        · unfold deleteH; rw [if_neg hp, e5]

/-! ### Non-vacuity -/

/-- A call that asks for 5 frames from 4, at ratio 1. -/
def heapCall : SrcData :=
  { dataIn := 100, dataOut := 200, inputFrames := 4, outputFrames := 5, inputFramesUsed := 0, outputFramesGen := 0, endOfInput := 1, srcRatio := one64 }

/-- Samples for the examples. -/
def heapMem : Mem := fun a => Fl.ofInt f32 (a % 7)

/-- A heap with a block of the application. -/
def heap0 : World := ⟨fun a => if a = 50 then some (.foreign 7) else none, 0, 0⟩

/-- Two handles, one of them cloned after use; the linear one and the original are deleted at the end. -/
def heapProg : List Call :=
  [.new SRC_ZERO_ORDER_HOLD 2, .new SRC_LINEAR 1, .on 1 (.process heapMem (some heapCall)), .clone 1, .on 4 (.process heapMem (some heapCall)), .on 7 (.setRatio one64),
    .simple heapMem (some heapCall) SRC_LINEAR 1, .on 1 .reset, .delete 4, .delete 1]

/-- The program is correct, its calls succeed, the clone at 7 is in use at the end. -/
theorem heapProg_ok : ∃ as w, trace (refuseNth none) ⟨none, none, none⟩ [] heapProg heap0 = some (as, [7], w) := by
  have h : ((trace (refuseNth none) ⟨none, none, none⟩ [] heapProg heap0).any fun x => x.2.1 == [7]) = true := by decide +kernel
  cases ht : trace (refuseNth none) ⟨none, none, none⟩ [] heapProg heap0 with
  | none => rw [ht] at h; cases h
  | some x =>
    obtain ⟨as, L, w⟩ := x
    rw [ht] at h
    have : L = [7] := by simpa using h
    exact ⟨as, w, by rw [this]⟩

/-- Non-vacuity of C33 and of `At`: the hypotheses are met by this program, which leaves one handle. -/
theorem heapProg_at : Correct (refuseNth none) ⟨none, none, none⟩ ∅ heapProg heap0 ∧
    ∃ as w, runCalls (refuseNth none) ⟨none, none, none⟩ heapProg heap0 = .ok (as, w) ∧ liveAfter ∅ heapProg as = {7} ∧ At (refuseNth none) ⟨none, none, none⟩ w {7} := by
  obtain ⟨as, w, h⟩ := heapProg_ok
  obtain ⟨h1, h2, h3⟩ := trace_sound _ _ _ _ _ _ _ _ h
  have e : {p : ℕ | p ∈ ([] : List ℕ)} = ∅ := by ext; simp
  have e' : {p : ℕ | p ∈ [7]} = {7} := by ext; simp
  rw [e] at h1 h3
  rw [e'] at h3
  exact ⟨h1, as, w, h2, h3, heap0, heapProg, as, rfl, h1, h2, h3⟩

/-- Non-vacuity of C14 and C15: the handle at 7 is cloned to 13, and both are used and disagree in what they have been asked before. -/
example : ∃ as w w1, runCalls (refuseNth none) ⟨none, none, none⟩ heapProg heap0 = .ok (as, w) ∧
    (Call.clone 7).run (refuseNth none) ⟨none, none, none⟩ w = .ok (.handle 0 13, w1) ∧ At (refuseNth none) ⟨none, none, none⟩ w {7} ∧
    (trace (refuseNth none) ⟨none, none, none⟩ [13, 7] [.on 13 (.process heapMem (some heapCall)), .on 7 .reset, .on 13 (.setRatio one64), .delete 7] w1).isSome = true := by
  obtain ⟨-, as, w, h1, -, h2⟩ := heapProg_at
  have h : (match runCalls (refuseNth none) ⟨none, none, none⟩ heapProg heap0 with
    | .ok (_, w) => (match (Call.clone 7).run (refuseNth none) ⟨none, none, none⟩ w with
      | .ok (.handle 0 13, w1) => (trace (refuseNth none) ⟨none, none, none⟩ [13, 7]
          [.on 13 (.process heapMem (some heapCall)), .on 7 .reset, .on 13 (.setRatio one64), .delete 7] w1).isSome
      | _ => false)
    | _ => false) = true := by decide +kernel
  rw [h1] at h
  dsimp only at h
  split at h
  · rename_i w1 hc
    exact ⟨as, w, w1, h1, hc, h2, h⟩
  · cases h

/-- Non-vacuity of C31, C32: the sinc tables of `fastCfg`-like builds are accepted, and a refused second allocation of a clone leaves `NULL`. -/
example : ∃ (w w1 : World), At (refuseNth (some 7)) ⟨none, none, none⟩ w {1} ∧
    (Call.clone 1).run (refuseNth (some 7)) ⟨none, none, none⟩ w = .ok (.handle 1 0, w1) ∧ w.refused < w1.refused ∧ w1.blocks 7 = none ∧ w.requests = 6 := by
  have h : ((trace (refuseNth (some 7)) ⟨none, none, none⟩ [] [.new SRC_ZERO_ORDER_HOLD 2, .new SRC_LINEAR 1, .delete 4] heap0).any fun x => (x.2.1 == [1]) &&
      (x.2.2.requests == 6) && (match (Call.clone 1).run (refuseNth (some 7)) ⟨none, none, none⟩ x.2.2 with
      | .ok (.handle 1 0, w1) => decide (x.2.2.refused < w1.refused) && (w1.blocks 7).isNone
      | _ => false)) = true := by decide +kernel
  cases ht : trace (refuseNth (some 7)) ⟨none, none, none⟩ [] [.new SRC_ZERO_ORDER_HOLD 2, .new SRC_LINEAR 1, .delete 4] heap0 with
  | none => rw [ht] at h; cases h
  | some x =>
    obtain ⟨as, L, w⟩ := x
    rw [ht] at h
    simp only [Option.any_some, Bool.and_eq_true, beq_iff_eq] at h
    obtain ⟨⟨rfl, hq⟩, h⟩ := h
    obtain ⟨h1, h2, h3⟩ := trace_sound _ _ _ _ _ _ _ _ ht
    have e : {p : ℕ | p ∈ ([] : List ℕ)} = ∅ := by ext; simp
    have e' : {p : ℕ | p ∈ [1]} = {1} := by ext; simp
    rw [e] at h1 h3
    rw [e'] at h3
    split at h
    · rename_i w1 hc
      simp only [Bool.and_eq_true, decide_eq_true_eq, Option.isNone_iff_eq_none] at h
      exact ⟨w, w1, ⟨heap0, _, as, rfl, h1, h2, h3⟩, hc, h.1, h.2, hq⟩
    · cases h

end Verif
