import Verif.Proof.Heap
import Verif.Spec.World

/-! Separation of the handles on the heap. -/

namespace Verif
open Spec

/-- The heap consists of the blocks of `w0` and, for every handle in use, three blocks of its own that hold its value `V p`; `own` tells the
owner of a block. -/
structure Sep (w0 w : World) (V : ℕ → Option SrcState) (lay : ℕ → ℕ × ℕ) (own : ℕ → Option ℕ) : Prop where
  zero : w.blocks 0 = none
  handle : ∀ p st, V p = some st → Handle w p (lay p).1 (lay p).2 st
  ownp : ∀ p st, V p = some st → own p = some p ∧ own (lay p).1 = some p ∧ own (lay p).2 = some p
  ownr : ∀ a p, own a = some p → V p ≠ none ∧ (a = p ∨ a = (lay p).1 ∨ a = (lay p).2)
  frame : ∀ a, own a = none → w.blocks a = w0.blocks a
  base : ∀ a, own a ≠ none → w0.blocks a = none

def Sepd (w0 w : World) (V : ℕ → Option SrcState) : Prop := ∃ lay own, Sep w0 w V lay own

variable {w0 w w' : World} {V : ℕ → Option SrcState} {lay : ℕ → ℕ × ℕ} {own : ℕ → Option ℕ}

theorem sep_start (h : w0.blocks 0 = none) : Sepd w0 w0 fun _ => none :=
  ⟨fun _ => (0, 0), fun _ => none, h, by simp, by simp, by simp, by simp, by simp⟩

theorem Sep.same (S : Sep w0 w V lay own) (h : w'.blocks = w.blocks) : Sep w0 w' V lay own := by
  refine ⟨by rw [h]; exact S.zero, fun p st hp => ?_, S.ownp, S.ownr, fun a ha => by rw [h]; exact S.frame a ha, S.base⟩
  have := S.handle p st hp
  exact this.congr (by rw [h]) (by rw [h]) (by rw [h])

/-- A block in use belongs to a handle or to `w0`; a free address has no owner. -/
theorem Sep.free_own (S : Sep w0 w V lay own) {a : ℕ} (h : w.blocks a = none) : own a = none := by
  cases ho : own a with
  | none => rfl
  | some p =>
    obtain ⟨hv, ha⟩ := S.ownr a p ho
    obtain ⟨st, hst⟩ := Option.ne_none_iff_exists'.mp hv
    have H := S.handle p st hst
    rcases ha with rfl | rfl | rfl
    · rw [H.hp] at h; cases h
    · rw [H.hq] at h; cases h
    · rw [H.hr] at h; cases h

/-- A new handle. -/
theorem Sep.add (S : Sep w0 w V lay own) {p q r : ℕ} {st : SrcState} (hA : Added w w' p q r) (hH : Handle w' p q r st) :
    V p = none ∧ Sepd w0 w' (Function.update V p (some st)) := by
  have op := S.free_own hA.na; have oq := S.free_own hA.nb; have or' := S.free_own hA.nc
  have hVp : V p = none := by
    cases hv : V p with
    | none => rfl
    | some s => have := (S.ownp p s hv).1; rw [op] at this; cases this
  refine ⟨hVp, Function.update lay p (q, r), fun a => if a = p ∨ a = q ∨ a = r then some p else own a, blocks0 hA S.zero, ?_, ?_, ?_, ?_, ?_⟩
  · intro p' st' h'
    by_cases hp : p' = p
    · subst hp
      rw [Function.update_self] at h' ⊢
      injection h' with h'; subst h'
      exact hH
    · rw [Function.update_of_ne hp] at h' ⊢
      have H := S.handle p' st' h'
      have o := S.ownp p' st' h'
      have ne : ∀ x, own x = some p' → x ≠ p ∧ x ≠ q ∧ x ≠ r := by
        intro x hx
        refine ⟨?_, ?_, ?_⟩ <;> rintro rfl
        · rw [op] at hx; cases hx
        · rw [oq] at hx; cases hx
        · rw [or'] at hx; cases hx
      have fx : ∀ x, own x = some p' → w'.blocks x = w.blocks x := fun x hx => by
        obtain ⟨a, b, c⟩ := ne x hx; exact hA.other x a b c
      exact H.congr (fx _ o.1) (fx _ o.2.1) (fx _ o.2.2)
  · intro p' st' h'
    by_cases hp : p' = p
    · subst hp
      rw [Function.update_self]
      simp
    · rw [Function.update_of_ne hp] at h' ⊢
      have o := S.ownp p' st' h'
      have ne : ∀ x, own x = some p' → ¬ (x = p ∨ x = q ∨ x = r) := by
        rintro x hx (rfl | rfl | rfl)
        · rw [op] at hx; cases hx
        · rw [oq] at hx; cases hx
        · rw [or'] at hx; cases hx
      simp only [if_neg (ne _ o.1), if_neg (ne _ o.2.1), if_neg (ne _ o.2.2)]
      exact o
  · intro a p' h'
    split_ifs at h' with hc
    · injection h' with h'; subst h'
      rw [Function.update_self, Function.update_self]
      exact ⟨by simp, hc⟩
    · have := S.ownr a p' h'
      have hp : p' ≠ p := by rintro rfl; exact this.1 hVp
      rw [Function.update_of_ne hp, Function.update_of_ne hp]
      exact this
  · intro a h'
    split_ifs at h' with hc
    push Not at hc
    rw [hA.other a hc.1 hc.2.1 hc.2.2]
    exact S.frame a h'
  · intro a h'
    split_ifs at h' with hc
    · rcases hc with rfl | rfl | rfl
      · rw [← S.frame _ op]; exact hA.na
      · rw [← S.frame _ oq]; exact hA.nb
      · rw [← S.frame _ or']; exact hA.nc
    · exact S.base a h'

/-- Different handles have different blocks. -/
theorem Sep.apart (S : Sep w0 w V lay own) {p p' : ℕ} {st st' : SrcState} (h : V p = some st) (h' : V p' = some st') (hne : p' ≠ p) {x : ℕ}
    (hx : x = p' ∨ x = (lay p').1 ∨ x = (lay p').2) : x ≠ p ∧ x ≠ (lay p).1 ∧ x ≠ (lay p).2 := by
  have o := S.ownp p st h
  have o' := S.ownp p' st' h'
  have hox : own x = some p' := by
    rcases hx with rfl | rfl | rfl
    · exact o'.1
    · exact o'.2.1
    · exact o'.2.2
  refine ⟨?_, ?_, ?_⟩ <;> rintro rfl
  · rw [o.1] at hox; injection hox with hox; exact hne hox.symm
  · rw [o.2.1] at hox; injection hox with hox; exact hne hox.symm
  · rw [o.2.2] at hox; injection hox with hox; exact hne hox.symm

/-- A handle changes its value. -/
theorem Sep.upd (S : Sep w0 w V lay own) {p : ℕ} {st st' : SrcState} (hV : V p = some st) (hH : Handle w' p (lay p).1 (lay p).2 st')
    (ho : ∀ x, x ≠ p → x ≠ (lay p).1 → x ≠ (lay p).2 → w'.blocks x = w.blocks x) : Sep w0 w' (Function.update V p (some st')) lay own := by
  have o := S.ownp p st hV
  have H := S.handle p st hV
  refine ⟨?_, ?_, ?_, ?_, ?_, S.base⟩
  · rw [ho 0 (H.p0 S.zero).symm (H.q0 S.zero).symm (H.r0 S.zero).symm]; exact S.zero
  · intro p' s h'
    by_cases hp : p' = p
    · subst hp
      rw [Function.update_self] at h'
      injection h' with h'; subst h'
      exact hH
    · rw [Function.update_of_ne hp] at h'
      have fx : ∀ x, (x = p' ∨ x = (lay p').1 ∨ x = (lay p').2) → w'.blocks x = w.blocks x := fun x hx => by
        obtain ⟨a, b, c⟩ := S.apart hV h' hp hx; exact ho x a b c
      exact (S.handle p' s h').congr (fx _ (Or.inl rfl)) (fx _ (Or.inr (Or.inl rfl))) (fx _ (Or.inr (Or.inr rfl)))
  · intro p' s h'
    by_cases hp : p' = p
    · subst hp; exact o
    · rw [Function.update_of_ne hp] at h'; exact S.ownp p' s h'
  · intro a p' h'
    have := S.ownr a p' h'
    refine ⟨?_, this.2⟩
    by_cases hp : p' = p
    · subst hp; rw [Function.update_self]; simp
    · rw [Function.update_of_ne hp]; exact this.1
  · intro a ha
    rw [ho a]
    · exact S.frame a ha
    all_goals rintro rfl
    · rw [o.1] at ha; cases ha
    · rw [o.2.1] at ha; cases ha
    · rw [o.2.2] at ha; cases ha

/-- A handle is deleted. -/
theorem Sep.del (S : Sep w0 w V lay own) {p : ℕ} {st : SrcState} (hV : V p = some st)
    (ho : ∀ x, w'.blocks x = if x = p ∨ x = (lay p).1 ∨ x = (lay p).2 then none else w.blocks x) : Sepd w0 w' (Function.update V p none) := by
  have o := S.ownp p st hV
  have own_iff : ∀ x, own x = some p ↔ (x = p ∨ x = (lay p).1 ∨ x = (lay p).2) := by
    intro x
    refine ⟨fun h => (S.ownr x p h).2, ?_⟩
    rintro (rfl | rfl | rfl)
    · exact o.1
    · exact o.2.1
    · exact o.2.2
  refine ⟨lay, fun a => if own a = some p then none else own a, ?_, ?_, ?_, ?_, ?_, ?_⟩
  · rw [ho]; split_ifs
    · rfl
    · exact S.zero
  · intro p' s h'
    by_cases hp : p' = p
    · subst hp; rw [Function.update_self] at h'; cases h'
    · rw [Function.update_of_ne hp] at h'
      have fx : ∀ x, (x = p' ∨ x = (lay p').1 ∨ x = (lay p').2) → w'.blocks x = w.blocks x := fun x hx => by
        obtain ⟨a, b, c⟩ := S.apart hV h' hp hx
        rw [ho, if_neg (by simp [a, b, c])]
      exact (S.handle p' s h').congr (fx _ (Or.inl rfl)) (fx _ (Or.inr (Or.inl rfl))) (fx _ (Or.inr (Or.inr rfl)))
  · intro p' s h'
    by_cases hp : p' = p
    · subst hp; rw [Function.update_self] at h'; cases h'
    · rw [Function.update_of_ne hp] at h'
      have o' := S.ownp p' s h'
      have ne : some p' ≠ some p := fun h => hp (Option.some.inj h)
      simp only [o'.1, o'.2.1, o'.2.2, if_neg ne, and_self]
  · intro a p' h'
    split_ifs at h' with hc
    have hp : p' ≠ p := by rintro rfl; exact hc h'
    rw [Function.update_of_ne hp]
    exact S.ownr a p' h'
  · intro a ha
    rw [ho]
    split_ifs at ha with hc
    · rw [if_pos ((own_iff a).mp hc), S.base a (by rw [hc]; simp)]
    · rw [if_neg fun h => hc ((own_iff a).mpr h)]
      exact S.frame a ha
  · intro a ha
    split_ifs at ha with hc
    · exact absurd rfl ha
    · exact S.base a ha

/-- The meaning of a call for the values of the handles. -/
inductive Flat (cfg : Config) (V : ℕ → Option SrcState) : Call → Answer → (ℕ → Option SrcState) → Prop
  | newFail (t c e : ℤ) : Flat cfg V (.new t c) (.handle e 0) V
  | new (t c : ℤ) (p : ℕ) (st : SrcState) : srcNew cfg t c = .ok (0, some st) → p ≠ 0 → V p = none →
      Flat cfg V (.new t c) (.handle 0 p) (Function.update V p (some st))
  | cbFail (f : Option ℕ) (t c e : ℤ) (u : ℕ) : Flat cfg V (.callbackNew f t c u) (.handle e 0) V
  | cb (f : Option ℕ) (t c : ℤ) (u p : ℕ) (st : SrcState) : srcCallbackNew cfg f t c u = .ok (0, some st) → p ≠ 0 → V p = none →
      Flat cfg V (.callbackNew f t c u) (.handle 0 p) (Function.update V p (some st))
  | cloneFail (p : ℕ) (e : ℤ) : Flat cfg V (.clone p) (.handle e 0) V
  | clone (p q : ℕ) (st : SrcState) : V p = some st → q ≠ 0 → V q = none →
      Flat cfg V (.clone p) (.handle 0 q) (Function.update V q (some st))
  | delete (p : ℕ) : Flat cfg V (.delete p) .deleted (Function.update V p none)
  | deleteNull : Flat cfg V (.delete 0) .deleted V
  | on (p : ℕ) (op : Op) (st st' : SrcState) (o : Obs) : V p = some st → op.run st = .ok (o, st') →
      Flat cfg V (.on p op) (.obs o) (Function.update V p (some st'))
  | onNull (op : Op) (o : Obs) : Flat cfg V (.on 0 op) (.obs o) V
  | simple (m : Mem) (d : Option SrcData) (t c e : ℤ) (m' : Mem) (d' : Option SrcData) : Flat cfg V (.simple m d t c) (.simple e m' d') V

/-- One call of a correct program: it stops only at a fault of the code itself, never at one of the heap, and otherwise keeps the handles apart. -/
theorem step_sep (A : Alloc) (cfg : Config) (hS : Sepd w0 w V) (c : Call) (hu : Call.uses {p | V p ≠ none} c) :
    (∃ f, c.run A cfg w = .error (.code f)) ∨ ∃ a w' V', c.run A cfg w = .ok (a, w') ∧ Flat cfg V c a V' ∧ Sepd w0 w' V' := by
  obtain ⟨lay, own, S⟩ := hS
  cases c with
  | new t ch =>
    unfold Call.run
    dsimp only
    cases hn : srcNew cfg t ch with
    | error f =>
      rcases newH_err A (w := w) hn with h2 | ⟨w', h2, hF⟩
      · rw [h2]; exact Or.inl ⟨f, rfl⟩
      · rw [h2]; exact Or.inr ⟨_, w', V, rfl, .newFail _ _ _, lay, own, S.same hF.1⟩
    | ok x =>
      obtain ⟨e, s⟩ := x
      cases s with
      | none => rw [newH_none A hn]; exact Or.inr ⟨_, w, V, rfl, .newFail _ _ _, lay, own, S⟩
      | some st =>
        obtain ⟨rfl, e', p, w', hr, hm⟩ := newH_spec A S.zero hn
        rw [hr]
        rcases hm with ⟨rfl, rfl, hF⟩ | ⟨rfl, hrf, q, r, hA, hH⟩
        · exact Or.inr ⟨_, w', V, rfl, .newFail _ _ _, lay, own, S.same hF.1⟩
        · obtain ⟨hv, S'⟩ := S.add hA hH
          exact Or.inr ⟨_, w', _, rfl, .new _ _ _ _ hn hA.a0 hv, S'⟩
  | callbackNew fn t ch u =>
    unfold Call.run
    dsimp only
    cases hn : srcCallbackNew cfg fn t ch u with
    | error f =>
      rcases callbackNewH_err A (w := w) hn with h2 | ⟨w', h2, hF⟩
      · rw [h2]; exact Or.inl ⟨f, rfl⟩
      · rw [h2]; exact Or.inr ⟨_, w', V, rfl, .cbFail _ _ _ _ _, lay, own, S.same hF.1⟩
    | ok x =>
      obtain ⟨e, s⟩ := x
      cases s with
      | none => rw [(callbackNewH_none A hn).1]; exact Or.inr ⟨_, w, V, rfl, .cbFail _ _ _ _ _, lay, own, S⟩
      | some st =>
        obtain ⟨rfl, e', p, w', hr, hm⟩ := callbackNewH_spec A S.zero hn
        rw [hr]
        rcases hm with ⟨rfl, rfl, hF⟩ | ⟨rfl, hrf, q, r, hA, hH⟩
        · exact Or.inr ⟨_, w', V, rfl, .cbFail _ _ _ _ _, lay, own, S.same hF.1⟩
        · obtain ⟨hv, S'⟩ := S.add hA hH
          exact Or.inr ⟨_, w', _, rfl, .cb _ _ _ _ _ _ hn hA.a0 hv, S'⟩
  | clone p =>
    unfold Call.run cloneH
    dsimp only
    by_cases hp : p = 0
    · subst hp
      rw [if_pos rfl]
      exact Or.inr ⟨_, w, V, rfl, .cloneFail _ _, lay, own, S⟩
    rw [if_neg hp]
    obtain ⟨st, hst⟩ := Option.ne_none_iff_exists'.mp (hu.resolve_left hp)
    obtain ⟨d, w', hr, hm⟩ := copyH_spec A S.zero (S.handle p st hst)
    rw [hr, ok_bindH]
    rcases hm with ⟨rfl, hF⟩ | ⟨hrf, q, r, hA, hH⟩
    · exact Or.inr ⟨_, w', V, rfl, .cloneFail _ _, lay, own, S.same hF.1⟩
    · obtain ⟨hv, S'⟩ := S.add hA hH
      refine Or.inr ⟨.handle 0 d, w', _, ?_, .clone _ _ _ hst hA.a0 hv, S'⟩
      dsimp only
      rw [if_neg hA.a0]; rfl
  | delete p =>
    unfold Call.run deleteH
    dsimp only
    by_cases hp : p = 0
    · subst hp
      rw [if_pos rfl]
      exact Or.inr ⟨_, w, V, rfl, .deleteNull, lay, own, S⟩
    rw [if_neg hp]
    obtain ⟨st, hst⟩ := Option.ne_none_iff_exists'.mp (hu.resolve_left hp)
    obtain ⟨w', hr, hx, _⟩ := closeH_spec S.zero (S.handle p st hst)
    rw [hr]
    exact Or.inr ⟨_, w', _, rfl, .delete _, S.del hst hx⟩
  | on p op =>
    unfold Call.run
    dsimp only
    by_cases hp : p = 0
    · subst hp
      rw [if_pos rfl]
      cases hn : onNull op with
      | error f => exact Or.inl ⟨f, rfl⟩
      | ok o => exact Or.inr ⟨_, w, V, rfl, .onNull _ _, lay, own, S⟩
    rw [if_neg hp]
    obtain ⟨st, hst⟩ := Option.ne_none_iff_exists'.mp (hu.resolve_left hp)
    have := onH_spec S.zero (S.handle p st hst) op
    cases hr : op.run st with
    | error f => rw [this.1 f hr]; exact Or.inl ⟨f, rfl⟩
    | ok x =>
      obtain ⟨o, st'⟩ := x
      obtain ⟨w', e, hH, hx, _⟩ := this.2 o st' hr
      rw [e]
      exact Or.inr ⟨_, w', _, rfl, .on _ _ _ _ _ hst hr, lay, own, S.upd hst hH hx⟩
  | simple m d t ch =>
    unfold Call.run
    dsimp only
    rcases simpleH_spec A cfg S.zero m d t ch with ⟨f, h⟩ | ⟨e, m', d', w', h, hb⟩
    · rw [h]; exact Or.inl ⟨f, rfl⟩
    · rw [h]; exact Or.inr ⟨_, w', V, rfl, .simple _ _ _ _ _ _ _, lay, own, S.same hb⟩

/-- The bookkeeping of the handles in use. -/
theorem flat_live {cfg : Config} {c : Call} {a : Answer} {V' : ℕ → Option SrcState} (h : Flat cfg V c a V') (h0 : V 0 = none) :
    {p | V' p ≠ none} = Call.live {p | V p ≠ none} c a ∧ V' 0 = none := by
  have ins : ∀ (p : ℕ) (st : SrcState), p ≠ 0 → {x | Function.update V p (some st) x ≠ none} = insert p {x | V x ≠ none} ∧ Function.update V p (some st) 0 = none := by
    intro p st hp
    refine ⟨?_, by rw [Function.update_of_ne hp.symm, h0]⟩
    ext x
    by_cases hx : x = p
    · subst hx; simp
    · simp [Function.update_of_ne hx, hx]
  have rem : ∀ (p : ℕ), {x | Function.update V p none x ≠ none} = {x | V x ≠ none} \ {p} ∧ Function.update V p none 0 = none := by
    intro p
    constructor
    · ext x
      by_cases hx : x = p
      · subst hx; simp
      · simp [Function.update_of_ne hx, hx]
    · by_cases hx : 0 = p
      · subst hx; simp
      · rw [Function.update_of_ne hx, h0]
  cases h with
  | newFail => exact ⟨by simp [Call.live], h0⟩
  | new t c p st _ hp _ => have := ins p st hp; simpa [Call.live, hp] using this
  | cbFail => exact ⟨by simp [Call.live], h0⟩
  | cb f t c u p st _ hp _ => have := ins p st hp; simpa [Call.live, hp] using this
  | cloneFail => exact ⟨by simp [Call.live], h0⟩
  | clone p q st _ hq _ => have := ins q st hq; simpa [Call.live, hq] using this
  | delete p => exact rem p
  | deleteNull => refine ⟨?_, h0⟩; ext x; simp [Call.live]; rintro h rfl; exact h h0
  | on p op st st' o hv hr =>
    refine ⟨?_, ?_⟩
    · ext x
      by_cases hx : x = p
      · subst hx; simp [Call.live, hv]
      · simp [Call.live, Function.update_of_ne hx]
    · by_cases hx : 0 = p
      · subst hx; rw [h0] at hv; cases hv
      · rw [Function.update_of_ne hx, h0]
  | onNull => exact ⟨rfl, h0⟩
  | simple => exact ⟨rfl, h0⟩

theorem Sepd.v0 (h : Sepd w0 w V) : V 0 = none := by
  obtain ⟨lay, own, S⟩ := h
  cases hv : V 0 with
  | none => rfl
  | some st => exact absurd rfl ((S.handle 0 st hv).p0 S.zero)

/-- A correct program: no fault of the heap, the handles stay apart, and what it is told about a handle it does not delete is what
the calls on that handle alone give. -/
theorem prog_sep (A : Alloc) (cfg : Config) : ∀ (cs : List Call) (w : World) (V : ℕ → Option SrcState), Sepd w0 w V → Correct A cfg {p | V p ≠ none} cs w →
    (∀ e, runCalls A cfg cs w = .error e → ∃ f, e = .code f) ∧
    ∀ as w', runCalls A cfg cs w = .ok (as, w') → ∃ V', Sepd w0 w' V' ∧ liveAfter {p | V p ≠ none} cs as = {p | V' p ≠ none} ∧
      ∀ p st, V p = some st → Keeps p cs → ∃ os st', run (callsOn p cs) st = .ok (os, st') ∧ answersOn p cs as = os.map Answer.obs ∧ V' p = some st' := by
  intro cs
  induction cs with
  | nil =>
    intro w V S _
    refine ⟨fun e h => (by cases h), fun as w' h => ?_⟩
    injection h with h
    simp only [Prod.mk.injEq] at h
    obtain ⟨rfl, rfl⟩ := h
    exact ⟨V, S, rfl, fun p st hp _ => ⟨[], st, rfl, rfl, hp⟩⟩
  | cons c cs ih =>
    intro w V S hC
    obtain ⟨hu, hC⟩ := hC
    rcases step_sep A cfg S c hu with ⟨f, hf⟩ | ⟨a, w1, V1, hr, hF, S1⟩
    · simp only [runCalls, hf]
      refine ⟨fun e h => ⟨f, ?_⟩, fun as w' h => by cases h⟩
      injection h with h; exact h.symm
    · obtain ⟨hl, -⟩ := flat_live hF S.v0
      have hC1 := hC a w1 hr
      rw [← hl] at hC1
      obtain ⟨i1, i2⟩ := ih w1 V1 S1 hC1
      simp only [runCalls, hr, ok_bindH]
      cases hr1 : runCalls A cfg cs w1 with
      | error e =>
        refine ⟨fun e' h => ?_, fun as w' h => by cases h⟩
        injection h with h; subst h
        exact i1 e hr1
      | ok x =>
        obtain ⟨as1, w2⟩ := x
        refine ⟨fun e' h => (by cases h), fun as w' h => ?_⟩
        injection h with h
        simp only [Prod.mk.injEq] at h
        obtain ⟨rfl, rfl⟩ := h
        obtain ⟨V2, S2, hl2, hp2⟩ := i2 as1 w2 hr1
        refine ⟨V2, S2, by rw [← hl2, hl]; rfl, fun p st hp hk => ?_⟩
        have hk' : Keeps p cs := fun c' hc' => hk c' (List.mem_cons_of_mem _ hc')
        have pne : ∀ x, V x = none → p ≠ x := by rintro x hx rfl; rw [hx] at hp; cases hp
        have stay : V1 p = some st → (∀ op, c ≠ .on p op) → ∃ os st', run (callsOn p (c :: cs)) st = .ok (os, st') ∧
            answersOn p (c :: cs) (a :: as1) = os.map Answer.obs ∧ V2 p = some st' := by
          intro h1 hne
          obtain ⟨os, st', a1, a2, a3⟩ := hp2 p st h1 hk'
          refine ⟨os, st', ?_, ?_, a3⟩
          · cases c <;> try exact a1
            rename_i p' op
            simp only [callsOn]
            rw [if_neg (by rintro rfl; exact hne op rfl)]; exact a1
          · cases c <;> try exact a2
            rename_i p' op
            simp only [answersOn]
            rw [if_neg (by rintro rfl; exact hne op rfl)]; exact a2
        cases hF with
        | newFail => exact stay hp (by simp)
        | new _ _ _ _ _ _ hv => exact stay (by rw [Function.update_of_ne (pne _ hv)]; exact hp) (by simp)
        | cbFail => exact stay hp (by simp)
        | cb _ _ _ _ _ _ _ _ hv => exact stay (by rw [Function.update_of_ne (pne _ hv)]; exact hp) (by simp)
        | cloneFail => exact stay hp (by simp)
        | clone _ _ _ _ _ hv => exact stay (by rw [Function.update_of_ne (pne _ hv)]; exact hp) (by simp)
        | delete p' =>
          have := hk _ (List.mem_cons_self) p' rfl
          exact stay (by rw [Function.update_of_ne this.symm]; exact hp) (by simp)
        | deleteNull => exact stay hp (by simp)
        | onNull op o =>
          have := pne 0 S.v0
          exact stay hp (fun op' h => by injection h with h; exact this h.symm)
        | simple => exact stay hp (by simp)
        | on p' op s s' o hv ho =>
          by_cases hpp : p' = p
          · subst hpp
            rw [hp] at hv
            injection hv with hv; subst hv
            obtain ⟨os, st', a1, a2, a3⟩ := hp2 p' s' (by rw [Function.update_self]) hk'
            refine ⟨o :: os, st', ?_, ?_, a3⟩
            · simp only [callsOn, if_true, run, ho]
              show (run (callsOn p' cs) s' >>= _) = _
              rw [a1]; rfl
            · simp only [answersOn, if_true, a2, List.map_cons]
          · exact stay (by rw [Function.update_of_ne (Ne.symm hpp)]; exact hp) (fun op' h => by injection h with h; exact hpp h)

/-- Calls on one handle only. -/
theorem only_run (A : Alloc) (cfg : Config) : ∀ (ops : List Op) (w : World) (V : ℕ → Option SrcState) (p : ℕ) (st : SrcState), Sepd w0 w V → V p = some st →
    (∀ f, run ops st = .error f → runCalls A cfg (only p ops) w = .error (.code f)) ∧
    ∀ os st', run ops st = .ok (os, st') → ∃ w', runCalls A cfg (only p ops) w = .ok (os.map Answer.obs, w') ∧
      Sepd w0 w' (Function.update V p (some st')) := by
  intro ops
  induction ops with
  | nil =>
    intro w V p st S hp
    refine ⟨fun f h => (by cases h), fun os st' h => ?_⟩
    have h := ok_inj h
    simp only [Prod.mk.injEq] at h
    obtain ⟨rfl, rfl⟩ := h
    exact ⟨w, rfl, by rw [← hp, Function.update_eq_self]; exact S⟩
  | cons op ops ih =>
    intro w V p st S hp
    have p0 : p ≠ 0 := by rintro rfl; rw [S.v0] at hp; cases hp
    obtain ⟨lay, own, S⟩ := S
    have hs := onH_spec S.zero (S.handle p st hp) op
    have hrun : ∀ w, (Call.on p op).run A cfg w = (onH w p op >>= fun x => pure (Answer.obs x.1, x.2)) := by
      intro w; unfold Call.run; dsimp only; rw [if_neg p0]
    cases ho : op.run st with
    | error g =>
      refine ⟨fun f h => ?_, fun os st' h => (by simp only [run, ho] at h; cases h)⟩
      simp only [run, ho] at h
      have : g = f := by injection h
      subst this
      simp only [only, List.map_cons, runCalls, hrun, hs.1 g ho]
      rfl
    | ok x =>
      obtain ⟨o, s'⟩ := x
      obtain ⟨w1, e1, hH, hx, -⟩ := hs.2 o s' ho
      have S1 := S.upd hp hH hx
      obtain ⟨i1, i2⟩ := ih w1 _ p s' ⟨lay, own, S1⟩ (by rw [Function.update_self])
      simp only [only, List.map_cons, runCalls, hrun, e1, ok_bindH, pure_bindH, run, ho]
      constructor
      · intro f h
        cases hr : run ops s' with
        | ok y => exfalso; replace h : (run ops s' >>= _) = _ := h; rw [hr] at h; cases h
        | error g =>
          replace h : (run ops s' >>= _) = _ := h
          rw [hr] at h
          have : g = f := by injection h
          subst this
          have := i1 g hr
          simp only [only] at this
          rw [this]; rfl
      · intro os st' h
        replace h : (run ops s' >>= _) = _ := h
        obtain ⟨⟨os1, st1⟩, h1, h⟩ := bind_ok h
        have h := ok_inj h
        simp only [Prod.mk.injEq] at h
        obtain ⟨rfl, rfl⟩ := h
        obtain ⟨w2, e2, S2⟩ := i2 os1 st1 h1
        simp only [only] at e2
        rw [e2]
        refine ⟨w2, rfl, ?_⟩
        rw [Function.update_idem] at S2
        exact S2

/-- The answers of calls on one handle. -/
theorem only_answers (A : Alloc) (cfg : Config) (ops : List Op) {w : World} {V : ℕ → Option SrcState} {p : ℕ} {st : SrcState} (S : Sepd w0 w V) (hp : V p = some st) :
    answers (runCalls A cfg (only p ops) w) = ofM ((run ops st).map fun x => x.1.map Answer.obs) := by
  have := only_run A cfg ops w V p st S hp
  cases hr : run ops st with
  | error f => rw [this.1 f hr]; rfl
  | ok x =>
    obtain ⟨os, st'⟩ := x
    obtain ⟨w', e, -⟩ := this.2 os st' hr
    rw [e]; rfl

/-- One more call on a handle. -/
theorem on_answer (A : Alloc) (cfg : Config) (op : Op) {w : World} {V : ℕ → Option SrcState} {p : ℕ} {st : SrcState} (S : Sepd w0 w V) (hp : V p = some st) :
    answers ((Call.on p op).run A cfg w) = ofM ((op.run st).map fun x => Answer.obs x.1) := by
  have p0 : p ≠ 0 := by rintro rfl; rw [S.v0] at hp; cases hp
  obtain ⟨lay, own, S⟩ := S
  have hs := onH_spec S.zero (S.handle p st hp) op
  have hrun : (Call.on p op).run A cfg w = (onH w p op >>= fun x => pure (Answer.obs x.1, x.2)) := by
    unfold Call.run; dsimp only; rw [if_neg p0]
  rw [hrun]
  cases ho : op.run st with
  | error g => rw [hs.1 g ho]; rfl
  | ok x =>
    obtain ⟨o, s'⟩ := x
    obtain ⟨w1, e1, -⟩ := hs.2 o s' ho
    rw [e1]; rfl

theorem at_sep {A : Alloc} {cfg : Config} {L : Set ℕ} (h : At A cfg w L) : ∃ w0 V, Sepd w0 w V ∧ L = {p | V p ≠ none} := by
  obtain ⟨w0, cs, as, h0, hC, hr, hL⟩ := h
  have e : (∅ : Set ℕ) = {p : ℕ | (fun _ => none : ℕ → Option SrcState) p ≠ none} := by ext; simp
  rw [e] at hC hL
  obtain ⟨-, i2⟩ := prog_sep A cfg cs w0 (fun _ => none) (sep_start h0) hC
  obtain ⟨V', S, hl, -⟩ := i2 as w hr
  exact ⟨w0, V', S, by rw [← hL, hl]⟩

theorem Sepd.zero (h : Sepd w0 w V) : w.blocks 0 = none := by
  obtain ⟨lay, own, S⟩ := h
  exact S.zero

end Verif
