import Verif.Proof.Reset

/-! The conversion itself does not depend on the mode, the callback fields and the error field of the handle. -/

namespace Verif
open Spec

/-- Handles equal up to mode, callback fields and recorded error. -/
def Alike (a b : SrcState) : Prop :=
  b = { a with
    mode := b.mode
    callbackFunc := b.callbackFunc
    userData := b.userData
    savedFrames := b.savedFrames
    savedData := b.savedData
    error := b.error }

theorem Alike.refl (a : SrcState) : Alike a a := rfl

theorem alike_iff {a b : SrcState} : Alike a b ↔ b.vt = a.vt ∧ b.lastRatio = a.lastRatio ∧ b.lastPosition = a.lastPosition ∧
    b.channels = a.channels ∧ b.priv = a.priv := by
  constructor
  · intro h
    rw [h]
    exact ⟨rfl, rfl, rfl, rfl, rfl⟩
  · rintro ⟨h1, h2, h3, h4, h5⟩
    cases a; cases b
    simp only at h1 h2 h3 h4 h5
    subst h1; subst h2; subst h3; subst h4; subst h5
    rfl

theorem Alike.symm {a b : SrcState} (h : Alike a b) : Alike b a := by
  rw [alike_iff] at *
  exact ⟨h.1.symm, h.2.1.symm, h.2.2.1.symm, h.2.2.2.1.symm, h.2.2.2.2.symm⟩

theorem Alike.trans {a b c : SrcState} (h : Alike a b) (h' : Alike b c) : Alike a c := by
  rw [alike_iff] at *
  exact ⟨h'.1.trans h.1, h'.2.1.trans h.2.1, h'.2.2.1.trans h.2.2.1, h'.2.2.2.1.trans h.2.2.2.1, h'.2.2.2.2.trans h.2.2.2.2⟩

/-- Results of the same conversion on two such handles. -/
def ResAlike (r r' : ProcRes) : Prop := r'.err = r.err ∧ r'.mem = r.mem ∧ r'.data = r.data ∧ Alike r.st r'.st

theorem RelM.of_map {α β : Type} {R : α → β → Prop} {x : M α} {y : M β} (f : α → β) (h : y = x.map f) (hR : ∀ a, R a (f a)) : RelM R x y := by
  rw [h]
  cases x with
  | error e => exact rfl
  | ok a => exact hR a

theorem sincStep_alike (v : SincVariant) {st st' : SrcState} (h : Alike st st') (d : SrcData) (half : ℤ) (tm : F64) {s t : SincLoop}
    (hs : t = { s with error := t.error }) :
    RelM (fun p q => p.1 = q.1 ∧ q.2 = { p.2 with error := q.2.error }) (sincStep v st d half tm s) (sincStep v st' d half tm t) := by
  obtain ⟨_, h2, _, h4, _⟩ := alike_iff.1 h
  obtain ⟨m, f, idx, ratio, e, stop⟩ := s
  obtain ⟨m', f', idx', ratio', e', stop'⟩ := t
  simp only [SincLoop.mk.injEq, and_true, true_and] at hs
  obtain ⟨rfl, rfl, rfl, rfl, rfl⟩ := hs
  unfold sincStep
  dsimp only
  rw [h2, h4]
  refine RelM.ite (fun _ => RelM.pure ⟨rfl, rfl⟩) (fun _ => ?_)
  have hre : RelM (fun p q => p.1 = q.1 ∧ q.2 = { p.2 with error := q.2.error })
      (sincReload st d half ⟨m', f', idx', ratio', e, stop'⟩) (sincReload st' d half ⟨m', f', idx', ratio', e', stop'⟩) := by
    unfold sincReload
    dsimp only
    rw [h4]
    refine RelM.bind_same (fun n _ => RelM.ite (fun _ => ?_) (fun _ => RelM.pure ⟨rfl, rfl⟩))
    exact RelM.refl (fun _ => ⟨rfl, rfl⟩)
  refine RelM.bind hre ?_
  rintro ⟨b, m1, f1, i1, r1, e1, s1⟩ ⟨b', m2, f2, i2, r2, e2, s2⟩ ⟨hb, hs⟩
  simp only [SincLoop.mk.injEq, and_true, true_and] at hb hs
  obtain ⟨rfl, rfl, rfl, rfl, rfl⟩ := hs
  subst hb
  dsimp only
  refine RelM.ite (fun _ => RelM.pure ⟨rfl, rfl⟩) (fun _ => ?_)
  refine RelM.ite (fun _ => RelM.pure ⟨rfl, rfl⟩) (fun _ => ?_)
  refine RelM.bind_same (fun sum _ => RelM.bind_same (fun mem _ => RelM.bind_same (fun p _ => ?_)))
  exact RelM.pure ⟨rfl, rfl⟩

theorem sinc_alike (v : SincVariant) {st st' : SrcState} (h : Alike st st') (m : Mem) (d : SrcData) :
    RelM ResAlike (sincVariProcess v m st d) (sincVariProcess v m st' d) := by
  obtain ⟨h1, h2, h3, h4, h5⟩ := alike_iff.1 h
  unfold sincVariProcess
  rw [h5]
  cases hp : st.priv with
  | null => exact RelM.pure ⟨rfl, rfl, rfl, h⟩
  | zoh z => exact RelM.throw _
  | linear z => exact RelM.throw _
  | sinc f =>
    dsimp only
    rw [h2, h3, h4]
    refine RelM.bind_same (fun n _ => RelM.bind_same (fun o _ => ?_))
    refine RelM.ite (fun _ => RelM.pure ⟨rfl, rfl, rfl, alike_iff.2 ⟨h1, rfl, rfl, rfl, rfl⟩⟩) (fun _ => ?_)
    refine RelM.bind_same (fun half _ => RelM.bind_same (fun p _ => ?_))
    refine RelM.bind (RelM.while' (R := fun s t => t = { s with error := t.error }) (J := fun _ => True)
      (fun s t _ hs => sincStep_alike v h d half _ hs) (fun _ _ _ _ => trivial) _ _ _ trivial rfl) ?_
    intro s t hs
    obtain ⟨m1, f1, i1, r1, e1, s1⟩ := s
    obtain ⟨m2, f2, i2, r2, e2, s2⟩ := t
    simp only [SincLoop.mk.injEq, and_true, true_and] at hs
    obtain ⟨rfl, rfl, rfl, rfl, rfl⟩ := hs
    dsimp only
    refine RelM.ite (fun _ => RelM.pure ⟨rfl, rfl, rfl, alike_iff.2 ⟨h1, rfl, rfl, rfl, rfl⟩⟩) (fun _ => ?_)
    refine RelM.bind_same (fun a _ => RelM.bind_same (fun b _ => RelM.pure ⟨rfl, rfl, rfl, alike_iff.2 ⟨h1, rfl, rfl, rfl, rfl⟩⟩))

theorem skBody_alike (k : Kernel) (wrap : InterpData → Priv) {st st' : SrcState} (h : Alike st st') (m : Mem) (d : SrcData) (z : InterpData) :
    RelM ResAlike (skBody k wrap m st d z) (skBody k wrap m st' d z) := by
  obtain ⟨h1, h2, h3, h4, h5⟩ := alike_iff.1 h
  have e1 : ∀ lv n o, skFirst k st' d lv n o = skFirst k st d lv n o := by intro lv n o; funext s; unfold skFirst; rw [h2, h4]
  have e2 : ∀ n o, skMain k st' d n o = skMain k st d n o := by intro n o; funext s; unfold skMain; rw [h2, h4]
  unfold skBody
  rw [h2, h3, h4]
  simp only [e1, e2]
  refine RelM.bind_same (fun lv _ => RelM.bind_same (fun n _ => RelM.bind_same (fun o _ => ?_)))
  refine RelM.ite (fun _ => RelM.pure ⟨rfl, rfl, rfl, alike_iff.2 ⟨h1, rfl, rfl, rfl, rfl⟩⟩) (fun _ => ?_)
  refine RelM.bind_same (fun a _ => RelM.bind_same (fun b _ => RelM.bind_same (fun c _ => ?_)))
  refine RelM.ite (fun _ => RelM.throw _) (fun _ => ?_)
  refine RelM.bind_same (fun l _ => RelM.pure ⟨rfl, rfl, rfl, alike_iff.2 ⟨h1, rfl, rfl, rfl, rfl⟩⟩)

theorem vari_alike {st st' : SrcState} (h : Alike st st') (m : Mem) (d : SrcData) :
    RelM ResAlike (variProcess m st d) (variProcess m st' d) := by
  obtain ⟨h1, h2, h3, h4, h5⟩ := alike_iff.1 h
  unfold variProcess
  rw [h1]
  cases hv : st.vt
  · dsimp only
    by_cases hn : d.inputFrames ≤ 0
    · unfold zohVariProcess
      rw [if_pos hn, if_pos hn]
      exact ⟨rfl, rfl, rfl, h⟩
    · cases hp : st.priv
      case zoh z =>
        rw [zoh_eq_body hp (by omega), zoh_eq_body (h5.trans hp) (by omega)]
        exact skBody_alike _ _ h m d z
      all_goals
        unfold zohVariProcess
        rw [if_neg hn, if_neg hn, h5, hp]
        first
          | exact ⟨rfl, rfl, rfl, h⟩
          | exact RelM.throw _
  · dsimp only
    by_cases hn : d.inputFrames ≤ 0
    · unfold linearVariProcess
      rw [if_pos hn, if_pos hn]
      exact ⟨rfl, rfl, rfl, h⟩
    · cases hp : st.priv
      case linear z =>
        rw [linear_eq_body hp (by omega), linear_eq_body (h5.trans hp) (by omega)]
        exact skBody_alike _ _ h m d z
      all_goals
        unfold linearVariProcess
        rw [if_neg hn, if_neg hn, h5, hp]
        first
          | exact ⟨rfl, rfl, rfl, h⟩
          | exact RelM.throw _
  all_goals exact sinc_alike _ h m d

theorem processData_alike {st st' : SrcState} (h : Alike st st') (m : Mem) (d : SrcData) :
    RelM ResAlike (srcProcessData m st d) (srcProcessData m st' d) := by
  obtain ⟨h1, h2, h3, h4, h5⟩ := alike_iff.1 h
  unfold srcProcessData
  rw [h2, h4]
  refine RelM.ite (fun _ => RelM.pure ⟨rfl, rfl, rfl, h⟩) (fun _ => ?_)
  refine RelM.ite (fun _ => RelM.pure ⟨rfl, rfl, rfl, h⟩) (fun _ => ?_)
  dsimp only
  refine RelM.bind_same (fun b _ => RelM.ite (fun _ => RelM.pure ⟨rfl, rfl, rfl, h⟩) (fun _ => ?_))
  split
  · refine RelM.ite (fun _ => vari_alike ?_ _ _) (fun _ => vari_alike ?_ _ _)
    all_goals exact alike_iff.2 ⟨h1, rfl, h3, rfl, h5⟩
  · rw [h2]
    refine RelM.ite (fun _ => vari_alike ?_ _ _) (fun _ => vari_alike ?_ _ _)
    all_goals first
      | exact h
      | exact alike_iff.2 ⟨h1, rfl, h3, rfl, h5⟩

/-- `src_process` on two handles in process mode that differ only in their callback fields and error. -/
theorem process_alike {st st' : SrcState} (h : Alike st st') (hm : st.mode = .process) (hm' : st'.mode = .process) (m : Mem) (d : SrcData) :
    RelM (fun (r r' : ℤ × Mem × Option SrcState × Option SrcData) => r'.1 = r.1 ∧ r'.2.1 = r.2.1 ∧ r'.2.2.2 = r.2.2.2 ∧
        ∃ a b, r.2.2.1 = some a ∧ r'.2.2.1 = some b ∧ Alike a b)
      (srcProcess m (some st) (some d)) (srcProcess m (some st') (some d)) := by
  unfold srcProcess
  dsimp only
  rw [if_neg (by simp [hm]), if_neg (by simp [hm'])]
  refine RelM.bind (processData_alike h m d) (fun r r' hr => RelM.pure ⟨hr.1, hr.2.1, ?_, _, _, rfl, rfl, hr.2.2.2⟩)
  show some _ = some _
  rw [hr.2.2.1]

theorem resetPriv_alike {st st' : SrcState} (h : Alike st st') : resetPriv st' = resetPriv st := by
  obtain ⟨h1, h2, h3, h4, h5⟩ := alike_iff.1 h
  unfold resetPriv
  rw [h1, h4, h5]

theorem reset_alike {st st' : SrcState} (h : Alike st st') : Alike (srcResetState st) (srcResetState st') := by
  obtain ⟨h1, h2, h3, h4, h5⟩ := alike_iff.1 h
  exact alike_iff.2 ⟨h1, rfl, rfl, h4, resetPriv_alike h⟩

end Verif
