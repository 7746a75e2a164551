import Verif.Proof.Alike
import Verif.Spec.Callback
import Verif.Props.All

/-! `src_callback_read` as a sequence of callbacks and `src_process` calls. -/

namespace Verif
open Spec

theorem run_append : ∀ (ops ops' : List Op) (st : SrcState), run (ops ++ ops') st = (do
    let (os, st) ← run ops st
    let (os', st) ← run ops' st
    pure (os ++ os', st)) := by
  intro ops
  induction ops with
  | nil =>
    intro ops' st
    simp only [List.nil_append, run, pure_bind]
    cases run ops' st <;> rfl
  | cons op ops ih =>
    intro ops' st
    simp only [List.cons_append, run]
    cases h : op.run st with
    | error e => rfl
    | ok p =>
      obtain ⟨o, s1⟩ := p
      simp only [bind, Except.bind]
      rw [ih]
      cases h2 : run ops s1 with
      | error e => rfl
      | ok q =>
        obtain ⟨os, s2⟩ := q
        simp only [bind, Except.bind, pure, Except.pure]
        cases h3 : run ops' s2 <;> rfl

theorem run_append_ok {ops ops' : List Op} {st st1 st2 : SrcState} {os os' : List Obs} (h : run ops st = .ok (os, st1))
    (h' : run ops' st1 = .ok (os', st2)) : run (ops ++ ops') st = .ok (os ++ os', st2) := by
  rw [run_append, h]
  simp only [bind, Except.bind]
  rw [h']
  rfl

theorem run_one {op : Op} {st st1 : SrcState} {o : Obs} (h : op.run st = .ok (o, st1)) : run [op] st = .ok ([o], st1) := by
  simp only [run, h, bind, Except.bind, pure, Except.pure]

/-- What one iteration of the loop of `src_callback_read` does. -/
theorem cbStep_inv {cb : Callback} {dummy frames : ℤ} {s s' : CbSt} {b : Bool} (h : cbStep cb dummy frames s = .ok (b, s')) :
    (¬ s.gen < frames ∧ b = false ∧ s' = s) ∨
    (s.gen < frames ∧ ∃ e mem st d, srcProcess (cbFetch cb dummy s).mem (some { s.st with mode := .process }) (some (cbFetch cb dummy s).d) =
        .ok (e, mem, some st, some d) ∧
      ((e ≠ 0 ∧ b = false ∧ s'.err = e ∧ s'.mem = mem ∧ s'.st = { st with mode := .callback } ∧ s'.d = d ∧ s'.gen = s.gen ∧
          s'.calls = (cbFetch cb dummy s).calls) ∨
       (e = 0 ∧ b = decide (¬ (d.endOfInput = 1 ∧ d.outputFramesGen = 0)) ∧ s'.err = s.err ∧ s'.mem = mem ∧ s'.st = { st with mode := .callback } ∧
          s'.d = { d with
            dataIn := d.dataIn + d.inputFramesUsed * st.channels
            inputFrames := d.inputFrames - d.inputFramesUsed
            dataOut := d.dataOut + d.outputFramesGen * st.channels
            outputFrames := d.outputFrames - d.outputFramesGen } ∧ s'.gen = s.gen + d.outputFramesGen ∧
          s'.calls = (cbFetch cb dummy s).calls))) := by
  have hst : (cbFetch cb dummy s).st = s.st := by unfold cbFetch; split_ifs <;> rfl
  have hgen : (cbFetch cb dummy s).gen = s.gen := by unfold cbFetch; split_ifs <;> rfl
  have herr : (cbFetch cb dummy s).err = s.err := by unfold cbFetch; split_ifs <;> rfl
  unfold cbStep at h
  split at h
  · rename_i hg
    have h := ok_inj h; simp only [Prod.mk.injEq] at h
    exact Or.inl ⟨hg, h.1.symm, h.2.symm⟩
  rename_i hg
  right
  refine ⟨not_not.1 hg, ?_⟩
  dsimp only at h
  obtain ⟨⟨e, mem, st, d⟩, hp, h⟩ := bind_ok h
  rw [hst] at hp
  have hs : ∃ a b, st = some a ∧ d = some b := by
    have hp' := hp
    unfold srcProcess at hp'
    dsimp only at hp'
    rw [if_neg (by simp)] at hp'
    obtain ⟨r, _, hp'⟩ := bind_ok hp'
    have hp' := ok_inj hp'
    simp only [Prod.mk.injEq] at hp'
    exact ⟨_, _, hp'.2.2.1.symm, hp'.2.2.2.symm⟩
  obtain ⟨a, x, rfl, rfl⟩ := hs
  refine ⟨e, mem, a, x, hp, ?_⟩
  dsimp only [Option.getD_some] at h
  split at h
  · rename_i he
    have h := ok_inj h; simp only [Prod.mk.injEq] at h
    obtain ⟨h1, h2⟩ := h
    subst h2
    exact Or.inl ⟨he, h1.symm, rfl, rfl, rfl, rfl, hgen, rfl⟩
  · rename_i he
    obtain ⟨i1, hi1, h⟩ := bind_ok h
    obtain ⟨i2, hi2, h⟩ := bind_ok h
    have h := ok_inj h; simp only [Prod.mk.injEq] at h
    obtain ⟨h1, h2⟩ := h
    have e1 : i1 = x.inputFramesUsed * a.channels := by
      unfold chkI64 at hi1; split_ifs at hi1; exact (ok_inj hi1).symm
    have e2 : i2 = x.outputFramesGen * a.channels := by
      unfold chkI64 at hi2; split_ifs at hi2; exact (ok_inj hi2).symm
    subst h2; subst e1; subst e2
    exact Or.inr ⟨not_not.1 he, h1.symm, herr, rfl, rfl, rfl, by dsimp only; rw [hgen], rfl⟩

/-- A new handle is as after a reset. -/
theorem new_reset {cfg : Config} {type ch e : ℤ} {st : SrcState} (h : srcNew cfg type ch = .ok (e, some st)) : srcResetState st = st := by
  have key : ∀ st0 : SrcState, st0.lastPosition = zero64 → st0.lastRatio = zero64 → st0.savedData = 0 → st0.savedFrames = 0 →
      st0.error = 0 → srcResetState { st0 with priv := resetPriv st0 } = { st0 with priv := resetPriv st0 } := by
    intro st0 h1 h2 h3 h4 h5
    unfold srcResetState
    rw [resetPriv_idem]
    obtain ⟨vt, l, p, e, ch, mode, cf, ud, sf, sd, priv⟩ := st0
    simp only at h1 h2 h3 h4 h5
    subst h1; subst h2; subst h3; subst h4; subst h5
    rfl
  unfold srcNew at h
  split at h
  · unfold sincStateNew at h
    obtain ⟨_, hc, h⟩ := bind_ok h
    split at h
    · have h := ok_inj h; simp at h
    obtain ⟨bLen, hb, h⟩ := bind_ok h
    have h := ok_inj h
    simp only [Prod.mk.injEq, Option.some.injEq] at h
    obtain ⟨_, rfl⟩ := h
    exact key { stateInit (sincVt ch) ch with priv := .sinc (sincFilterInit _ bLen) } rfl rfl rfl rfl rfl
  · split at h
    · obtain ⟨_, hc, h⟩ := bind_ok h
      have h := ok_inj h
      simp only [Prod.mk.injEq, Option.some.injEq] at h
      obtain ⟨_, rfl⟩ := h
      exact key { stateInit .zoh ch with priv := .zoh (interpInit ch) } rfl rfl rfl rfl rfl
    split at h
    · obtain ⟨_, hc, h⟩ := bind_ok h
      have h := ok_inj h
      simp only [Prod.mk.injEq, Option.some.injEq] at h
      obtain ⟨_, rfl⟩ := h
      exact key { stateInit .linear ch with priv := .linear (interpInit ch) } rfl rfl rfl rfl rfl
    · have h := ok_inj h; simp at h

/-- `src_callback_new` makes the handle of `src_new` in callback mode. -/
theorem callbackNew_inv {cfg : Config} {func : Option ℕ} {type ch e : ℤ} {ud : ℕ} {st : SrcState}
    (h : srcCallbackNew cfg func type ch ud = .ok (e, some st)) :
    func ≠ none ∧ ∃ st0, srcNew cfg type ch = .ok (e, some st0) ∧ st = { st0 with
      mode := .callback
      callbackFunc := func
      userData := ud } := by
  unfold srcCallbackNew at h
  split at h
  · have h := ok_inj h; simp at h
  rename_i hf
  obtain ⟨⟨e', s⟩, h1, h⟩ := bind_ok h
  dsimp only at h
  cases s with
  | none => have h := ok_inj h; simp at h
  | some s =>
    have h := ok_inj h
    simp only [Prod.mk.injEq, Option.some.injEq] at h
    obtain ⟨rfl, hs⟩ := h
    rw [new_reset h1] at hs
    exact ⟨hf, s, h1, hs.symm⟩

/-- The callback handle `st` is like the process handle `p` that the history `ps` of `src_process`, `src_set_ratio` and `src_reset` calls
makes from the new handle `st0`. -/
structure Backed (ch : ℕ) (st0 : SrcState) (ps : List Op) (qs : List Obs) (st p : SrcState) : Prop where
  ord : ∀ op ∈ ps, OrdinaryOp 1 ch op
  run : run ps st0 = .ok (qs, p)
  mode : p.mode = .process
  alike : Alike p st

section
variable {cfg : Config} {type e0 : ℤ} {ch : ℕ} {st0 st p : SrcState} {ps : List Op} {qs : List Obs}

/-- One more `src_process` call. -/
theorem Backed.step (hL : LibraryTables cfg) (hc : ch ≤ 8355967) (h0 : srcNew cfg type ch = .ok (e0, some st0)) (B : Backed ch st0 ps qs st p)
    {m : Mem} {d : SrcData} (hd : Ordinary 1 ch d) {e : ℤ} {m' : Mem} {st' : SrcState} {d' : SrcData}
    (h : srcProcess m (some { st with mode := .process }) (some d) = .ok (e, m', some st', some d')) :
    ∃ o p', Backed ch st0 (ps ++ [.process m (some d)]) (qs ++ [o]) st' p' ∧ (Op.process m (some d)).run p = .ok (o, p') ∧
      o.ret = e ∧ o.mem = some m' ∧ o.data = some d' ∧
      (e = 0 → Accounted d d' ∧ Footprint ch d d' m m' ∧ KeepsArgs d d' ∧
        ¬ Clash d.dataIn (samples ch d.inputFrames) d.dataOut (samples ch d.outputFrames)) := by
  have hA : Alike p { st with mode := .process } := by
    have := alike_iff.1 B.alike
    exact alike_iff.2 this
  have hrel := process_alike hA B.mode rfl m d
  rw [h] at hrel
  cases hp : srcProcess m (some p) (some d) with
  | error f => rw [hp] at hrel; exact hrel.elim
  | ok r =>
    rw [hp] at hrel
    obtain ⟨e1, m1, s1, d1⟩ := r
    obtain ⟨f1, f2, f3, a, b, f4, f5, hab⟩ := hrel
    dsimp only at f1 f2 f3 f4 f5
    subst f1; subst f2; subst f3; subst f4
    cases f5
    have hr : (Op.process m (some d)).run p = .ok (⟨e, some m', some d', 0, srcError (some a), srcGetChannels (some a)⟩, a) := by
      simp only [Op.run, hp, bind, Except.bind, pure, Except.pure, Option.getD_some]
    have hrun := run_append_ok B.run (run_one hr)
    have hord : ∀ op ∈ ps ++ [.process m (some d)], OrdinaryOp 1 ch op := by
      intro op ho
      rcases List.mem_append.1 ho with ho | ho
      · exact B.ord op ho
      · rw [List.mem_singleton.1 ho]
        exact .process _ _ (by rintro x ⟨⟩; exact hd)
    have hch : p.channels = ch := (reach_like (.new _ _ _ _ h0) ⟨_, _, B.run⟩).channels.trans (new_params h0).2
    refine ⟨_, a, ⟨hord, hrun, ?_, hab⟩, hr, rfl, rfl, rfl, ?_⟩
    · rw [C35_mode cfg st0 a (.new _ _ _ _ h0) ⟨_, _, hrun⟩]
      exact (new_params h0).1
    · rintro rfl
      have hall := (all_history hL hc h0 hord hrun).1
      have hlast : SoundObs ch (.process m (some d)) ⟨0, some m', some d', 0, srcError (some a), srcGetChannels (some a)⟩ := by
        have := List.forall₂_reverse_iff.2 hall
        simp only [List.reverse_append, List.reverse_cons, List.reverse_nil, List.nil_append, List.singleton_append] at this
        cases this with
        | cons h _ => exact h.1
      rcases hlast with ⟨ha, _⟩ | ⟨_, x, x', mm, hx, hx', hm, hA, hF, hK⟩ | ⟨h21, _⟩
      · rcases ha with h | h | h | h | h <;> norm_num at h
      · cases hx; cases hx'; cases hm
        refine ⟨hA, hF, hK, ?_⟩
        rcases process_error_inv hp with ⟨hf, _⟩ | ⟨_, s, x, hs, hx, _, _, _, hcl⟩
        · cases hf
        · cases hs; cases hx
          rw [hch] at hcl
          exact hcl
      · norm_num at h21

end

theorem skBody_keeps {k : Kernel} {wrap : InterpData → Priv} {m : Mem} {st : SrcState} {d : SrcData} {z : InterpData} {r : ProcRes}
    (h : skBody k wrap m st d z = .ok r) : r.data.inputFrames = d.inputFrames := by
  unfold skBody at h
  obtain ⟨_, _, h⟩ := bind_ok h
  obtain ⟨_, _, h⟩ := bind_ok h
  obtain ⟨_, _, h⟩ := bind_ok h
  dsimp only at h
  split at h
  · rw [← ok_inj h]
  obtain ⟨_, _, h⟩ := bind_ok h
  obtain ⟨_, _, h⟩ := bind_ok h
  obtain ⟨_, _, h⟩ := bind_ok h
  split at h
  · (simp [throw, throwThe, MonadExceptOf.throw, bind, Except.bind] at h; done)
  obtain ⟨_, _, h⟩ := bind_ok h
  rw [← ok_inj h]

theorem sinc_keeps {v : SincVariant} {m : Mem} {st : SrcState} {d : SrcData} {r : ProcRes} (h : sincVariProcess v m st d = .ok r) :
    r.data.inputFrames = d.inputFrames := by
  unfold sincVariProcess at h
  split at h
  · rw [← ok_inj h]
  · obtain ⟨_, _, h⟩ := bind_ok h
    obtain ⟨_, _, h⟩ := bind_ok h
    dsimp only at h
    split at h
    · rw [← ok_inj h]
    obtain ⟨_, _, h⟩ := bind_ok h
    obtain ⟨_, _, h⟩ := bind_ok h
    obtain ⟨_, _, h⟩ := bind_ok h
    split at h
    · rw [← ok_inj h]
    obtain ⟨_, _, h⟩ := bind_ok h
    obtain ⟨_, _, h⟩ := bind_ok h
    rw [← ok_inj h]
  · (simp [throw, throwThe, MonadExceptOf.throw, bind, Except.bind] at h; done)

theorem vari_keeps {m : Mem} {st : SrcState} {d : SrcData} {r : ProcRes} (h : variProcess m st d = .ok r) :
    r.data.inputFrames = d.inputFrames := by
  unfold variProcess at h
  split at h
  · by_cases hn : d.inputFrames ≤ 0
    · unfold zohVariProcess at h
      rw [if_pos hn] at h
      rw [← ok_inj h]
    · cases hp : st.priv
      case zoh z =>
        rw [zoh_eq_body hp (by omega)] at h
        exact skBody_keeps h
      all_goals
        unfold zohVariProcess at h
        rw [if_neg hn, hp] at h
        first
          | (rw [← ok_inj h]; done)
          | (simp [throw, throwThe, MonadExceptOf.throw, bind, Except.bind] at h; done)
  · by_cases hn : d.inputFrames ≤ 0
    · unfold linearVariProcess at h
      rw [if_pos hn] at h
      rw [← ok_inj h]
    · cases hp : st.priv
      case linear z =>
        rw [linear_eq_body hp (by omega)] at h
        exact skBody_keeps h
      all_goals
        unfold linearVariProcess at h
        rw [if_neg hn, hp] at h
        first
          | (rw [← ok_inj h]; done)
          | (simp [throw, throwThe, MonadExceptOf.throw, bind, Except.bind] at h; done)
  all_goals exact sinc_keeps h

/-- `src_process` leaves the number of input frames alone or clamps it. -/
theorem process_keeps_in {m m' : Mem} {st : SrcState} {d d' : SrcData} {e : ℤ} {st' : Option SrcState}
    (h : srcProcess m (some st) (some d) = .ok (e, m', st', some d')) : d'.inputFrames = d.inputFrames ∨ d'.inputFrames = max d.inputFrames 0 := by
  have hcl : (clampFrames d).inputFrames = max d.inputFrames 0 := by simp only [clampFrames]; rw [clamp_toNat]; omega
  unfold srcProcess at h
  dsimp only at h
  split at h
  · have h := ok_inj h
    simp only [Prod.mk.injEq, Option.some.injEq] at h
    rw [← h.2.2.2]; exact Or.inl rfl
  obtain ⟨r, hr, h⟩ := bind_ok h
  have h := ok_inj h
  simp only [Prod.mk.injEq, Option.some.injEq] at h
  rw [← h.2.2.2]
  unfold srcProcessData at hr
  split at hr
  · rw [← ok_inj hr]; exact Or.inl rfl
  split at hr
  · rw [← ok_inj hr]; exact Or.inl rfl
  obtain ⟨ov, _, hr⟩ := bind_ok hr
  split at hr
  · rw [← ok_inj hr]; exact Or.inr hcl
  right
  rw [← hcl]
  dsimp only at hr
  split at hr <;> split at hr <;> (have := vari_keeps hr; exact this)

end Verif
