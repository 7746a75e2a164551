import Verif.Proof.Frame

/-! A reset handle behaves like a new one: the only difference is in the counters of the last call, which are overwritten before
they are used. -/

namespace Verif
open Spec

/-- Forget the counters of the last call. -/
def InterpData.forget (z : InterpData) : InterpData := { z with inCount := 0, inUsed := 0, outCount := 0, outGen := 0 }
def SincFilter.forget (f : SincFilter) : SincFilter := { f with inCount := 0, inUsed := 0, outCount := 0, outGen := 0 }
def Priv.forget : Priv → Priv
  | .null => .null
  | .zoh z => .zoh z.forget
  | .linear z => .linear z.forget
  | .sinc f => .sinc f.forget

/-- Handles equal up to the counters of the last call. -/
structure Sim (st st' : SrcState) : Prop where
  eq : st' = { st with priv := st'.priv }
  priv : st'.priv.forget = st.priv.forget

theorem Sim.refl (st : SrcState) : Sim st st := ⟨rfl, rfl⟩

theorem Sim.ofPriv {st : SrcState} {p p' : Priv} (h : p'.forget = p.forget) : Sim { st with priv := p } { st with priv := p' } := ⟨rfl, h⟩

theorem skBody_forget (k : Kernel) (wrap : InterpData → Priv) (m : Mem) (st : SrcState) (p : Priv) (d : SrcData) {z z' : InterpData}
    (h : z'.forget = z.forget) : skBody k wrap m { st with priv := p } d z' = skBody k wrap m st d z := by
  have e1 : z'.dirty = z.dirty := (InterpData.mk.inj h).1
  have e2 : z'.lastValue = z.lastValue := (InterpData.mk.inj h).2.2.2.2.2
  have e : initLast m d st.channels z' = initLast m d st.channels z := by unfold initLast; rw [e1, e2]
  unfold skBody
  dsimp only
  rw [e]
  rfl

theorem sinc_forget (v : SincVariant) (m : Mem) (st : SrcState) (d : SrcData) {f f' : SincFilter}
    (h : f'.forget = f.forget) : sincVariProcess v m { st with priv := .sinc f' } d = sincVariProcess v m { st with priv := .sinc f } d := by
  have e : ∀ a b : ℤ, ({ f' with inCount := a, outCount := b, inUsed := 0, outGen := 0 } : SincFilter) = { f with inCount := a, outCount := b, inUsed := 0, outGen := 0 } := by
    intro a b
    obtain ⟨h1, h2, h3, h4, h5, h6, h7, h8, h9, h10, h11, h12, h13, h14⟩ := SincFilter.mk.inj h
    cases f; cases f'
    simp_all
  unfold sincVariProcess
  dsimp only
  simp only [e]
  rfl

theorem vari_sim {st st' : SrcState} (h : Sim st st') (m : Mem) (d : SrcData) :
    RelM (fun r r' => r'.err = r.err ∧ r'.mem = r.mem ∧ r'.data = r.data ∧ Sim r.st r'.st) (variProcess m st d) (variProcess m st' d) := by
  have hvt : st'.vt = st.vt := by rw [h.eq]
  have hp := h.priv
  unfold variProcess
  rw [hvt]
  have key : ∀ {α : Type} {x y : M α} (R : α → α → Prop), y = x → (∀ a, R a a) → RelM R x y := by
    intro α x y R e hR; rw [e]; exact RelM.refl hR
  have hself : ∀ r : ProcRes, r.err = r.err ∧ r.mem = r.mem ∧ r.data = r.data ∧ Sim r.st r.st := fun r => ⟨rfl, rfl, rfl, Sim.refl _⟩
  have hsinc : ∀ v, RelM (fun r r' => r'.err = r.err ∧ r'.mem = r.mem ∧ r'.data = r.data ∧ Sim r.st r'.st)
      (sincVariProcess v m st d) (sincVariProcess v m st' d) := by
    intro v
    cases hp1 : st.priv <;> cases hp2 : st'.priv <;> rw [hp1, hp2] at hp <;> simp only [Priv.forget, reduceCtorEq] at hp
    · unfold sincVariProcess
      rw [hp1, hp2]
      exact ⟨rfl, rfl, rfl, h⟩
    · unfold sincVariProcess
      rw [hp1, hp2]
      exact RelM.throw _
    · unfold sincVariProcess
      rw [hp1, hp2]
      exact RelM.throw _
    · rename_i f g
      refine key _ ?_ hself
      have e1 : st' = { st with priv := .sinc g } := by rw [h.eq, hp2]
      have e2 : st = { st with priv := .sinc f } := by rw [← hp1]
      rw [e1]
      conv_rhs => rw [e2]
      exact sinc_forget v m st d (Priv.sinc.inj hp)
  have hinterp : ∀ (K : Kernel) (wrap : InterpData → Priv) (z z' : InterpData), z'.forget = z.forget →
      RelM (fun r r' => r'.err = r.err ∧ r'.mem = r.mem ∧ r'.data = r.data ∧ Sim r.st r'.st)
        (skBody K wrap m st d z) (skBody K wrap m st' d z') := by
    intro K wrap z z' hz
    refine key _ ?_ hself
    rw [h.eq]
    exact skBody_forget K wrap m st _ d hz
  cases hv : st.vt
  · dsimp only
    by_cases hn : d.inputFrames ≤ 0
    · unfold zohVariProcess
      rw [if_pos hn, if_pos hn]
      exact ⟨rfl, rfl, rfl, h⟩
    · cases hp1 : st.priv <;> cases hp2 : st'.priv <;> rw [hp1, hp2] at hp <;> simp only [Priv.forget, reduceCtorEq] at hp
      case zoh.zoh z z' =>
        rw [zoh_eq_body hp1 (by omega), zoh_eq_body hp2 (by omega)]
        exact hinterp _ _ z z' (Priv.zoh.inj hp)
      all_goals
        unfold zohVariProcess
        rw [if_neg hn, if_neg hn, hp1, hp2]
        first
          | exact ⟨rfl, rfl, rfl, h⟩
          | exact RelM.throw _
  · dsimp only
    by_cases hn : d.inputFrames ≤ 0
    · unfold linearVariProcess
      rw [if_pos hn, if_pos hn]
      exact ⟨rfl, rfl, rfl, h⟩
    · cases hp1 : st.priv <;> cases hp2 : st'.priv <;> rw [hp1, hp2] at hp <;> simp only [Priv.forget, reduceCtorEq] at hp
      case linear.linear z z' =>
        rw [linear_eq_body hp1 (by omega), linear_eq_body hp2 (by omega)]
        exact hinterp _ _ z z' (Priv.linear.inj hp)
      all_goals
        unfold linearVariProcess
        rw [if_neg hn, if_neg hn, hp1, hp2]
        first
          | exact ⟨rfl, rfl, rfl, h⟩
          | exact RelM.throw _
  all_goals exact hsinc _

theorem sim_upd {st st' : SrcState} (h : Sim st st') (g : SrcState → SrcState)
    (hg : ∀ (s : SrcState) (p : Priv), g { s with priv := p } = { g s with priv := p }) : Sim (g st) (g st') := by
  have e1 : g st' = { g st with priv := st'.priv } := by
    have := hg st st'.priv
    rwa [← h.eq] at this
  have e2 : (g st).priv = st.priv := by
    have := congrArg SrcState.priv (hg st st.priv)
    exact this
  refine ⟨by rw [e1], ?_⟩
  rw [e1, e2]; exact h.priv

theorem processData_sim {st st' : SrcState} (h : Sim st st') (m : Mem) (d : SrcData) :
    RelM (fun r r' => r'.err = r.err ∧ r'.mem = r.mem ∧ r'.data = r.data ∧ Sim r.st r'.st)
      (srcProcessData m st d) (srcProcessData m st' d) := by
  obtain ⟨p, rfl⟩ : ∃ p, st' = { st with priv := p } := ⟨_, h.eq⟩
  unfold srcProcessData
  dsimp only
  refine RelM.ite (fun _ => RelM.pure ⟨rfl, rfl, rfl, h⟩) (fun _ => ?_)
  refine RelM.ite (fun _ => RelM.pure ⟨rfl, rfl, rfl, h⟩) (fun _ => ?_)
  refine RelM.bind_same (fun b _ => RelM.ite (fun _ => RelM.pure ⟨rfl, rfl, rfl, h⟩) (fun _ => ?_))
  split
  · have h2 := sim_upd h (fun s => { s with lastRatio := (clampFrames d).srcRatio }) (fun _ _ => rfl)
    exact RelM.ite (fun _ => vari_sim h2 _ _) (fun _ => vari_sim h2 _ _)
  · exact RelM.ite (fun _ => vari_sim h _ _) (fun _ => vari_sim h _ _)

/-- Related optional handles. -/
def OSim : Option SrcState → Option SrcState → Prop
  | some a, some b => Sim a b
  | none, none => True
  | _, _ => False

theorem process_sim {st st' : SrcState} (h : Sim st st') (m : Mem) (d : Option SrcData) :
    RelM (fun (r r' : ℤ × Mem × Option SrcState × Option SrcData) => r'.1 = r.1 ∧ r'.2.1 = r.2.1 ∧ r'.2.2.2 = r.2.2.2 ∧
        ∃ a b, r.2.2.1 = some a ∧ r'.2.2.1 = some b ∧ Sim a b)
      (srcProcess m (some st) d) (srcProcess m (some st') d) := by
  have e : st'.mode = st.mode := by rw [h.eq]
  unfold srcProcess
  dsimp only
  rw [e]
  refine RelM.ite (fun _ => RelM.pure ⟨rfl, rfl, rfl, st, st', rfl, rfl, h⟩) (fun _ => ?_)
  cases d with
  | none => exact RelM.pure ⟨rfl, rfl, rfl, st, st', rfl, rfl, h⟩
  | some d =>
    refine RelM.bind (processData_sim h m d) (fun r r' hr => RelM.pure ⟨hr.1, hr.2.1, ?_, _, _, rfl, rfl, hr.2.2.2⟩)
    show some _ = some _
    rw [hr.2.2.1]

theorem cbStep_sim (cb : Callback) (dummy frames : ℤ) {s t : CbSt} (h : t = { s with st := t.st } ∧ Sim s.st t.st) :
    RelM (fun p q => p.1 = q.1 ∧ q.2 = { p.2 with st := q.2.st } ∧ Sim p.2.st q.2.st) (cbStep cb dummy frames s) (cbStep cb dummy frames t) := by
  obtain ⟨h1, h2⟩ := h
  have e0 : t.gen = s.gen := by rw [h1]
  unfold cbStep
  rw [e0]
  refine RelM.ite (fun _ => RelM.pure ⟨rfl, h1, h2⟩) (fun _ => ?_)
  have e1 : cbFetch cb dummy t = { cbFetch cb dummy s with st := t.st } := by
    have : t.st.userData = s.st.userData := by rw [h2.eq]
    rw [h1]; unfold cbFetch
    dsimp only
    rw [this]
    split_ifs <;> rfl
  have e2 : (cbFetch cb dummy s).st = s.st := by unfold cbFetch; split_ifs <;> rfl
  rw [e1]
  dsimp only
  rw [e2]
  refine RelM.bind (process_sim (sim_upd h2 (fun s => { s with mode := .process }) (fun _ _ => rfl)) _ _) ?_
  rintro ⟨e, mem, o, d⟩ ⟨e', mem', o', d'⟩ ⟨f1, f2, f3, a, b, f4, f5, hab⟩
  dsimp only at f1 f2 f3 f4 f5
  subst f1; subst f2; subst f3; subst f4; subst f5
  dsimp only [Option.getD_some]
  have hm := sim_upd hab (fun s => { s with mode := .callback }) (fun _ _ => rfl)
  obtain ⟨p, rfl⟩ : ∃ p, b = { a with priv := p } := ⟨_, hab.eq⟩
  dsimp only
  refine RelM.ite (fun _ => RelM.pure ⟨rfl, rfl, hm⟩) (fun _ => ?_)
  exact RelM.bind_same (fun x _ => RelM.bind_same (fun y _ => RelM.pure ⟨rfl, rfl, hm⟩))

theorem read_sim {st st' : SrcState} (h : Sim st st') (cb : Callback) (dummy : ℤ) (fuel calls : ℕ) (m : Mem) (ratio : F64)
    (frames data : ℤ) :
    RelM (fun (r r' : ℤ × Mem × Option SrcState × ℕ) => r'.1 = r.1 ∧ r'.2.1 = r.2.1 ∧ r'.2.2.2 = r.2.2.2 ∧
        ∃ a b, r.2.2.1 = some a ∧ r'.2.2.1 = some b ∧ Sim a b)
      (srcCallbackRead cb dummy fuel calls m (some st) ratio frames data)
      (srcCallbackRead cb dummy fuel calls m (some st') ratio frames data) := by
  obtain ⟨p, rfl⟩ : ∃ p, st' = { st with priv := p } := ⟨_, h.eq⟩
  unfold srcCallbackRead
  dsimp only
  refine RelM.ite (fun _ => RelM.pure ⟨rfl, rfl, rfl, _, _, rfl, rfl, h⟩) (fun _ => ?_)
  refine RelM.ite (fun _ => RelM.pure ⟨rfl, rfl, rfl, _, _, rfl, rfl, sim_upd h (fun s => { s with error := Err.BAD_MODE }) (fun _ _ => rfl)⟩) (fun _ => ?_)
  refine RelM.ite (fun _ => RelM.pure ⟨rfl, rfl, rfl, _, _, rfl, rfl, sim_upd h (fun s => { s with error := Err.NULL_CALLBACK }) (fun _ _ => rfl)⟩) (fun _ => ?_)
  refine RelM.ite (fun _ => RelM.pure ⟨rfl, rfl, rfl, _, _, rfl, rfl, sim_upd h (fun s => { s with error := Err.BAD_SRC_RATIO }) (fun _ _ => rfl)⟩) (fun _ => ?_)
  refine RelM.bind (RelM.while' (R := fun s t => t = { s with st := t.st } ∧ Sim s.st t.st) (J := fun _ => True)
    (fun s t _ hs => cbStep_sim cb dummy frames hs) (fun _ _ _ _ => trivial) _ _ _ trivial ⟨rfl, h⟩) ?_
  intro s t ⟨k1, k2⟩
  have i1 : t.err = s.err := by rw [k1]
  have i2 : t.mem = s.mem := by rw [k1]
  have i3 : t.d = s.d := by rw [k1]
  have i4 : t.gen = s.gen := by rw [k1]
  have i5 : t.calls = s.calls := by rw [k1]
  rw [i1, i2, i3, i4, i5]
  refine RelM.ite (fun _ => RelM.pure ⟨rfl, rfl, rfl, _, _, rfl, rfl, ?_⟩) (fun _ => RelM.pure ⟨rfl, rfl, rfl, _, _, rfl, rfl, ?_⟩)
  · exact sim_upd k2 (fun x => { x with savedData := s.d.dataIn, savedFrames := s.d.inputFrames, error := s.err }) (fun _ _ => rfl)
  · exact sim_upd k2 (fun x => { x with savedData := s.d.dataIn, savedFrames := s.d.inputFrames }) (fun _ _ => rfl)

theorem resetPriv_sim {st st' : SrcState} (h : Sim st st') : (resetPriv st').forget = (resetPriv st).forget := by
  have e1 : st'.vt = st.vt := by rw [h.eq]
  have e2 : st'.channels = st.channels := by rw [h.eq]
  have hp := h.priv
  unfold resetPriv
  rw [e1, e2]
  have hI : ∀ z z' : InterpData, z'.forget = z.forget → (zohReset st.channels z').forget = (zohReset st.channels z).forget := fun _ _ _ => rfl
  have hS : ∀ f f' : SincFilter, f'.forget = f.forget → (sincReset st.channels f').forget = (sincReset st.channels f).forget := by
    intro f f' h
    obtain ⟨h1, h2, h3, h4, h5, h6, h7, h8, h9, h10, h11, h12, h13, h14⟩ := SincFilter.mk.inj h
    simp only [sincReset, SincFilter.forget, h5, h6, h9, h13, h14]
  cases hv : st.vt <;> cases hp1 : st.priv <;> cases hp2 : st'.priv <;> rw [hp1, hp2] at hp <;>
    simp only [Priv.forget, reduceCtorEq] at hp ⊢ <;> first
      | exact hp
      | exact congrArg _ (hI _ _ (by injection hp))
      | exact congrArg _ (hS _ _ (by injection hp))

theorem reset_sim {st st' : SrcState} (h : Sim st st') : Sim (srcResetState st) (srcResetState st') :=
  ⟨by unfold srcResetState; rw [h.eq], resetPriv_sim h⟩

theorem op_sim {st st' : SrcState} (h : Sim st st') (op : Op) :
    RelM (fun p q => q.1 = p.1 ∧ Sim p.2 q.2) (op.run st) (op.run st') := by
  cases op with
  | process m d =>
    refine RelM.bind (process_sim h m d) ?_
    rintro ⟨e, mem, o, d⟩ ⟨e', mem', o', d'⟩ ⟨f1, f2, f3, a, b, f4, f5, hab⟩
    dsimp only at f1 f2 f3 f4 f5
    subst f1; subst f2; subst f3; subst f4; subst f5
    refine RelM.pure ⟨?_, hab⟩
    have e1 : b.error = a.error := by rw [hab.eq]
    have e2 : b.channels = a.channels := by rw [hab.eq]
    simp only [srcError, srcGetChannels, e1, e2]
  | read cb dummy fuel calls m ratio frames data =>
    refine RelM.bind (read_sim h cb dummy fuel calls m ratio frames data) ?_
    rintro ⟨e, mem, o, d⟩ ⟨e', mem', o', d'⟩ ⟨f1, f2, f3, a, b, f4, f5, hab⟩
    dsimp only at f1 f2 f3 f4 f5
    subst f1; subst f2; subst f3; subst f4; subst f5
    refine RelM.pure ⟨?_, hab⟩
    have e1 : b.error = a.error := by rw [hab.eq]
    have e2 : b.channels = a.channels := by rw [hab.eq]
    simp only [srcError, srcGetChannels, e1, e2]
  | setRatio r =>
    have e1 : st'.error = st.error := by rw [h.eq]
    have e2 : st'.channels = st.channels := by rw [h.eq]
    simp only [Op.run, srcSetRatio]
    by_cases hb : isBadSrcRatio r = true
    · simp only [hb, if_true]
      exact RelM.pure ⟨by simp only [srcError, srcGetChannels, e1, e2], h⟩
    · simp only [hb, Bool.false_eq_true, if_false]
      exact RelM.pure ⟨by simp only [srcError, srcGetChannels, e1, e2], sim_upd h (fun s => { s with lastRatio := r }) (fun _ _ => rfl)⟩
  | reset =>
    have e2 : st'.channels = st.channels := by rw [h.eq]
    refine RelM.pure ⟨?_, reset_sim h⟩
    simp only [srcReset, srcError, srcGetChannels, srcResetState, e2]

/-- Similar handles give the same observations in every history. -/
theorem run_sim : ∀ (ops : List Op) {st st' : SrcState}, Sim st st' →
    RelM (fun p q => q.1 = p.1 ∧ Sim p.2 q.2) (run ops st) (run ops st') := by
  intro ops
  induction ops with
  | nil => intro st st' h; exact ⟨rfl, h⟩
  | cons op ops ih =>
    intro st st' h
    unfold run
    refine RelM.bind (op_sim h op) ?_
    rintro ⟨o, a⟩ ⟨o', b⟩ ⟨rfl, hab⟩
    refine RelM.bind (ih hab) ?_
    rintro ⟨os, a⟩ ⟨os', b⟩ ⟨rfl, hab⟩
    exact ⟨rfl, hab⟩

/-- The state right after construction. -/
def Blank (st : SrcState) : Prop :=
  st.lastRatio = zero64 ∧ st.lastPosition = zero64 ∧ st.error = 0 ∧ st.savedData = 0 ∧ st.savedFrames = 0 ∧
    (resetPriv st).forget = st.priv.forget

theorem resetPriv_idem {st : SrcState} : resetPriv { st with priv := resetPriv st } = resetPriv st := by
  cases hv : st.vt <;> cases hp : st.priv <;> simp only [resetPriv, hv, hp, zohReset, linearReset] <;>
  · congr 1
    simp only [sincReset, SincFilter.mk.injEq, true_and]
    funext i
    split_ifs <;> rfl

theorem new_blank {cfg : Config} {type channels e : ℤ} {st : SrcState} (h : srcNew cfg type channels = .ok (e, some st)) : Blank st := by
  have key : ∀ s : SrcState, s.lastRatio = zero64 → s.lastPosition = zero64 → s.error = 0 → s.savedData = 0 → s.savedFrames = 0 →
      Blank { s with priv := resetPriv s } := by
    intro s h1 h2 h3 h4 h5
    exact ⟨h1, h2, h3, h4, h5, by rw [resetPriv_idem]⟩
  unfold srcNew at h
  split at h
  · unfold sincStateNew at h
    obtain ⟨_, hc, h⟩ := bind_ok h
    split at h
    · have h := ok_inj h; simp at h
    obtain ⟨bLen, hb, h⟩ := bind_ok h
    have h := ok_inj h
    simp only [Prod.mk.injEq, Option.some.injEq] at h
    rw [← h.2]
    exact key { stateInit (sincVt channels) channels with priv := .sinc (sincFilterInit _ bLen) } rfl rfl rfl rfl rfl
  · split at h
    · obtain ⟨_, hc, h⟩ := bind_ok h
      have h := ok_inj h
      simp only [Prod.mk.injEq, Option.some.injEq] at h
      rw [← h.2]
      exact key { stateInit .zoh channels with priv := .zoh (interpInit channels) } rfl rfl rfl rfl rfl
    split at h
    · obtain ⟨_, hc, h⟩ := bind_ok h
      have h := ok_inj h
      simp only [Prod.mk.injEq, Option.some.injEq] at h
      rw [← h.2]
      exact key { stateInit .linear channels with priv := .linear (interpInit channels) } rfl rfl rfl rfl rfl
    · have h := ok_inj h; simp at h

theorem created_blank {cfg : Config} {st : SrcState} (h : Created cfg st) : Blank st := by
  cases h with
  | new type channels e _ h => exact new_blank h
  | callbackNew func type channels ud e _ h =>
    unfold srcCallbackNew at h
    split at h
    · have h := ok_inj h; simp at h
    obtain ⟨⟨e', s⟩, h1, h⟩ := bind_ok h
    dsimp only at h
    cases s with
    | none => have h := ok_inj h; simp at h
    | some s =>
      have h := ok_inj h
      simp only [Prod.mk.injEq, Option.some.injEq] at h
      rw [← h.2]
      refine ⟨rfl, rfl, rfl, rfl, rfl, ?_⟩
      show (resetPriv { s with priv := resetPriv s }).forget = (resetPriv s).forget
      rw [resetPriv_idem]

theorem resetPriv_params {st0 st : SrcState} (L0 : Like st0 st0) (L : Like st0 st) : (resetPriv st).forget = (resetPriv st0).forget := by
  have hk := L.kind
  have hp := L.priv
  unfold resetPriv
  rw [L.vt, L.channels]
  cases hv : st0.vt <;> rw [hv] at hk <;> cases hp0 : st0.priv <;> rw [hp0] at hk hp <;> simp only [PrivKind] at hk <;>
    cases hp1 : st.priv <;> rw [hp1] at hp <;> simp only [PrivLike] at hp ⊢
  case zoh.zoh.zoh => rfl
  case linear.linear.linear => rfl
  all_goals
    obtain ⟨hp, hb⟩ := hp
    simp only [Priv.forget, sincReset, SincFilter.forget, hp.halfLen, hp.inc, hp.co, hp.bLen, Priv.sinc.injEq, SincFilter.mk.injEq, true_and]
    funext i
    have := L.pos
    split_ifs with c1 c2
    · rfl
    · rfl
    · exact hp.out i (by omega)

/-- A reset handle is similar to a new one. -/
theorem reset_fresh {cfg : Config} {st0 st : SrcState} (h : Created cfg st0) (r : Reach st0 st) : Sim st0 (srcResetState st) := by
  have L := reach_like h r
  have L0 := created_like h
  obtain ⟨b1, b2, b3, b4, b5, b6⟩ := created_blank h
  refine ⟨?_, ?_⟩
  · unfold srcResetState
    have e1 := L.vt
    have e2 := L.channels
    have e3 := L.mode
    have e4 := L.cb
    have e5 := L.ud
    cases st; cases st0
    simp only at e1 e2 e3 e4 e5 b1 b2 b3 b4 b5
    subst e1 e2 e3 e4 e5 b1 b2 b3 b4 b5
    rfl
  · show (resetPriv st).forget = _
    rw [resetPriv_params L0 L]
    exact b6

end Verif
