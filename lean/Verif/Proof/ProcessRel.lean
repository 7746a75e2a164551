import Verif.Proof.Reset

/-! Two runs of `src_process`, and of whole histories, on different sample values. -/

namespace Verif
open Spec

variable {T : SRel} {W : ℤ → ℤ → F32 → F32 → Prop} {ch : ℤ}

variable (T) in
/-- Related private data. -/
def PrivRel (ch : ℤ) : Priv → Priv → Prop
  | .null, .null => True
  | .zoh z, .zoh z' => ZRel T z z'
  | .linear z, .linear z' => ZRel T z z'
  | .sinc f, .sinc g => FRel T ch f g
  | _, _ => False

variable (T) in
/-- Related handles: same control state, related sample values. -/
structure StRel (st st' : SrcState) : Prop where
  eq : st' = { st with priv := st'.priv }
  priv : PrivRel T st.channels st.priv st'.priv

theorem StRel.upd {st st' : SrcState} (h : StRel T st st') (g : SrcState → SrcState)
    (hg : ∀ (s : SrcState) (p : Priv), g { s with priv := p } = { g s with priv := p }) (hc : (g st).channels = st.channels) :
    StRel T (g st) (g st') := by
  have e1 : g st' = { g st with priv := st'.priv } := by
    have := hg st st'.priv
    rwa [← h.eq] at this
  have e2 : (g st).priv = st.priv := by
    have := congrArg SrcState.priv (hg st st.priv)
    exact this
  refine ⟨by rw [e1], ?_⟩
  rw [e1, e2, hc]; exact h.priv

/-- The relation between the results of two process calls. -/
def PRRel (T : SRel) (W : ℤ → ℤ → F32 → F32 → Prop) (r r' : ProcRes) : Prop :=
  r.err = r'.err ∧ (∃ g, MRel (W g) r.mem r'.mem ∧ (T.Triv ∨ (r.err = 0 → g = r.data.outputFramesGen * r.st.channels))) ∧ r'.data = r.data ∧ StRel T r.st r'.st

variable (T) in
/-- What the relational theorem for a sinc handle needs: nothing if `T` is trivial, otherwise an invariant `J` of the loop of the
first run that keeps the buffer aligned. -/
def SincOk (m : Mem) (st : SrcState) (d : SrcData) : Prop :=
  T.Triv ∨ ∀ f v, st.priv = .sinc f → (st.vt = .sincMono ∧ v = vMono ∨ st.vt = .sincStereo ∧ v = vStereo ∨ st.vt = .sincQuad ∧ v = vQuad ∨
      st.vt = .sincHex ∧ v = vHex ∨ st.vt = .sincMulti ∧ v = vMulti) → v.w st.channels = st.channels ∧ ∃ J : ℤ → SincLoop → Prop,
    (∀ half f1 idx, halfFilterChanLen { f with inCount := d.inputFrames * st.channels, outCount := d.outputFrames * st.channels, inUsed := 0, outGen := 0 } st.channels st.lastRatio d.srcRatio = .ok half →
      sincNorm st.channels { f with inCount := d.inputFrames * st.channels, outCount := d.outputFrames * st.channels, inUsed := 0, outGen := 0 } st.lastPosition = .ok (f1, idx) →
      J half (sincInit m st f1 idx)) ∧
    (∀ half s s', J half s → sincStep v st d half (Fl.add (Fl.div one64 st.lastRatio) SRC_MIN_RATIO_DIFF) s = .ok (true, s') → J half s') ∧
    (∀ half s, J half s → Al T st.channels s.f)

theorem sinc_vari_rel {m m' : Mem} {st st' : SrcState} {d : SrcData} {v : SincVariant} (h : StRel T st st')
    (hv : st.vt = .sincMono ∧ v = vMono ∨ st.vt = .sincStereo ∧ v = vStereo ∨ st.vt = .sincQuad ∧ v = vQuad ∨
      st.vt = .sincHex ∧ v = vHex ∨ st.vt = .sincMulti ∧ v = vMulti)
    (h0 : 0 ≤ st.channels) (hgen : d.outputFramesGen = 0) (hC : Compat T W d st.channels) (hm : MRel (W 0) m m') (hs : SincOk T m st d) :
    RelM (PRRel T W) (sincVariProcess v m st d) (sincVariProcess v m' st' d) := by
  have hp := h.priv
  cases hp1 : st.priv <;> cases hp2 : st'.priv <;> rw [hp1, hp2] at hp <;> simp only [PrivRel] at hp
  · unfold sincVariProcess
    rw [hp1, hp2]
    exact ⟨rfl, ⟨0, hm, Or.inr (fun _ => by rw [hgen, zero_mul])⟩, rfl, h⟩
  · unfold sincVariProcess
    rw [hp1, hp2]
    exact RelM.throw _
  · unfold sincVariProcess
    rw [hp1, hp2]
    exact RelM.throw _
  · rename_i f g
    have fin : ∀ r r' : ProcRes, r.st.channels = st.channels → (r.err = r'.err ∧ (∃ g, MRel (W g) r.mem r'.mem ∧ (T.Triv ∨ (r.err = 0 → g = r.data.outputFramesGen * st.channels))) ∧ r'.data = r.data ∧
        ∃ f g, r.st.priv = .sinc f ∧ r'.st = { r.st with priv := .sinc g } ∧ FRel T st.channels f g) → PRRel T W r r' := by
      rintro r r' hc ⟨h1, h2, h3, f, g, h4, h5, h6⟩
      refine ⟨h1, by rw [hc]; exact h2, h3, by rw [h5], ?_⟩
      rw [h4, h5, hc]; exact h6
    have hch : ∀ r, sincVariProcess v m st d = .ok r → r.st.channels = st.channels := by
      intro r hr
      obtain ⟨_, e, _⟩ := sinc_frame hp1 hr
      rw [e]
    have comb : ∀ {x y : M ProcRes} {R R' : ProcRes → ProcRes → Prop}, RelM R x y → (∀ a b, x = .ok a → R a b → R' a b) → RelM R' x y := by
      intro x y R R' h1 h2
      cases x <;> cases y
      · exact h1
      · exact h1
      · exact h1
      · exact h2 _ _ rfl h1
    have hw0 : 0 ≤ v.w st.channels := by
      rcases hv with h | h | h | h | h <;> rw [h.2] <;> first | exact h0 | exact (by decide : (0:ℤ) ≤ 1) | exact (by decide : (0:ℤ) ≤ 2) | exact (by decide : (0:ℤ) ≤ 4) | exact (by decide : (0:ℤ) ≤ 6)
    rcases hs with ht | hs
    · exact comb (sinc_rel hp1 hp2 h.eq hw0 (Or.inl ht) hC hm hp (fun _ _ => True) (Or.inl ht) (fun _ _ _ _ _ => trivial)
        (fun _ _ _ => Or.inl ht)) (fun a b ha hab => fin a b (hch a ha) hab)
    · obtain ⟨hw, J, h1, h2, h3⟩ := hs f v hp1 hv
      exact comb (sinc_rel hp1 hp2 h.eq hw0 (Or.inr hw) hC hm hp J (Or.inr h1) h2 h3) (fun a b ha hab => fin a b (hch a ha) hab)

theorem vari_rel {m m' : Mem} {st st' : SrcState} {d : SrcData} (h : StRel T st st') (h0 : 0 ≤ st.channels)
    (hgen : d.outputFramesGen = 0) (hC : Compat T W d st.channels) (hm : MRel (W 0) m m') (hs : SincOk T m st d) :
    RelM (PRRel T W) (variProcess m st d) (variProcess m' st' d) := by
  have hvt : st'.vt = st.vt := by rw [h.eq]
  have hp := h.priv
  have comb : ∀ {x y : M ProcRes} {R R' : ProcRes → ProcRes → Prop}, RelM R x y → (∀ a b, x = .ok a → R a b → R' a b) → RelM R' x y := by
    intro x y R R' h1 h2
    cases x <;> cases y
    · exact h1
    · exact h1
    · exact h1
    · exact h2 _ _ rfl h1
  have hI : ∀ (K : Kernel) (wrap : InterpData → Priv) (z z' : InterpData), KRel T K → (∀ a b, ZRel T a b → PrivRel T st.channels (wrap a) (wrap b)) →
      ZRel T z z' → RelM (PRRel T W) (skBody K wrap m st d z) (skBody K wrap m' st' d z') := by
    intro K wrap z z' hK hw hz
    refine comb (skBody_rel (wrap := wrap) hK h.eq h0 hC hm hz) ?_
    rintro r r' hr ⟨h1, h2, h3, a, b, h4, h5, h6⟩
    obtain ⟨_, e, _⟩ := skBody_frame hr
    have ec : r.st.channels = st.channels := by rw [e]
    obtain ⟨g, h2, h2'⟩ := h2
    refine ⟨h1, ⟨g, h2, Or.inr (by rw [ec]; exact h2')⟩, h3, by rw [h5], ?_⟩
    rw [h4, h5, ec]
    exact hw _ _ h6
  unfold variProcess
  rw [hvt]
  cases hv : st.vt
  · dsimp only
    by_cases hn : d.inputFrames ≤ 0
    · unfold zohVariProcess
      rw [if_pos hn, if_pos hn]
      exact ⟨rfl, ⟨0, hm, Or.inr (fun _ => by rw [hgen, zero_mul])⟩, rfl, h⟩
    · cases hp1 : st.priv <;> cases hp2 : st'.priv <;> rw [hp1, hp2] at hp <;> simp only [PrivRel] at hp
      case zoh.zoh z z' =>
        rw [zoh_eq_body hp1 (by omega), zoh_eq_body hp2 (by omega)]
        exact hI _ _ z z' zoh_krel (fun _ _ h => h) hp
      all_goals
        unfold zohVariProcess
        rw [if_neg hn, if_neg hn, hp1, hp2]
        first
          | exact ⟨rfl, ⟨0, hm, Or.inr (fun _ => by rw [hgen, zero_mul])⟩, rfl, h⟩
          | exact RelM.throw _
  · dsimp only
    by_cases hn : d.inputFrames ≤ 0
    · unfold linearVariProcess
      rw [if_pos hn, if_pos hn]
      exact ⟨rfl, ⟨0, hm, Or.inr (fun _ => by rw [hgen, zero_mul])⟩, rfl, h⟩
    · cases hp1 : st.priv <;> cases hp2 : st'.priv <;> rw [hp1, hp2] at hp <;> simp only [PrivRel] at hp
      case linear.linear z z' =>
        rw [linear_eq_body hp1 (by omega), linear_eq_body hp2 (by omega)]
        exact hI _ _ z z' linear_krel (fun _ _ h => h) hp
      all_goals
        unfold linearVariProcess
        rw [if_neg hn, if_neg hn, hp1, hp2]
        first
          | exact ⟨rfl, ⟨0, hm, Or.inr (fun _ => by rw [hgen, zero_mul])⟩, rfl, h⟩
          | exact RelM.throw _
  all_goals exact sinc_vari_rel h (by rw [hv]; simp) h0 hgen hC hm hs

/-- The data of the call as the process function sees it. -/
def innerData (d : SrcData) : SrcData := { clampFrames d with inputFramesUsed := 0, outputFramesGen := 0 }

/-- The handle as the process function sees it. -/
def innerState (st : SrcState) (d : SrcData) : SrcState :=
  if Fl.lt st.lastRatio MIN_RATIO then { st with lastRatio := d.srcRatio } else st

theorem processData_rel {m m' : Mem} {st st' : SrcState} {d : SrcData} (h : StRel T st st') (h0 : 0 ≤ st.channels)
    (hC : ¬ Clash d.dataIn (samples st.channels d.inputFrames) d.dataOut (samples st.channels d.outputFrames) →
      Compat T W (innerData d) st.channels)
    (hm : MRel (W 0) m m')
    (hs : ¬ Clash d.dataIn (samples st.channels d.inputFrames) d.dataOut (samples st.channels d.outputFrames) → ¬ BadRatio d.srcRatio →
      ¬ MissingBuffer d → SincOk T m (innerState st d) (innerData d)) :
    RelM (PRRel T W) (srcProcessData m st d) (srcProcessData m' st' d) := by
  have e1 : st'.channels = st.channels := by rw [h.eq]
  have e2 : st'.lastRatio = st.lastRatio := by rw [h.eq]
  have hin : StRel T (innerState st d) (innerState st' d) := by
    unfold innerState
    rw [e2]
    split_ifs
    · exact h.upd (fun s => { s with lastRatio := d.srcRatio }) (fun _ _ => rfl) rfl
    · exact h
  have hch : (innerState st d).channels = st.channels := by unfold innerState; split_ifs <;> rfl
  have eform : ∀ (m : Mem) (st : SrcState), srcProcessData m st d =
      (if (d.dataIn = 0 ∧ d.inputFrames > 0) ∨ (d.dataOut = 0 ∧ d.outputFrames > 0) then pure { err := Err.BAD_DATA_PTR, mem := m, st, data := d }
       else if isBadSrcRatio d.srcRatio then pure { err := Err.BAD_SRC_RATIO, mem := m, st, data := d }
       else (overlapTest st.channels (clampFrames d) >>= fun b => if b then pure { err := Err.DATA_OVERLAP, mem := m, st, data := clampFrames d }
         else variProcess m (innerState st d) (innerData d))) := by
    intro m st
    unfold srcProcessData
    dsimp only
    simp only [constProcess, ite_self]
    rfl
  rw [eform, eform, e1]
  refine RelM.ite (fun _ => RelM.pure ⟨rfl, ⟨0, hm, Or.inr (fun h => absurd h (show ¬ Err.BAD_DATA_PTR = 0 by decide))⟩, rfl, h⟩) (fun hmb => ?_)
  refine RelM.ite (fun _ => RelM.pure ⟨rfl, ⟨0, hm, Or.inr (fun h => absurd h (show ¬ Err.BAD_SRC_RATIO = 0 by decide))⟩, rfl, h⟩) (fun hbad => ?_)
  refine RelM.bind_same (fun b hb => RelM.ite (fun _ => RelM.pure ⟨rfl, ⟨0, hm, Or.inr (fun h => absurd h (show ¬ Err.DATA_OVERLAP = 0 by decide))⟩, rfl, h⟩) (fun hbf => ?_))
  have hcl : ¬ Clash d.dataIn (samples st.channels d.inputFrames) d.dataOut (samples st.channels d.outputFrames) := by
    rw [← overlapTest_eq hb]; exact hbf
  exact vari_rel hin (by rw [hch]; exact h0) rfl (by rw [hch]; exact hC hcl) hm (hs hcl (by rw [← isBad_iff]; exact hbad) hmb)

/-- Results of two `src_process` calls. -/
def RRel (T : SRel) (W : ℤ → ℤ → F32 → F32 → Prop) (ch : ℤ) (r r' : ℤ × Mem × Option SrcState × Option SrcData) : Prop :=
  r'.1 = r.1 ∧ (∃ g, MRel (W g) r.2.1 r'.2.1 ∧ (T.Triv ∨ (r.1 = 0 → ∃ d, r.2.2.2 = some d ∧ g = d.outputFramesGen * ch))) ∧ r'.2.2.2 = r.2.2.2 ∧ ∃ a b, r.2.2.1 = some a ∧ r'.2.2.1 = some b ∧ StRel T a b

theorem process_rel {m m' : Mem} {st st' : SrcState} {d : Option SrcData} (h : StRel T st st') (L : Like st st)
    (hC : ∀ x, d = some x → ¬ Clash x.dataIn (samples st.channels x.inputFrames) x.dataOut (samples st.channels x.outputFrames) →
      Compat T W (innerData x) st.channels)
    (hm : MRel (W 0) m m')
    (hs : ∀ x, d = some x → ¬ Clash x.dataIn (samples st.channels x.inputFrames) x.dataOut (samples st.channels x.outputFrames) →
      ¬ BadRatio x.srcRatio → ¬ MissingBuffer x → SincOk T m (innerState st x) (innerData x)) :
    RelM (RRel T W st.channels) (srcProcess m (some st) d) (srcProcess m' (some st') d) := by
  have e : st'.mode = st.mode := by rw [h.eq]
  unfold srcProcess
  dsimp only
  rw [e]
  refine RelM.ite (fun _ => RelM.pure ⟨rfl, ⟨0, hm, Or.inr (fun h => absurd h (show ¬ Err.BAD_MODE = 0 by decide))⟩, rfl, _, _, rfl, rfl, h⟩) (fun _ => ?_)
  cases d with
  | none => exact RelM.pure ⟨rfl, ⟨0, hm, Or.inr (fun h => absurd h (show ¬ Err.BAD_DATA = 0 by decide))⟩, rfl, _, _, rfl, rfl, h⟩
  | some x =>
    refine RelM.bind_ok (processData_rel h L.pos.le (hC x rfl) hm (hs x rfl)) ?_
    intro r r' hok _ hr
    have hch : r.st.channels = st.channels := (processData_like L hok).channels
    obtain ⟨g, h1, h2⟩ := hr.2.1
    exact RelM.pure ⟨hr.1.symm, ⟨g, h1, h2.imp id (fun h e => ⟨_, rfl, by rw [← hch]; exact h e⟩)⟩, by show some _ = some _; rw [hr.2.2.1], _, _, rfl, rfl, hr.2.2.2⟩

theorem resetPriv_rel {st st' : SrcState} (h : StRel T st st') : PrivRel T st.channels (resetPriv st) (resetPriv st') := by
  have e1 : st'.vt = st.vt := by rw [h.eq]
  have e2 : st'.channels = st.channels := by rw [h.eq]
  have hp := h.priv
  unfold resetPriv
  rw [e1, e2]
  have hl : LvRel T (List.replicate st.channels.toNat zero32) (List.replicate st.channels.toNat zero32) := by
    refine ⟨rfl, fun c v v' h1 h2 => ?_⟩
    have a1 := List.mem_of_getElem? h1
    have a2 := List.mem_of_getElem? h2
    rw [List.mem_replicate] at a1 a2
    rw [a1.2, a2.2]; exact T.zero _
  have hz : ∀ z z' : InterpData, ZRel T z z' → ZRel T (zohReset st.channels z) (zohReset st.channels z') := by
    intro z z' h
    refine ⟨?_, hl⟩
    rw [h.1]; rfl
  have hl' : ∀ z z' : InterpData, ZRel T z z' → ZRel T (linearReset st.channels z) (linearReset st.channels z') := by
    intro z z' h
    refine ⟨?_, hl⟩
    rw [h.1]; rfl
  have hs : ∀ f g : SincFilter, FRel T st.channels f g → FRel T st.channels (sincReset st.channels f) (sincReset st.channels g) := by
    intro f g h
    refine ⟨?_, ?_⟩
    · rw [h.1]; rfl
    · intro i h1 h2
      have e : g.bLen = f.bLen := by rw [h.1]
      have h3 : i < f.bLen := h2
      simp only [sincReset]
      rw [if_pos ⟨h1, h3⟩, if_pos ⟨h1, by rw [e]; exact h3⟩]
      exact T.zero _
  cases hv : st.vt <;> cases hp1 : st.priv <;> cases hp2 : st'.priv <;> rw [hp1, hp2] at hp <;> simp only [PrivRel] at hp ⊢ <;>
    first
      | exact hp
      | exact hz _ _ hp
      | exact hl' _ _ hp
      | exact hs _ _ hp

theorem reset_rel {st st' : SrcState} (h : StRel T st st') : StRel T (srcResetState st) (srcResetState st') :=
  ⟨by unfold srcResetState; rw [h.eq], resetPriv_rel h⟩

theorem setRatio_rel {st st' : SrcState} (h : StRel T st st') (r : F64) :
    (srcSetRatio (some st') r).1 = (srcSetRatio (some st) r).1 ∧
      ∃ a b, (srcSetRatio (some st) r).2 = some a ∧ (srcSetRatio (some st') r).2 = some b ∧ StRel T a b := by
  unfold srcSetRatio
  dsimp only
  split_ifs
  · exact ⟨rfl, _, _, rfl, rfl, h⟩
  · exact ⟨rfl, _, _, rfl, rfl, h.upd (fun s => { s with lastRatio := r }) (fun _ _ => rfl) rfl⟩

/-- Two corresponding operations of histories that differ in sample values only; `WR m m' d` is the relation between the memories
of two corresponding `src_process` calls. -/
inductive OpRel (WR : Mem → Mem → Option SrcData → Prop) : Op → Op → Prop
  | process (m m' : Mem) (d : Option SrcData) : WR m m' d → OpRel WR (.process m d) (.process m' d)
  | setRatio (r : F64) : OpRel WR (.setRatio r) (.setRatio r)
  | reset : OpRel WR .reset .reset

/-- Two corresponding observations. -/
structure ObsRel (MR : Mem → Mem → Prop) (o o' : Obs) : Prop where
  ret : o'.ret = o.ret
  data : o'.data = o.data
  calls : o'.calls = o.calls
  err : o'.err = o.err
  chans : o'.chans = o.chans
  mem : (o.mem = none ∧ o'.mem = none) ∨ ∃ m m', o.mem = some m ∧ o'.mem = some m' ∧ MR m m'

theorem strel_obs {a b : SrcState} (h : StRel T a b) : srcError (some b) = srcError (some a) ∧ srcGetChannels (some b) = srcGetChannels (some a) := by
  constructor
  · simp only [srcError]; rw [h.eq]
  · simp only [srcGetChannels]; rw [h.eq]

/-- The relation survives one operation. -/
theorem op_rel {WR : Mem → Mem → Option SrcData → Prop} {MR : Option SrcData → Mem → Mem → Prop} {st st' : SrcState} {op op' : Op} (h : StRel T st st') (ho : OpRel WR op op')
    (hp : ∀ m m' d, op = .process m d → WR m m' d → RelM (fun r r' : ℤ × Mem × Option SrcState × Option SrcData => r'.1 = r.1 ∧ MR d r.2.1 r'.2.1 ∧ r'.2.2.2 = r.2.2.2 ∧
      ∃ a b, r.2.2.1 = some a ∧ r'.2.2.1 = some b ∧ StRel T a b) (srcProcess m (some st) d) (srcProcess m' (some st') d)) :
    RelM (fun p q => ObsRel (fun m m' => ∃ m0 d, op = .process m0 d ∧ MR d m m') p.1 q.1 ∧ StRel T p.2 q.2) (op.run st) (op'.run st') := by
  cases ho with
  | process m m' d hW =>
    refine RelM.bind (hp m m' d rfl hW) ?_
    rintro ⟨e, m1, o, d1⟩ ⟨e', m1', o', d1'⟩ ⟨f1, f2, f3, a, b, f4, f5, hab⟩
    dsimp only at f1 f2 f3 f4 f5
    subst f1; subst f3; subst f4; subst f5
    have := strel_obs hab
    exact RelM.pure ⟨⟨rfl, rfl, rfl, this.1, this.2, Or.inr ⟨m1, m1', rfl, rfl, m, d, rfl, f2⟩⟩, hab⟩
  | setRatio r =>
    obtain ⟨h1, a, b, h2, h3, hab⟩ := setRatio_rel h r
    have := strel_obs hab
    simp only [Op.run]
    generalize srcSetRatio (some st) r = x at *
    generalize srcSetRatio (some st') r = y at *
    obtain ⟨e, s⟩ := x
    obtain ⟨e', s'⟩ := y
    dsimp only at h1 h2 h3 ⊢
    subst h1; subst h2; subst h3
    exact RelM.pure ⟨⟨rfl, rfl, rfl, this.1, this.2, Or.inl ⟨rfl, rfl⟩⟩, hab⟩
  | reset =>
    have hab := reset_rel h
    have := strel_obs hab
    exact RelM.pure ⟨⟨rfl, rfl, rfl, this.1, this.2, Or.inl ⟨rfl, rfl⟩⟩, hab⟩

/-- The relation that relates everything. -/
def trivT : SRel where
  S _ _ _ := True
  A _ _ _ := True
  zero _ := trivial
  lin _ _ _ _ _ _ _ _ := trivial
  azero _ := trivial
  acc _ _ _ _ _ _ _ _ := trivial
  fin _ _ _ _ _ _ _ _ := trivial

theorem trivT_triv : trivT.Triv := ⟨fun _ _ _ => trivial, fun _ _ _ => trivial⟩

theorem run_rel_triv : ∀ (ops ops' : List Op) {st st' : SrcState}, StRel trivT st st' → 0 ≤ st.channels → Like st st →
    List.Forall₂ (OpRel (fun _ _ _ => True)) ops ops' →
    RelM (fun p q => List.Forall₂ (ObsRel (fun _ _ => True)) p.1 q.1 ∧ StRel trivT p.2 q.2) (run ops st) (run ops' st') := by
  intro ops
  induction ops with
  | nil => intro ops' st st' h _ _ hf; cases hf; exact ⟨List.Forall₂.nil, h⟩
  | cons op ops ih =>
    intro ops' st st' h h0 L hf
    cases hf with
    | cons h1 hf =>
      unfold run
      refine RelM.bind_ok (op_rel (MR := fun _ _ _ => True) h h1 (fun m m' d _ _ => ?_)) ?_
      · refine (process_rel (W := fun _ _ _ _ => True) h L (fun x _ _ => ⟨fun _ _ _ _ _ _ _ => trivial, fun _ _ _ _ _ _ => trivial, fun _ _ _ _ _ _ _ _ => trivial⟩)
          (fun _ => trivial) (fun _ _ _ _ _ => Or.inl trivT_triv)).mono ?_
        rintro a b ⟨k1, k2, k3, k4⟩
        exact ⟨k1, trivial, k3, k4⟩
      · rintro ⟨o, a⟩ ⟨o', b⟩ ok1 ok2 ⟨ho, hab⟩
        have L1 : Like st a := op_like L ok1
        have hpos := L1.pos
        have hch := L1.channels
        refine RelM.bind (ih _ hab (by omega) (like_self_priv L1) hf) ?_
        rintro ⟨os, a⟩ ⟨os', b⟩ ⟨hos, hab⟩
        refine RelM.pure ⟨List.Forall₂.cons ?_ hos, hab⟩
        refine ⟨ho.ret, ho.data, ho.calls, ho.err, ho.chans, ?_⟩
        rcases ho.mem with h | ⟨m, m', h1, h2, _⟩
        · exact Or.inl h
        · exact Or.inr ⟨m, m', h1, h2, trivial⟩

end Verif
