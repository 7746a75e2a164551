import Verif.Proof.Frame
import Verif.Proof.Call
import Verif.Spec.Contract

/-! Histories of the interpolating converters: every ordinary call succeeds or is rejected, and the handle keeps its view. -/

namespace Verif
open Spec

/-- Smallest input for which the converter's start-up code is known to work. -/
def Kind.lo : Kind → ℤ
  | .zoh => 1
  | .linear => 3

theorem Kind.dom_of_lo {K : Kind} {ch n : ℕ} (hch : 1 ≤ ch) (hchM : ch ≤ 8355967) (hn : K.lo ≤ n) {P : Pos} (h1 : P.i < 1) :
    K.Dom ch n P := by
  cases K
  · trivial
  · exact linDom_of_three hch hchM (by simp only [Kind.lo] at hn; omega) h1

theorem Kind.lo_pos (K : Kind) : 1 ≤ K.lo := by cases K <;> decide

section
variable {K : Kind} {st : SrcState} {d : SrcData} {ch : ℕ} {p l : ℚ} {before : Option (List F32)}

/-- An ordinary call is rejected for one of the documented reasons, or is a good call. -/
theorem ordinary_cases {lo : ℤ} (hch : st.channels = ch) (hmode : st.mode = .process) (hO : Ordinary lo ch d) :
    (∃ e, FirstFailing (some st) (some d) e) ∨
      (¬ MissingBuffer d ∧ ¬ BadRatio d.srcRatio ∧ ¬ Clash d.dataIn (samples ch d.inputFrames) d.dataOut (samples ch d.outputFrames) ∧
        ∃ t, GoodCall ch d d.inputFrames.toNat d.outputFrames.toNat t) := by
  by_cases h1 : MissingBuffer d
  · exact Or.inl ⟨4, .buffer st d rfl hmode rfl h1⟩
  by_cases h2 : BadRatio d.srcRatio
  · exact Or.inl ⟨6, .ratio st d rfl hmode rfl h1 h2⟩
  by_cases h3 : Clash d.dataIn (samples ch d.inputFrames) d.dataOut (samples ch d.outputFrames)
  · exact Or.inl ⟨16, .overlap st d rfl hmode rfl h1 h2 (by rw [hch]; exact h3)⟩
  refine Or.inr ⟨h1, h2, h3, ?_⟩
  have ht : ∃ t, d.srcRatio.val = some t ∧ ValidRatio t := by
    have := hO.ratio
    cases hr : d.srcRatio with
    | nan => exact absurd hr this
    | inf s => rw [hr] at h2; exact absurd trivial h2
    | fin q hq =>
      rw [hr] at h2
      simp only [BadRatio, not_or, not_lt] at h2
      exact ⟨q, rfl, h2.1, h2.2⟩
  obtain ⟨t, ht, vt⟩ := ht
  have s1 : samples ch d.inputFrames = ((ch * d.inputFrames.toNat : ℕ) : ℤ) := by
    unfold samples
    rw [show max d.inputFrames 0 = (d.inputFrames.toNat : ℤ) by omega]; push_cast; ring
  have s2 : samples ch d.outputFrames = ((ch * d.outputFrames.toNat : ℕ) : ℤ) := by
    unfold samples
    rw [show max d.outputFrames 0 = (d.outputFrames.toNat : ℤ) by omega]; push_cast; ring
  have b1 := hO.inSize
  have b2 := hO.outSize
  rw [s1] at b1 h3
  rw [s2] at b2 h3
  refine ⟨t, rfl, rfl, ?_, ?_, by exact_mod_cast b1, by exact_mod_cast b2, ?_, ht, vt⟩
  · unfold MissingBuffer at h1; omega
  · unfold MissingBuffer at h1; omega
  · unfold Clash at h3; omega

theorem firstFailing_arg {e : ℤ} {x : Option SrcData} (h : FirstFailing (some st) x e) : ArgError e := by
  cases h with
  | state h => cases h
  | mode => exact Or.inl rfl
  | data => exact Or.inr (Or.inl rfl)
  | buffer => exact Or.inr (Or.inr (Or.inl rfl))
  | ratio => exact Or.inr (Or.inr (Or.inr (Or.inl rfl)))
  | overlap => exact Or.inr (Or.inr (Or.inr (Or.inr rfl)))

theorem callData_keeps {used g : ℕ} : KeepsArgs d (callData d used g) := by
  refine ⟨rfl, rfl, ?_, ?_, rfl, rfl⟩
  · simp only [callData, clampFrames]; rw [clamp_eq]
  · simp only [callData, clampFrames]; rw [clamp_eq]

/-- One `src_process` call of an ordinary history.  The calls with fewer input frames than the start-up code is known to handle are
covered if they did not fault. -/
theorem process_core (V : View K st ch p l before) (hmode : st.mode = .process) (x : Option SrcData)
    (hO : ∀ d, x = some d → Ordinary 1 ch d) (m : Mem)
    (hD : (∀ d, x = some d → Ordinary K.lo ch d) ∨ ∃ r, srcProcess m (some st) x = .ok r) :
    ∃ e m' st' x', srcProcess m (some st) x = .ok (e, m', some st', x') ∧
      (∃ p l before, View K st' ch p l before) ∧ st' = { st with lastPosition := st'.lastPosition, lastRatio := st'.lastRatio, priv := st'.priv } ∧
      ((ArgError e ∧ m' = m ∧ st' = st) ∨
       (e = 0 ∧ ∃ d d', x = some d ∧ x' = some d' ∧ Accounted d d' ∧ Footprint ch d d' m m' ∧ KeepsArgs d d')) := by
  cases x with
  | none =>
    refine ⟨3, m, st, none, ?_, ⟨p, l, before, V⟩, rfl, Or.inl ⟨Or.inr (Or.inl rfl), rfl, rfl⟩⟩
    simp only [srcProcess]
    rw [if_neg (by simp [hmode])]; rfl
  | some d =>
    have hO := hO d rfl
    rcases ordinary_cases V.hch hmode hO with ⟨e, h⟩ | ⟨_, _, _, t, g⟩
    · obtain ⟨d', hd'⟩ := process_rejects (m := m) h (by
        rintro s y h1 h2; cases h1; cases h2
        have b1 := hO.inSize
        have b2 := hO.outSize
        rw [V.hch]
        exact ⟨by positivity, by omega, by omega⟩)
      exact ⟨e, m, st, d', hd', ⟨p, l, before, V⟩, rfl, Or.inl ⟨firstFailing_arg h, rfl, rfl⟩⟩
    · by_cases hn : d.inputFrames.toNat = 0
      · rw [hn] at g
        obtain ⟨st', h1, h2, h3⟩ := call_empty (m := m) V hmode g
        refine ⟨0, m, st', _, h1, ⟨_, _, _, h2⟩, by rw [h3], Or.inr ⟨rfl, d, _, rfl, rfl, ?_, fun _ _ => rfl, callData_keeps⟩⟩
        exact ⟨le_refl _, by show (((0 : ℕ) : ℤ)) ≤ _; push_cast; omega, le_refl _, by show (((0 : ℕ) : ℤ)) ≤ _; push_cast; omega⟩
      · obtain ⟨gen, st', h1, h2, h3, h4, h5, h6⟩ := call_spec (m := m) V hmode g (by omega) (hD.imp_left (fun hO j _ =>
          K.dom_of_lo V.hch1 V.hchM (by have := (hO d rfl).few; have := K.lo_pos; omega) (posAt_frac (ofQ_frac p) j).2))
        refine ⟨0, _, st', _, h1, ⟨_, _, _, h5⟩, h6, Or.inr ⟨rfl, d, _, rfl, rfl, ?_, ?_, callData_keeps⟩⟩
        · refine ⟨by simp only [callData]; positivity, ?_, by simp only [callData]; positivity, ?_⟩
          · simp only [callData]; omega
          · simp only [callData]; omega
        · intro a ha
          apply Mem.setRange_out
          simp only [callData] at ha
          push_cast
          rw [mul_comm (ch : ℤ)]
          exact ha

theorem Spec.Ordinary.one {lo : ℤ} (h : Ordinary lo ch d) : Ordinary 1 ch d :=
  ⟨h.ratio, h.inSize, h.outSize, by omega⟩

/-- One `src_process` call of an ordinary history. -/
theorem process_total (V : View K st ch p l before) (hmode : st.mode = .process) (x : Option SrcData)
    (hO : ∀ d, x = some d → Ordinary K.lo ch d) (m : Mem) :
    ∃ e m' st' x', srcProcess m (some st) x = .ok (e, m', some st', x') ∧
      (∃ p l before, View K st' ch p l before) ∧ st' = { st with lastPosition := st'.lastPosition, lastRatio := st'.lastRatio, priv := st'.priv } ∧
      ((ArgError e ∧ m' = m ∧ st' = st) ∨
       (e = 0 ∧ ∃ d d', x = some d ∧ x' = some d' ∧ Accounted d d' ∧ Footprint ch d d' m m' ∧ KeepsArgs d d')) :=
  process_core V hmode x (fun d h => (hO d h).one) m (Or.inl hO)

theorem setRatio_view (V : View K st ch p l before) {r : F64} (hr : r ≠ .nan) :
    ∃ e st', srcSetRatio (some st) r = (e, some st') ∧ (e = 0 ∨ e = 6) ∧ (∃ l, View K st' ch p l before) ∧
      st' = { st with lastRatio := st'.lastRatio } := by
  unfold srcSetRatio
  dsimp only
  by_cases hb : isBadSrcRatio r = true
  · rw [if_pos hb]
    exact ⟨_, st, rfl, Or.inr rfl, ⟨l, V⟩, rfl⟩
  · rw [if_neg hb]
    refine ⟨_, _, rfl, Or.inl rfl, ?_, rfl⟩
    rw [isBad_iff] at hb
    cases hr' : r with
    | nan => exact absurd hr' hr
    | inf s => rw [hr'] at hb; exact absurd trivial hb
    | fin q hq =>
      rw [hr'] at hb
      simp only [BadRatio, not_or, not_lt] at hb
      exact ⟨q, V.hvt, V.hch, V.hch1, V.hchM, V.hpos, V.hp0, V.hp1, rfl, Or.inr ⟨hb.1, hb.2⟩, V.hpriv⟩

theorem reset_view (V : View K st ch p l before) : View K (srcResetState st) ch 0 0 none := by
  refine ⟨V.hvt, V.hch, V.hch1, V.hchM, zero64_val, le_refl _, by norm_num, zero64_val, Or.inl rfl, ?_⟩
  obtain ⟨z, hz, hlen, _⟩ := V.hpriv
  have hch := V.hch
  have hvt := V.hvt
  unfold srcResetState resetPriv
  cases K
  · simp only [Kind.vt, Kind.wrap] at hvt hz
    dsimp only
    rw [hvt, hz]
    exact ⟨_, rfl, by simp [zohReset, hch], by simp [zohReset]⟩
  · simp only [Kind.vt, Kind.wrap] at hvt hz
    dsimp only
    rw [hvt, hz]
    exact ⟨_, rfl, by simp [linearReset, hch], by simp [linearReset]⟩

/-- A new handle of an interpolating converter. -/
theorem new_view {cfg : Config} {type channels e : ℤ} (h : srcNew cfg type channels = .ok (e, some st))
    (hk : type = (match K with | .zoh => SRC_ZERO_ORDER_HOLD | .linear => SRC_LINEAR)) (hc : channels ≤ 8355967) :
    View K st channels.toNat 0 0 none ∧ st.mode = .process ∧ 0 < channels := by
  unfold srcNew at h
  cases K
  · dsimp only at hk
    subst hk
    have ht : cfg.table SRC_ZERO_ORDER_HOLD = none := by simp [Config.table, SRC_ZERO_ORDER_HOLD, SRC_SINC_BEST_QUALITY, SRC_SINC_MEDIUM_QUALITY, SRC_SINC_FASTEST]
    rw [ht] at h
    dsimp only at h
    rw [if_pos rfl] at h
    unfold zohStateNew at h
    obtain ⟨u, ha, h⟩ := bind_ok h
    have hp := assertM_true ha
    simp only [gt_iff_lt, decide_eq_true_eq] at hp
    have h := ok_inj h
    simp only [Prod.mk.injEq, Option.some.injEq] at h
    rw [← h.2]
    refine ⟨⟨rfl, ?_, by omega, by omega, zero64_val, le_refl _, by norm_num, zero64_val, Or.inl rfl, ?_⟩, rfl, hp⟩
    · simp only [stateInit]; omega
    · exact ⟨_, rfl, by simp [zohReset, stateInit], by simp [zohReset]⟩
  · dsimp only at hk
    subst hk
    have ht : cfg.table SRC_LINEAR = none := by simp [Config.table, SRC_LINEAR, SRC_SINC_BEST_QUALITY, SRC_SINC_MEDIUM_QUALITY, SRC_SINC_FASTEST]
    rw [ht] at h
    dsimp only at h
    rw [if_neg (by decide), if_pos rfl] at h
    unfold linearStateNew at h
    obtain ⟨u, ha, h⟩ := bind_ok h
    have hp := assertM_true ha
    simp only [gt_iff_lt, decide_eq_true_eq] at hp
    have h := ok_inj h
    simp only [Prod.mk.injEq, Option.some.injEq] at h
    rw [← h.2]
    refine ⟨⟨rfl, ?_, by omega, by omega, zero64_val, le_refl _, by norm_num, zero64_val, Or.inl rfl, ?_⟩, rfl, hp⟩
    · simp only [stateInit]; omega
    · exact ⟨_, rfl, by simp [linearReset, stateInit], by simp [linearReset]⟩

end

theorem Spec.OrdinaryOp.one {lo : ℤ} {ch : ℕ} {op : Op} (h : OrdinaryOp lo ch op) : OrdinaryOp 1 ch op := by
  cases h with
  | process m d hd => exact .process m d (fun x hx => (hd x hx).one)
  | setRatio r hr => exact .setRatio r hr
  | reset => exact .reset

/-- In every ordinary history of an interpolating converter that does not fault every call behaves well, and the handle keeps a
view.  A history whose calls bring no input or at least `K.lo` frames does not fault. -/
theorem history_core {K : Kind} {ch : ℕ} : ∀ (ops : List Op) {st : SrcState}, (∃ p l before, View K st ch p l before) →
    st.mode = .process → (∀ op ∈ ops, OrdinaryOp 1 ch op) → ((∀ op ∈ ops, OrdinaryOp K.lo ch op) ∨ ∃ r, run ops st = .ok r) →
    ∃ os st', run ops st = .ok (os, st') ∧ List.Forall₂ (WellBehaved ch) ops os ∧ (∃ p l before, View K st' ch p l before) ∧
      st'.mode = .process ∧ (st.error = 0 → st'.error = 0) := by
  intro ops
  induction ops with
  | nil => intro st V hm _ _; exact ⟨[], st, rfl, .nil, V, hm, id⟩
  | cons op ops ih =>
    rintro st ⟨p, l, before, V⟩ hm hO hD
    have h1 := hO op (by simp)
    have h2 : ∀ op ∈ ops, OrdinaryOp 1 ch op := fun o ho => hO o (by simp [ho])
    have hstep : ∃ o st', op.run st = .ok (o, st') ∧ WellBehaved ch op o ∧ (∃ p l before, View K st' ch p l before) ∧
        st'.mode = .process ∧ (st.error = 0 → st'.error = 0) := by
      cases h1 with
      | process m d hd =>
        obtain ⟨e, m', st', x', h1, h2, h3, h4⟩ := process_core V hm d hd m (by
          rcases hD with hD | ⟨r, hr⟩
          · left
            have := hD _ (List.mem_cons_self ..)
            cases this with
            | process _ _ h => exact h
          · right
            unfold run at hr
            obtain ⟨q, hq, _⟩ := bind_ok hr
            simp only [Op.run] at hq
            obtain ⟨w, hw, _⟩ := bind_ok hq
            exact ⟨w, hw⟩)
        refine ⟨⟨e, some m', x', 0, srcError (some st'), srcGetChannels (some st')⟩, st', ?_, ?_, h2, by rw [h3]; exact hm, by rw [h3]; exact id⟩
        · simp only [Op.run, h1]; rfl
        · rcases h4 with ⟨a, b, c⟩ | ⟨a, d0, d', b, c, d1, e1, f1⟩
          · exact Or.inl ⟨a, by rw [b]⟩
          · exact Or.inr ⟨a, d0, d', m', b, c, rfl, d1, e1, f1⟩
      | setRatio r hr =>
        obtain ⟨e, st', h1, h2, ⟨l', h3⟩, h4⟩ := setRatio_view V hr
        refine ⟨⟨e, none, none, 0, srcError (some st'), srcGetChannels (some st')⟩, st', ?_, h2, ⟨_, _, _, h3⟩, by rw [h4]; exact hm, by rw [h4]; exact id⟩
        simp only [Op.run, h1]; rfl
      | reset =>
        exact ⟨_, _, rfl, rfl, ⟨_, _, _, reset_view V⟩, hm, fun _ => rfl⟩
    obtain ⟨o, st1, a1, a2, a3, a4, a5⟩ := hstep
    obtain ⟨os, st2, b1, b2, b3, b4, b5⟩ := ih a3 a4 h2 (by
      rcases hD with hD | ⟨r, hr⟩
      · exact Or.inl (fun o ho => hD o (by simp [ho]))
      · right
        unfold run at hr
        obtain ⟨q, hq, hr⟩ := bind_ok hr
        rw [a1] at hq
        cases hq
        obtain ⟨q, hq, _⟩ := bind_ok hr
        exact ⟨q, hq⟩)
    refine ⟨o :: os, st2, ?_, .cons a2 b2, b3, b4, fun h => b5 (a5 h)⟩
    simp only [run, a1, bind, Except.bind]
    rw [b1]
    rfl

/-- Every ordinary history of an interpolating converter runs without fault, every call behaves well, and the handle keeps a
view. -/
theorem history_total {K : Kind} {ch : ℕ} (ops : List Op) {st : SrcState} (hV : ∃ p l before, View K st ch p l before)
    (hm : st.mode = .process) (hO : ∀ op ∈ ops, OrdinaryOp K.lo ch op) :
    ∃ os st', run ops st = .ok (os, st') ∧ List.Forall₂ (WellBehaved ch) ops os ∧ (∃ p l before, View K st' ch p l before) ∧
      st'.mode = .process ∧ (st.error = 0 → st'.error = 0) :=
  history_core ops hV hm (fun op h => (hO op h).one) (Or.inl hO)

end Verif
