import Verif.Props.Reading
import Verif.Props.Response

/-! The frequency response of `src_simple` (C71). -/

namespace Verif
open Spec

/-- The tones behind the filter change no faster than the tones. -/
theorem gained_slope {n : ℕ} {A ω θ : ℕ → ℝ} {g : ℝ → ℝ} {ρ : ℝ} (h : ToneLimits n A ω Real.pi) (ρ0 : 0 < ρ) (hg : ∀ a, 0 ≤ a → 0 ≤ g a ∧ g a ≤ 1) :
    SlopeAtMost (tones n (fun k => A k * g (ω k / ρ)) ω θ) (loudness n A * 4) := by
  have hk : ∀ k < n, 0 ≤ A k * g (ω k / ρ) ∧ A k * g (ω k / ρ) ≤ A k := fun k hk => by
    obtain ⟨a, b, -⟩ := h k hk
    obtain ⟨c, e⟩ := hg (ω k / ρ) (div_nonneg b ρ0.le)
    exact ⟨mul_nonneg a c, mul_le_of_le_one_right a e⟩
  have h' : ToneLimits n (fun k => A k * g (ω k / ρ)) ω Real.pi := fun k hk' => ⟨(hk k hk').1, (h k hk').2⟩
  intro s t
  refine (tones_slope (θ := θ) h' s t).trans (mul_le_mul_of_nonneg_right ?_ (abs_nonneg _))
  exact mul_le_mul (Finset.sum_le_sum fun k hk' => (hk k (Finset.mem_range.1 hk')).2) (by linarith [Real.pi_lt_d4]) Real.pi_pos.le (loudness_nonneg h)

/-- C71 for whole recordings, fast converter: `src_simple` at any ratio `r` from 1/180 multiplies the amplitude of each tone of a recording, of any frequency, by a gain that depends only on its frequency relative to the lower
of the two sampling rates, and samples the result at the new rate. -/
theorem C71_fastest_simple : ∃ g : ℝ → ℝ, (∀ a, 0 ≤ a → 0 ≤ g a ∧ g a ≤ 1) ∧ (∀ a, 0 ≤ a → a ≤ 2 → g a = 1) ∧ (∀ a, 0 ≤ a → a ≤ 8 / 10 * Real.pi → 70795 / 100000 ≤ g a) ∧
    (∀ a, 1001 / 1000 * Real.pi ≤ a → g a = 0) ∧
    ∀ (cfg : Config) (_ : LibraryTables cfg) (_ : ShippedTables cfg) (_ : (cfg.table SRC_SINC_FASTEST).isSome) (ch : ℕ) (_ : 1 ≤ ch) (_ : ch ≤ 128) (m : Mem) (d : SrcData) (r : ℚ)
      (_ : ProperArgs ch r d) (_ : 1 / 180 ≤ r) (_ : (d.inputFrames + d.outputFrames / 2 ^ 44) * r + 1 < (d.outputFrames : ℚ)),
      ∃ m' d', srcSimple cfg m (some d) SRC_SINC_FASTEST ch = .ok (0, m', some d') ∧ d'.inputFramesUsed = d.inputFrames ∧
        |(d'.outputFramesGen : ℚ) - d.inputFrames * r| ≤ 1 + (d'.outputFramesGen / 2 ^ 44 + 1 / 10 ^ 6) * r ∧
        ∀ j c n A ω θ η, (j : ℕ) < d'.outputFramesGen → c < ch → ToneLimits n A ω Real.pi → 0 ≤ η → loudness n A + η ≤ 2 ^ 62 → RecordingOf ch m d c (tones n A ω θ) η →
          21 / min 1 r + 1 ≤ (j : ℚ) / r → (j : ℚ) / r + 21 / min 1 r + 1 ≤ d.inputFrames →
          ∃ y : ℚ, (m' (d.dataOut + ((ch * j + c : ℕ) : ℤ))).val = some y ∧ |(y : ℝ) - tones n (fun k => A k * g (ω k / ((min 1 r : ℚ) : ℝ))) ω θ (j / r)| ≤
            loudness n A * (1 / 3400 + 9 / 1000000 / ((min 1 r : ℚ) : ℝ) + 4 * (j / 2 ^ 44)) + 27 / 5 * η + 1 / 2 ^ 148 := by
  have pi3 := Real.pi_gt_d4
  have pi4 := Real.pi_lt_d4
  refine ⟨Fastest.gain, fun a h0 => Fastest.gain_all h0, fun a h0 h1 => Fastest.gain_one h0 h1, fun a h0 h1 => (Fastest.gain_mem h0 (by linarith)).1,
    fun a ha => Fastest.gain_zero (by linarith), fun cfg hL hP hF ch h1 h2 m d r hA hr hroom => ?_⟩
  obtain ⟨t, hT⟩ := Option.isSome_iff_exists.1 hF
  have := (shipped_good hP hT).1 rfl
  subst this
  have ρ0 : 0 < min 1 r := lt_min one_pos (by linarith)
  obtain ⟨m', d', a1, a2, a3, a4⟩ := simple_sinc cfg hL _ (Or.inr (Or.inr rfl)) _ hT h1 h2 m hA hr hroom
  refine ⟨m', d', a1, a2, a3, fun j c n A ω θ η hj hc hLim η0 hsum hs hE1 hE2 => ?_⟩
  obtain ⟨τ, b1, b2, b3, b4⟩ := a4 j c hj hc (21 / min 1 r) _ _ η _ (recordedNear_of hs _ _)
    (gained_slope (θ := θ) (g := Fastest.gain) (ρ := ((min 1 r : ℚ) : ℝ)) hLim (by exact_mod_cast ρ0) (fun a h0 => Fastest.gain_all h0)) (by positivity) hE1 hE2
  obtain ⟨y, y1, y2⟩ := response_sample fastest_good (by norm_num) (by norm_num) fastest_reach fastest_down fastest_up (W' := 1 / 3400) (q' := 9 / 1000000) (μ' := 27 / 5) (by norm_num) (by norm_num) (by norm_num)
    (by norm_num) (by norm_num) (by norm_num) (by unfold allHistory; decide) (by decide +kernel) hA.low b1 hLim η0 hsum b2
  exact ⟨y, by rw [b3]; exact y1, drift_sum y2 b4⟩

/-- C71 for whole recordings, medium converter. -/
theorem C71_medium_simple : ∃ g : ℝ → ℝ, (∀ a, 0 ≤ a → 0 ≤ g a ∧ g a ≤ 1) ∧ (∀ a, 0 ≤ a → a ≤ 13 / 5 → g a = 1) ∧ (∀ a, 0 ≤ a → a ≤ 9 / 10 * Real.pi → 70795 / 100000 ≤ g a) ∧
    (∀ a, 1001 / 1000 * Real.pi ≤ a → g a = 0) ∧
    ∀ (cfg : Config) (_ : LibraryTables cfg) (_ : ShippedTables cfg) (_ : (cfg.table SRC_SINC_MEDIUM_QUALITY).isSome) (ch : ℕ) (_ : 1 ≤ ch) (_ : ch ≤ 128) (m : Mem) (d : SrcData) (r : ℚ)
      (_ : ProperArgs ch r d) (_ : 1 / 180 ≤ r) (_ : (d.inputFrames + d.outputFrames / 2 ^ 44) * r + 1 < (d.outputFrames : ℚ)),
      ∃ m' d', srcSimple cfg m (some d) SRC_SINC_MEDIUM_QUALITY ch = .ok (0, m', some d') ∧ d'.inputFramesUsed = d.inputFrames ∧
        |(d'.outputFramesGen : ℚ) - d.inputFrames * r| ≤ 1 + (d'.outputFramesGen / 2 ^ 44 + 1 / 10 ^ 6) * r ∧
        ∀ j c n A ω θ η, (j : ℕ) < d'.outputFramesGen → c < ch → ToneLimits n A ω Real.pi → 0 ≤ η → loudness n A + η ≤ 2 ^ 62 → RecordingOf ch m d c (tones n A ω θ) η →
          47 / min 1 r + 1 ≤ (j : ℚ) / r → (j : ℚ) / r + 47 / min 1 r + 1 ≤ d.inputFrames →
          ∃ y : ℚ, (m' (d.dataOut + ((ch * j + c : ℕ) : ℤ))).val = some y ∧ |(y : ℝ) - tones n (fun k => A k * g (ω k / ((min 1 r : ℚ) : ℝ))) ω θ (j / r)| ≤
            loudness n A * (1 / 1700 + 6 / 1000000 / ((min 1 r : ℚ) : ℝ) + 4 * (j / 2 ^ 44)) + 71 / 10 * η + 1 / 2 ^ 148 := by
  have pi3 := Real.pi_gt_d4
  have pi4 := Real.pi_lt_d4
  refine ⟨MidQual.gain, fun a h0 => MidQual.gain_all h0, fun a h0 h1 => MidQual.gain_one h0 h1, fun a h0 h1 => (MidQual.gain_mem h0 (by linarith)).1,
    fun a ha => MidQual.gain_zero (by linarith), fun cfg hL hP hF ch h1 h2 m d r hA hr hroom => ?_⟩
  obtain ⟨t, hT⟩ := Option.isSome_iff_exists.1 hF
  have := (shipped_good hP hT).2 rfl
  subst this
  have ρ0 : 0 < min 1 r := lt_min one_pos (by linarith)
  obtain ⟨m', d', a1, a2, a3, a4⟩ := simple_sinc cfg hL _ (Or.inr (Or.inl rfl)) _ hT h1 h2 m hA hr hroom
  refine ⟨m', d', a1, a2, a3, fun j c n A ω θ η hj hc hLim η0 hsum hs hE1 hE2 => ?_⟩
  obtain ⟨τ, b1, b2, b3, b4⟩ := a4 j c hj hc (47 / min 1 r) _ _ η _ (recordedNear_of hs _ _)
    (gained_slope (θ := θ) (g := MidQual.gain) (ρ := ((min 1 r : ℚ) : ℝ)) hLim (by exact_mod_cast ρ0) (fun a h0 => MidQual.gain_all h0)) (by positivity) hE1 hE2
  obtain ⟨y, y1, y2⟩ := response_sample mid_good (by norm_num) (by norm_num) mid_reach mid_down mid_up (W' := 1 / 1700) (q' := 6 / 1000000) (μ' := 71 / 10) (by norm_num) (by norm_num) (by norm_num)
    (by norm_num) (by norm_num) (by norm_num) (by unfold allHistory; decide) (by decide +kernel) hA.low b1 hLim η0 hsum b2
  exact ⟨y, by rw [b3]; exact y1, drift_sum y2 b4⟩

/-- C71 for the callback API, fast converter: the frames read at any constant ratio from 1/256 to 256, in requests and from callback buffers of any sizes, are the tones that the callback hands out, multiplied by the gain curve and
sampled at the times of the output frames.  (The hypotheses are those of C69.) -/
theorem C71_fastest_read : ∃ g : ℝ → ℝ, (∀ a, 0 ≤ a → 0 ≤ g a ∧ g a ≤ 1) ∧ (∀ a, 0 ≤ a → a ≤ 2 → g a = 1) ∧ (∀ a, 0 ≤ a → a ≤ 8 / 10 * Real.pi → 70795 / 100000 ≤ g a) ∧
    (∀ a, 1001 / 1000 * Real.pi ≤ a → g a = 0) ∧
    ∀ (cfg : Config) (_ : LibraryTables cfg) (_ : ShippedTables cfg) (func : Option ℕ) (e : ℤ) (ch ud : ℕ) (_ : ch ≤ 8355967) (st st1 : SrcState)
      (_ : srcCallbackNew cfg func SRC_SINC_FASTEST ch ud = .ok (e, some st)) (x : ℕ → ℕ → F32) (cnt addr : ℕ → ℤ) (_ : ∀ i, samples ch (cnt i) < 2 ^ 31) (len : Option ℕ) (_ : EndsFor cnt len)
      (_ : EndsAt x len) (r : ℚ) (_ : 1 / 256 ≤ r) (_ : r ≤ 256) (ops : List Op) (os : List Obs) (_ : ∀ op ∈ ops, SizedRead ch (2 ^ 50) op ∧ ReadsAt r op) (_ : run ops st = .ok (os, st1))
      (_ : Pulls x ch cnt addr 0 ops os),
      ∃ τ : ℕ → ℚ, (∀ j : ℕ, |τ j - j / r| ≤ j / 2 ^ 44) ∧
        ∀ j f c s n A ω θ η, (pulled ch ops os)[j]? = some f → f[c]? = some s → 21 / min 1 r ≤ τ j → ToneLimits n A ω Real.pi → 0 ≤ η → loudness n A + η ≤ 2 ^ 62 →
          SampledFrom x c (τ j) (21 / min 1 r) (tones n A ω θ) η →
          ∃ y : ℚ, s.val = some y ∧ |(y : ℝ) - tones n (fun k => A k * g (ω k / ((min 1 r : ℚ) : ℝ))) ω θ (τ j)| ≤
            loudness n A * (1 / 3400 + 9 / 1000000 / ((min 1 r : ℚ) : ℝ)) + 27 / 5 * η + 1 / 2 ^ 148 := by
  have pi3 := Real.pi_gt_d4
  have pi4 := Real.pi_lt_d4
  refine ⟨Fastest.gain, fun a h0 => Fastest.gain_all h0, fun a h0 h1 => Fastest.gain_one h0 h1, fun a h0 h1 => (Fastest.gain_mem h0 (by linarith)).1,
    fun a ha => Fastest.gain_zero (by linarith), fun cfg hL hP func e ch ud hc st st1 h x cnt addr hcnt len hend hx r hr1 hr2 ops os hO hr hQ => ?_⟩
  obtain ⟨t, hT, hp⟩ := pulled_sinc hL (Or.inr (Or.inr rfl)) hc h hcnt hend hx (by linarith) hO hr hQ
  have := (shipped_good hP hT).1 rfl
  subst this
  refine ⟨timeAt fun _ => r, time_steady ⟨hr1, hr2⟩, fun j f c s n A ω θ η hf hs hτ hLim η0 hsum hu => ?_⟩
  obtain ⟨-, rfl⟩ := getElem?_of_map hp hf
  obtain ⟨-, rfl⟩ := getElem?_of_map (n := ch) rfl hs
  exact response_sample fastest_good (by norm_num) (by norm_num) fastest_reach fastest_down fastest_up (W' := 1 / 3400) (q' := 9 / 1000000) (μ' := 27 / 5) (by norm_num) (by norm_num) (by norm_num)
    (by norm_num) (by norm_num) (by norm_num) (by unfold allHistory; decide) (by decide +kernel) hr1 hτ hLim η0 hsum hu

/-- C71 for the callback API, medium converter. -/
theorem C71_medium_read : ∃ g : ℝ → ℝ, (∀ a, 0 ≤ a → 0 ≤ g a ∧ g a ≤ 1) ∧ (∀ a, 0 ≤ a → a ≤ 13 / 5 → g a = 1) ∧ (∀ a, 0 ≤ a → a ≤ 9 / 10 * Real.pi → 70795 / 100000 ≤ g a) ∧
    (∀ a, 1001 / 1000 * Real.pi ≤ a → g a = 0) ∧
    ∀ (cfg : Config) (_ : LibraryTables cfg) (_ : ShippedTables cfg) (func : Option ℕ) (e : ℤ) (ch ud : ℕ) (_ : ch ≤ 8355967) (st st1 : SrcState)
      (_ : srcCallbackNew cfg func SRC_SINC_MEDIUM_QUALITY ch ud = .ok (e, some st)) (x : ℕ → ℕ → F32) (cnt addr : ℕ → ℤ) (_ : ∀ i, samples ch (cnt i) < 2 ^ 31) (len : Option ℕ) (_ : EndsFor cnt len)
      (_ : EndsAt x len) (r : ℚ) (_ : 1 / 256 ≤ r) (_ : r ≤ 256) (ops : List Op) (os : List Obs) (_ : ∀ op ∈ ops, SizedRead ch (2 ^ 50) op ∧ ReadsAt r op) (_ : run ops st = .ok (os, st1))
      (_ : Pulls x ch cnt addr 0 ops os),
      ∃ τ : ℕ → ℚ, (∀ j : ℕ, |τ j - j / r| ≤ j / 2 ^ 44) ∧
        ∀ j f c s n A ω θ η, (pulled ch ops os)[j]? = some f → f[c]? = some s → 47 / min 1 r ≤ τ j → ToneLimits n A ω Real.pi → 0 ≤ η → loudness n A + η ≤ 2 ^ 62 →
          SampledFrom x c (τ j) (47 / min 1 r) (tones n A ω θ) η →
          ∃ y : ℚ, s.val = some y ∧ |(y : ℝ) - tones n (fun k => A k * g (ω k / ((min 1 r : ℚ) : ℝ))) ω θ (τ j)| ≤
            loudness n A * (1 / 1700 + 6 / 1000000 / ((min 1 r : ℚ) : ℝ)) + 71 / 10 * η + 1 / 2 ^ 148 := by
  have pi3 := Real.pi_gt_d4
  have pi4 := Real.pi_lt_d4
  refine ⟨MidQual.gain, fun a h0 => MidQual.gain_all h0, fun a h0 h1 => MidQual.gain_one h0 h1, fun a h0 h1 => (MidQual.gain_mem h0 (by linarith)).1,
    fun a ha => MidQual.gain_zero (by linarith), fun cfg hL hP func e ch ud hc st st1 h x cnt addr hcnt len hend hx r hr1 hr2 ops os hO hr hQ => ?_⟩
  obtain ⟨t, hT, hp⟩ := pulled_sinc hL (Or.inr (Or.inl rfl)) hc h hcnt hend hx (by linarith) hO hr hQ
  have := (shipped_good hP hT).2 rfl
  subst this
  refine ⟨timeAt fun _ => r, time_steady ⟨hr1, hr2⟩, fun j f c s n A ω θ η hf hs hτ hLim η0 hsum hu => ?_⟩
  obtain ⟨-, rfl⟩ := getElem?_of_map hp hf
  obtain ⟨-, rfl⟩ := getElem?_of_map (n := ch) rfl hs
  exact response_sample mid_good (by norm_num) (by norm_num) mid_reach mid_down mid_up (W' := 1 / 1700) (q' := 6 / 1000000) (μ' := 71 / 10) (by norm_num) (by norm_num) (by norm_num)
    (by norm_num) (by norm_num) (by norm_num) (by unfold allHistory; decide) (by decide +kernel) hr1 hτ hLim η0 hsum hu

/-- The hypotheses of `C71_fastest_simple` are met by a tone of a quarter of the sampling rate, converted to half that rate (so that it is at half the new sampling rate). Frame 25 is
the gain there times `cos (25 π)`. -/
example : ∃ (g : ℝ → ℝ) (m' : Mem) (d' : SrcData) (y : ℚ), (0 ≤ g Real.pi ∧ g Real.pi ≤ 1) ∧
    srcSimple libCfg quarterMem (some (simpleArgs half 100 60)) SRC_SINC_FASTEST (2 : ℕ) = .ok (0, m', some d') ∧ (m' (1000 + 51)).val = some y ∧ |(y : ℝ) + g Real.pi| ≤ 1 / 3000 := by
  obtain ⟨g, g0, -, -, -, hC⟩ := C71_fastest_simple
  obtain ⟨m', d', h1, -, h3, h4⟩ := hC libCfg libCfg_tables libCfg_shipped rfl 2 (by norm_num) (by norm_num) quarterMem (simpleArgs half 100 60) (1 / 2)
    ⟨by decide, by decide, half_val, by norm_num, by norm_num, by decide, by decide, Or.inl (by decide), by decide, by decide⟩ (by norm_num) (by norm_num [simpleArgs])
  have h10 : (48 : ℚ) < d'.outputFramesGen := by
    have h8 := (_root_.abs_le.1 h3).1
    simp only [simpleArgs] at h8
    push_cast at h8
    norm_num at h8 ⊢
    linarith
  have h11 : 48 < d'.outputFramesGen := by exact_mod_cast h10
  have hpi := Real.pi_pos
  have hmin : min (1 : ℚ) (1 / 2) = 1 / 2 := by norm_num
  obtain ⟨y, y1, y2⟩ := h4 25 1 1 (fun _ => 1) (fun _ => Real.pi / 2) (fun _ => 0) 0 (by push_cast; omega) (by norm_num) (fun k _ => ⟨by norm_num, by positivity, by linarith⟩) le_rfl
    (by simp [loudness]; norm_num) (quarter_recording 1 (by norm_num)) (by rw [hmin]; norm_num) (by rw [hmin]; norm_num [simpleArgs])
  refine ⟨g, m', d', y, g0 _ hpi.le, h1, y1, ?_⟩
  rw [hmin] at y2
  have e : tones 1 (fun _ => 1 * g (Real.pi / 2 / ((1 / 2 : ℚ) : ℝ))) (fun _ => Real.pi / 2) (fun _ => 0) (((25 : ℕ) : ℝ) / ((1 / 2 : ℚ) : ℝ)) = -g Real.pi := by
    simp only [tones, Finset.sum_range_one, one_mul, add_zero]
    rw [show Real.pi / 2 * (((25 : ℕ) : ℝ) / ((1 / 2 : ℚ) : ℝ)) = Real.pi + ((12 : ℕ) : ℝ) * (2 * Real.pi) by push_cast; ring, Real.cos_add_nat_mul_two_pi, Real.cos_pi,
      show Real.pi / 2 / ((1 / 2 : ℚ) : ℝ) = Real.pi by push_cast; ring]
    ring
  rw [e, sub_neg_eq_add] at y2
  refine y2.trans ?_
  simp only [loudness, Finset.sum_range_one]
  norm_num

end Verif
