import Verif.Props.Alias
import Verif.Props.Simple
import Verif.Props.Smooth
import Verif.Spec.Recording

/-! Conversion of a whole recording with `src_simple` (C68). -/

namespace Verif
open Spec

section
variable {ch : ℕ} {m : Mem} {d : SrcData} {r : ℚ}

/-- The clock is less than a frame off. -/
theorem drift_small (h1 : 1 ≤ ch) (hA : ProperArgs ch r d) {j : ℕ} (hj : (j : ℚ) / r ≤ d.inputFrames) : (j : ℚ) / 2 ^ 44 ≤ 1 := by
  have hr0 : 0 < r := lt_of_lt_of_le (by norm_num) hA.low
  have hN : d.inputFrames < 2 ^ 31 := by
    have := hA.inSize
    have hc : (1 : ℤ) ≤ ch := by exact_mod_cast h1
    nlinarith [hA.input]
  have hN' : (d.inputFrames : ℚ) < 2 ^ 31 := by exact_mod_cast hN
  rw [div_le_iff₀ hr0] at hj
  have h0 : (0 : ℚ) ≤ d.inputFrames := by have := hA.input; exact_mod_cast (by omega : (0 : ℤ) ≤ d.inputFrames)
  have := mul_le_mul hN'.le hA.high hr0.le (by norm_num)
  rw [div_le_one (by positivity)]
  linarith

/-- The samples around a time within the recording. -/
theorem recording_sampled {c : ℕ} {s : ℝ → ℝ} {η : ℝ} (h : RecordingOf ch m d c s η) {τ E : ℚ} (hE : τ + E ≤ d.inputFrames) : SampledFrom (inputOf ch m d) c τ E s η := by
  intro k hk
  have : (k : ℚ) < d.inputFrames := by have := (_root_.abs_lt.1 hk).2; linarith
  have hk' : (k : ℤ) < d.inputFrames := by exact_mod_cast this
  unfold inputOf
  rw [if_pos hk']
  exact h k hk'

theorem recordedNear_of {c : ℕ} {s : ℝ → ℝ} {η : ℝ} (h : RecordingOf ch m d c s η) (T R : ℚ) : RecordedNear ch m d c T R s η := fun k hk _ => h k hk

theorem near_sampled {c : ℕ} {s : ℝ → ℝ} {η : ℝ} {T E τ e : ℚ} (h : RecordedNear ch m d c T (E + e) s η) (hτ : |τ - T| ≤ e) (hE : τ + E ≤ d.inputFrames) :
    SampledFrom (inputOf ch m d) c τ E s η := by
  intro k hk
  have hk2 := _root_.abs_lt.1 hk
  have hk3 := _root_.abs_le.1 hτ
  have : (k : ℚ) < d.inputFrames := by linarith
  have hk' : (k : ℤ) < d.inputFrames := by exact_mod_cast this
  unfold inputOf
  rw [if_pos hk']
  exact h k hk' (by rw [_root_.abs_lt]; constructor <;> linarith)

theorem slope_drift {g : ℝ → ℝ} {S : ℝ} (h : SlopeAtMost g S) {τ : ℚ} {j : ℕ} (hτ : |τ - j / r| ≤ j / 2 ^ 44) : |g τ - g (j / r)| ≤ S * (j / 2 ^ 44) := by
  have hS : 0 ≤ S := by
    have := (abs_nonneg _).trans (h 1 0)
    simpa using this
  have := Alias.abs_cast hτ
  push_cast at this
  exact (h _ _).trans (mul_le_mul_of_nonneg_left this hS)

/-- A sinc converter on a recording. -/
theorem simple_sinc (cfg : Config) (hL : LibraryTables cfg) (type : ℤ) (ht : SincType type) (t : CoeffTable) (hT : cfg.table type = some t) (h1 : 1 ≤ ch)
    (h2 : ch ≤ 128) (m : Mem) (hA : ProperArgs ch r d) (hr : 1 / 180 ≤ r) (hroom : (d.inputFrames + d.outputFrames / 2 ^ 44) * r + 1 < (d.outputFrames : ℚ)) :
    ∃ m' d', srcSimple cfg m (some d) type ch = .ok (0, m', some d') ∧ d'.inputFramesUsed = d.inputFrames ∧
      |(d'.outputFramesGen : ℚ) - d.inputFrames * r| ≤ 1 + (d'.outputFramesGen / 2 ^ 44 + 1 / 10 ^ 6) * r ∧
      ∀ j c : ℕ, (j : ℤ) < d'.outputFramesGen → c < ch → ∀ (E : ℚ) (s tgt : ℝ → ℝ) (η S : ℝ), RecordedNear ch m d c (j / r) (E + 1) s η → SlopeAtMost tgt S → 0 ≤ E → E + 1 ≤ j / r →
        j / r + E + 1 ≤ d.inputFrames → ∃ τ : ℚ, E ≤ τ ∧ SampledFrom (inputOf ch m d) c τ E s η ∧
          m' (d.dataOut + ((ch * j + c : ℕ) : ℤ)) = sincIdeal t (inputOf ch m d) (allHistory t) r τ c ∧ |tgt τ - tgt (j / r)| ≤ S * (j / 2 ^ 44) := by
  obtain ⟨m', d', a1, a2, a3, a4⟩ := C60_sinc cfg hL type ht t hT ch h1 h2 m d r hA hr
  obtain ⟨b1, b2⟩ := a3 (a4 hroom)
  refine ⟨m', d', a1, b1, b2, fun j c hj hc E s tgt η S hs hS hE0 hE1 hE2 => ?_⟩
  obtain ⟨τ, c1, -, c2⟩ := a2.frames j c hj hc
  have hd := drift_small h1 hA (j := j) (by linarith)
  have c3 := _root_.abs_le.1 c1
  exact ⟨τ, by linarith, near_sampled hs (c1.trans hd) (by linarith), c2, slope_drift hS c1⟩

/-- Only the tones that are kept count for the slope. -/
theorem upTo_slope {n : ℕ} {A ω θ : ℕ → ℝ} {lo hi : ℝ} (h : ToneBands n A ω lo hi) (h0 : 0 ≤ lo) : SlopeAtMost (tonesUpTo lo n A ω θ) (loudness n A * lo) := by
  intro s t
  unfold tonesUpTo loudness
  rw [← Finset.sum_sub_distrib, Finset.sum_mul, Finset.sum_mul]
  refine (Finset.abs_sum_le_sum_abs _ _).trans (Finset.sum_le_sum (fun k hk => ?_))
  obtain ⟨a, b, -⟩ := h k (Finset.mem_range.1 hk)
  by_cases hc : ω k ≤ lo
  · rw [if_pos hc, if_pos hc, ← mul_sub, abs_mul, abs_of_nonneg a, mul_assoc]
    refine mul_le_mul_of_nonneg_left ?_ a
    refine (Real.abs_cos_sub_cos_le _ _).trans ?_
    rw [show ω k * s + θ k - (ω k * t + θ k) = ω k * (s - t) by ring, abs_mul, abs_of_nonneg b]
    exact mul_le_mul_of_nonneg_right hc (abs_nonneg _)
  · rw [if_neg hc, if_neg hc, sub_zero, abs_zero]
    positivity

end

theorem drift_sum {y a b L κ S v : ℝ} {e w : ℝ} (h1 : |y - a| ≤ L * κ + e + w) (h2 : |a - b| ≤ L * S * v) : |y - b| ≤ L * (κ + S * v) + e + w := by
  refine (abs_sub_le y a b).trans ((add_le_add h1 h2).trans (le_of_eq (by ring)))

/-- `C68_fastest_up` with only the samples around the frame known. -/
theorem near_fastest_up (cfg : Config) (hL : LibraryTables cfg) (hP : ShippedTables cfg) (hF : (cfg.table SRC_SINC_FASTEST).isSome) (ch : ℕ) (h1 : 1 ≤ ch) (h2 : ch ≤ 128) (m : Mem) (d : SrcData) (r : ℚ)
    (hA : ProperArgs ch r d) (hr : 1 ≤ r) (hroom : (d.inputFrames + d.outputFrames / 2 ^ 44) * r + 1 < (d.outputFrames : ℚ)) :
    ∃ m' d', srcSimple cfg m (some d) SRC_SINC_FASTEST ch = .ok (0, m', some d') ∧ d'.inputFramesUsed = d.inputFrames ∧
      |(d'.outputFramesGen : ℚ) - d.inputFrames * r| ≤ 1 + (d'.outputFramesGen / 2 ^ 44 + 1 / 10 ^ 6) * r ∧
      ∀ j c n A ω θ η, (j : ℕ) < d'.outputFramesGen → c < ch → ToneLimits n A ω 2 → 0 ≤ η → loudness n A + η ≤ 2 ^ 62 → RecordedNear ch m d c (j / r) 22 (tones n A ω θ) η →
        22 ≤ (j : ℚ) / r → (j : ℚ) / r + 22 ≤ d.inputFrames →
        ∃ y : ℚ, (m' (d.dataOut + ((ch * j + c : ℕ) : ℤ))).val = some y ∧
          |(y : ℝ) - tones n A ω θ (j / r)| ≤ loudness n A * (1 / 10000 + 2 * (j / 2 ^ 44)) + 2 * η + 1 / 2 ^ 148 := by
  obtain ⟨t, hT⟩ := Option.isSome_iff_exists.1 hF
  have := (shipped_good hP hT).1 rfl
  subst this
  obtain ⟨m', d', a1, a2, a3, a4⟩ := simple_sinc cfg hL _ (Or.inr (Or.inr rfl)) _ hT h1 h2 m hA (by linarith) hroom
  refine ⟨m', d', a1, a2, a3, fun j c n A ω θ η hj hc hLim η0 hsum hs hE1 hE2 => ?_⟩
  obtain ⟨τ, b1, b2, b3, b4⟩ := a4 j c hj hc 21 _ _ η _ (by norm_num; exact hs) (tones_slope (θ := θ) hLim) (by norm_num) (by linarith) (by linarith)
  obtain ⟨y, y1, y2⟩ := tones_sample (κ' := 1 / 10000) (μ' := 2) fastest_good (by norm_num) fastest_reach fastest_tones (by norm_num) (by norm_num)
    (D := allHistory Fastest.table) (by unfold allHistory; decide) (by decide +kernel) hr b1 hLim η0 hsum b2
  exact ⟨y, by rw [b3]; exact y1, drift_sum y2 b4⟩

/-- C68, fast sinc converter, ratio at least 1: `src_simple` with proper arguments and room for the result returns 0, uses all input and produces `r` frames per input frame, up to one frame and
rounding.  If the input is a recording of tones up to 2 radians per frame (0.63 of half the sampling rate), the output is a recording of the same tones at the new rate: frame `j` is the signal at time `j / r`, up to
`1 / 10000` of its loudness, twice the error `η` of the recording and the rounding of the clock, except for the first and last 22 frames of the input, where the silence around the recording is heard. -/
theorem C68_fastest_up (cfg : Config) (hL : LibraryTables cfg) (hP : ShippedTables cfg) (hF : (cfg.table SRC_SINC_FASTEST).isSome) (ch : ℕ) (h1 : 1 ≤ ch) (h2 : ch ≤ 128) (m : Mem) (d : SrcData) (r : ℚ)
    (hA : ProperArgs ch r d) (hr : 1 ≤ r) (hroom : (d.inputFrames + d.outputFrames / 2 ^ 44) * r + 1 < (d.outputFrames : ℚ)) :
    ∃ m' d', srcSimple cfg m (some d) SRC_SINC_FASTEST ch = .ok (0, m', some d') ∧ d'.inputFramesUsed = d.inputFrames ∧
      |(d'.outputFramesGen : ℚ) - d.inputFrames * r| ≤ 1 + (d'.outputFramesGen / 2 ^ 44 + 1 / 10 ^ 6) * r ∧
      ∀ j c n A ω θ η, (j : ℕ) < d'.outputFramesGen → c < ch → ToneLimits n A ω 2 → 0 ≤ η → loudness n A + η ≤ 2 ^ 62 → RecordingOf ch m d c (tones n A ω θ) η →
        22 ≤ (j : ℚ) / r → (j : ℚ) / r + 22 ≤ d.inputFrames →
        ∃ y : ℚ, (m' (d.dataOut + ((ch * j + c : ℕ) : ℤ))).val = some y ∧
          |(y : ℝ) - tones n A ω θ (j / r)| ≤ loudness n A * (1 / 10000 + 2 * (j / 2 ^ 44)) + 2 * η + 1 / 2 ^ 148 := by
  obtain ⟨m', d', a1, a2, a3, a4⟩ := near_fastest_up cfg hL hP hF ch h1 h2 m d r hA hr hroom
  exact ⟨m', d', a1, a2, a3, fun j c n A ω θ η hj hc hLim η0 hsum hs hE1 hE2 => a4 j c n A ω θ η hj hc hLim η0 hsum (recordedNear_of hs _ _) hE1 hE2⟩

/-- `C68_medium_up` with only the samples around the frame known. -/
theorem near_medium_up (cfg : Config) (hL : LibraryTables cfg) (hP : ShippedTables cfg) (hF : (cfg.table SRC_SINC_MEDIUM_QUALITY).isSome) (ch : ℕ) (h1 : 1 ≤ ch) (h2 : ch ≤ 128) (m : Mem) (d : SrcData) (r : ℚ)
    (hA : ProperArgs ch r d) (hr : 1 ≤ r) (hroom : (d.inputFrames + d.outputFrames / 2 ^ 44) * r + 1 < (d.outputFrames : ℚ)) :
    ∃ m' d', srcSimple cfg m (some d) SRC_SINC_MEDIUM_QUALITY ch = .ok (0, m', some d') ∧ d'.inputFramesUsed = d.inputFrames ∧
      |(d'.outputFramesGen : ℚ) - d.inputFrames * r| ≤ 1 + (d'.outputFramesGen / 2 ^ 44 + 1 / 10 ^ 6) * r ∧
      ∀ j c n A ω θ η, (j : ℕ) < d'.outputFramesGen → c < ch → ToneLimits n A ω (13 / 5) → 0 ≤ η → loudness n A + η ≤ 2 ^ 62 → RecordedNear ch m d c (j / r) 48 (tones n A ω θ) η →
        48 ≤ (j : ℚ) / r → (j : ℚ) / r + 48 ≤ d.inputFrames →
        ∃ y : ℚ, (m' (d.dataOut + ((ch * j + c : ℕ) : ℤ))).val = some y ∧
          |(y : ℝ) - tones n A ω θ (j / r)| ≤ loudness n A * (1 / 30000 + 13 / 5 * (j / 2 ^ 44)) + 12 / 5 * η + 1 / 2 ^ 148 := by
  obtain ⟨t, hT⟩ := Option.isSome_iff_exists.1 hF
  have := (shipped_good hP hT).2 rfl
  subst this
  obtain ⟨m', d', a1, a2, a3, a4⟩ := simple_sinc cfg hL _ (Or.inr (Or.inl rfl)) _ hT h1 h2 m hA (by linarith) hroom
  refine ⟨m', d', a1, a2, a3, fun j c n A ω θ η hj hc hLim η0 hsum hs hE1 hE2 => ?_⟩
  obtain ⟨τ, b1, b2, b3, b4⟩ := a4 j c hj hc 47 _ _ η _ (by norm_num; exact hs) (tones_slope (θ := θ) hLim) (by norm_num) (by linarith) (by linarith)
  obtain ⟨y, y1, y2⟩ := tones_sample (κ' := 1 / 30000) (μ' := 12 / 5) mid_good (by norm_num) mid_reach mid_tones (by norm_num) (by norm_num)
    (D := allHistory MidQual.table) (by unfold allHistory; decide) (by decide +kernel) hr b1 hLim η0 hsum b2
  exact ⟨y, by rw [b3]; exact y1, drift_sum y2 b4⟩

/-- C68, medium sinc converter, ratio at least 1: tones up to 2.6 radians per frame (0.82 of half the sampling rate), `1 / 30000` of the loudness, 2.4 times `η`, 48 frames. -/
theorem C68_medium_up (cfg : Config) (hL : LibraryTables cfg) (hP : ShippedTables cfg) (hF : (cfg.table SRC_SINC_MEDIUM_QUALITY).isSome) (ch : ℕ) (h1 : 1 ≤ ch) (h2 : ch ≤ 128) (m : Mem) (d : SrcData) (r : ℚ)
    (hA : ProperArgs ch r d) (hr : 1 ≤ r) (hroom : (d.inputFrames + d.outputFrames / 2 ^ 44) * r + 1 < (d.outputFrames : ℚ)) :
    ∃ m' d', srcSimple cfg m (some d) SRC_SINC_MEDIUM_QUALITY ch = .ok (0, m', some d') ∧ d'.inputFramesUsed = d.inputFrames ∧
      |(d'.outputFramesGen : ℚ) - d.inputFrames * r| ≤ 1 + (d'.outputFramesGen / 2 ^ 44 + 1 / 10 ^ 6) * r ∧
      ∀ j c n A ω θ η, (j : ℕ) < d'.outputFramesGen → c < ch → ToneLimits n A ω (13 / 5) → 0 ≤ η → loudness n A + η ≤ 2 ^ 62 → RecordingOf ch m d c (tones n A ω θ) η →
        48 ≤ (j : ℚ) / r → (j : ℚ) / r + 48 ≤ d.inputFrames →
        ∃ y : ℚ, (m' (d.dataOut + ((ch * j + c : ℕ) : ℤ))).val = some y ∧
          |(y : ℝ) - tones n A ω θ (j / r)| ≤ loudness n A * (1 / 30000 + 13 / 5 * (j / 2 ^ 44)) + 12 / 5 * η + 1 / 2 ^ 148 := by
  obtain ⟨m', d', a1, a2, a3, a4⟩ := near_medium_up cfg hL hP hF ch h1 h2 m d r hA hr hroom
  exact ⟨m', d', a1, a2, a3, fun j c n A ω θ η hj hc hLim η0 hsum hs hE1 hE2 => a4 j c n A ω θ η hj hc hLim η0 hsum (recordedNear_of hs _ _) hE1 hE2⟩

/-- `C68_fastest_down` with only the samples around the frame known. -/
theorem near_fastest_down (cfg : Config) (hL : LibraryTables cfg) (hP : ShippedTables cfg) (hF : (cfg.table SRC_SINC_FASTEST).isSome) (ch : ℕ) (h1 : 1 ≤ ch) (h2 : ch ≤ 128) (m : Mem) (d : SrcData) (r : ℚ)
    (hA : ProperArgs ch r d) (hr : 1 / 180 ≤ r) (hr1 : r ≤ 1) (hroom : (d.inputFrames + d.outputFrames / 2 ^ 44) * r + 1 < (d.outputFrames : ℚ)) :
    ∃ m' d', srcSimple cfg m (some d) SRC_SINC_FASTEST ch = .ok (0, m', some d') ∧ d'.inputFramesUsed = d.inputFrames ∧
      |(d'.outputFramesGen : ℚ) - d.inputFrames * r| ≤ 1 + (d'.outputFramesGen / 2 ^ 44 + 1 / 10 ^ 6) * r ∧
      ∀ j c n A ω θ η, (j : ℕ) < d'.outputFramesGen → c < ch → ToneBands n A ω (1999 / 1000 * r) (1001 / 1000 * Real.pi * r) → 0 ≤ η → loudness n A + η ≤ 2 ^ 62 →
        RecordedNear ch m d c (j / r) (21 / r + 1) (tones n A ω θ) η → 21 / r + 1 ≤ (j : ℚ) / r → (j : ℚ) / r + 21 / r + 1 ≤ d.inputFrames →
        ∃ y : ℚ, (m' (d.dataOut + ((ch * j + c : ℕ) : ℤ))).val = some y ∧
          |(y : ℝ) - tonesUpTo (1999 / 1000 * r) n A ω θ (j / r)| ≤ loudness n A * (1 / 4000 + 1 / (1000000 * r) + 1999 / 1000 * r * (j / 2 ^ 44)) + 27 / 5 * η + 1 / 2 ^ 148 := by
  obtain ⟨t, hT⟩ := Option.isSome_iff_exists.1 hF
  have := (shipped_good hP hT).1 rfl
  subst this
  have r0 : (0 : ℝ) ≤ r := by exact_mod_cast (by linarith : 0 ≤ r)
  obtain ⟨m', d', a1, a2, a3, a4⟩ := simple_sinc cfg hL _ (Or.inr (Or.inr rfl)) _ hT h1 h2 m hA hr hroom
  refine ⟨m', d', a1, a2, a3, fun j c n A ω θ η hj hc hLim η0 hsum hs hE1 hE2 => ?_⟩
  obtain ⟨τ, b1, b2, b3, b4⟩ := a4 j c hj hc (21 / r) _ _ η _ hs (upTo_slope (θ := θ) hLim (by positivity)) (by have := hA.low; positivity) hE1 hE2
  obtain ⟨y, y1, y2⟩ := alias_sample (W' := 1 / 4000) (μ' := 27 / 5) fastest_good (by norm_num) fastest_reach fastest_alias (by norm_num) (by norm_num)
    (by unfold allHistory; decide) hA.low hr1 b1 hLim η0 hsum b2
  exact ⟨y, by rw [b3]; exact y1, drift_sum y2 b4⟩

/-- C68, fast sinc converter, ratio from 1/180 to 1: if no tone of the recording is between `1.999 r` and `1.001 π r` radians per frame (0.64 to 1 times half the new sampling rate), the output is a recording, at the new
rate, of the tones below; those above are removed, they do not come back at another frequency.  The error is `1 / 4000 + 1 / (1000000 r)` of the loudness of all tones, 5.4 times the error of the recording and the
rounding of the clock, except for the first and last `21 / r + 1` frames of the input. -/
theorem C68_fastest_down (cfg : Config) (hL : LibraryTables cfg) (hP : ShippedTables cfg) (hF : (cfg.table SRC_SINC_FASTEST).isSome) (ch : ℕ) (h1 : 1 ≤ ch) (h2 : ch ≤ 128) (m : Mem) (d : SrcData) (r : ℚ)
    (hA : ProperArgs ch r d) (hr : 1 / 180 ≤ r) (hr1 : r ≤ 1) (hroom : (d.inputFrames + d.outputFrames / 2 ^ 44) * r + 1 < (d.outputFrames : ℚ)) :
    ∃ m' d', srcSimple cfg m (some d) SRC_SINC_FASTEST ch = .ok (0, m', some d') ∧ d'.inputFramesUsed = d.inputFrames ∧
      |(d'.outputFramesGen : ℚ) - d.inputFrames * r| ≤ 1 + (d'.outputFramesGen / 2 ^ 44 + 1 / 10 ^ 6) * r ∧
      ∀ j c n A ω θ η, (j : ℕ) < d'.outputFramesGen → c < ch → ToneBands n A ω (1999 / 1000 * r) (1001 / 1000 * Real.pi * r) → 0 ≤ η → loudness n A + η ≤ 2 ^ 62 →
        RecordingOf ch m d c (tones n A ω θ) η → 21 / r + 1 ≤ (j : ℚ) / r → (j : ℚ) / r + 21 / r + 1 ≤ d.inputFrames →
        ∃ y : ℚ, (m' (d.dataOut + ((ch * j + c : ℕ) : ℤ))).val = some y ∧
          |(y : ℝ) - tonesUpTo (1999 / 1000 * r) n A ω θ (j / r)| ≤ loudness n A * (1 / 4000 + 1 / (1000000 * r) + 1999 / 1000 * r * (j / 2 ^ 44)) + 27 / 5 * η + 1 / 2 ^ 148 := by
  obtain ⟨m', d', a1, a2, a3, a4⟩ := near_fastest_down cfg hL hP hF ch h1 h2 m d r hA hr hr1 hroom
  exact ⟨m', d', a1, a2, a3, fun j c n A ω θ η hj hc hLim η0 hsum hs hE1 hE2 => a4 j c n A ω θ η hj hc hLim η0 hsum (recordedNear_of hs _ _) hE1 hE2⟩

/-- `C68_medium_down` with only the samples around the frame known. -/
theorem near_medium_down (cfg : Config) (hL : LibraryTables cfg) (hP : ShippedTables cfg) (hF : (cfg.table SRC_SINC_MEDIUM_QUALITY).isSome) (ch : ℕ) (h1 : 1 ≤ ch) (h2 : ch ≤ 128) (m : Mem) (d : SrcData) (r : ℚ)
    (hA : ProperArgs ch r d) (hr : 1 / 180 ≤ r) (hr1 : r ≤ 1) (hroom : (d.inputFrames + d.outputFrames / 2 ^ 44) * r + 1 < (d.outputFrames : ℚ)) :
    ∃ m' d', srcSimple cfg m (some d) SRC_SINC_MEDIUM_QUALITY ch = .ok (0, m', some d') ∧ d'.inputFramesUsed = d.inputFrames ∧
      |(d'.outputFramesGen : ℚ) - d.inputFrames * r| ≤ 1 + (d'.outputFramesGen / 2 ^ 44 + 1 / 10 ^ 6) * r ∧
      ∀ j c n A ω θ η, (j : ℕ) < d'.outputFramesGen → c < ch → ToneBands n A ω (2598 / 1000 * r) (1001 / 1000 * Real.pi * r) → 0 ≤ η → loudness n A + η ≤ 2 ^ 62 →
        RecordedNear ch m d c (j / r) (47 / r + 1) (tones n A ω θ) η → 47 / r + 1 ≤ (j : ℚ) / r → (j : ℚ) / r + 47 / r + 1 ≤ d.inputFrames →
        ∃ y : ℚ, (m' (d.dataOut + ((ch * j + c : ℕ) : ℤ))).val = some y ∧
          |(y : ℝ) - tonesUpTo (2598 / 1000 * r) n A ω θ (j / r)| ≤ loudness n A * (1 / 1700 + 1 / (1000000 * r) + 2598 / 1000 * r * (j / 2 ^ 44)) + 71 / 10 * η + 1 / 2 ^ 148 := by
  obtain ⟨t, hT⟩ := Option.isSome_iff_exists.1 hF
  have := (shipped_good hP hT).2 rfl
  subst this
  have r0 : (0 : ℝ) ≤ r := by exact_mod_cast (by linarith : 0 ≤ r)
  obtain ⟨m', d', a1, a2, a3, a4⟩ := simple_sinc cfg hL _ (Or.inr (Or.inl rfl)) _ hT h1 h2 m hA hr hroom
  refine ⟨m', d', a1, a2, a3, fun j c n A ω θ η hj hc hLim η0 hsum hs hE1 hE2 => ?_⟩
  obtain ⟨τ, b1, b2, b3, b4⟩ := a4 j c hj hc (47 / r) _ _ η _ hs (upTo_slope (θ := θ) hLim (by positivity)) (by have := hA.low; positivity) hE1 hE2
  obtain ⟨y, y1, y2⟩ := alias_sample (W' := 1 / 1700) (μ' := 71 / 10) mid_good (by norm_num) mid_reach mid_alias (by norm_num) (by norm_num)
    (by unfold allHistory; decide) hA.low hr1 b1 hLim η0 hsum b2
  exact ⟨y, by rw [b3]; exact y1, drift_sum y2 b4⟩

/-- C68, medium sinc converter, ratio from 1/180 to 1: no tone between `2.598 r` and `1.001 π r`, `1 / 1700 + 1 / (1000000 r)` of the loudness, 7.1 times `η`, `47 / r + 1` frames. -/
theorem C68_medium_down (cfg : Config) (hL : LibraryTables cfg) (hP : ShippedTables cfg) (hF : (cfg.table SRC_SINC_MEDIUM_QUALITY).isSome) (ch : ℕ) (h1 : 1 ≤ ch) (h2 : ch ≤ 128) (m : Mem) (d : SrcData) (r : ℚ)
    (hA : ProperArgs ch r d) (hr : 1 / 180 ≤ r) (hr1 : r ≤ 1) (hroom : (d.inputFrames + d.outputFrames / 2 ^ 44) * r + 1 < (d.outputFrames : ℚ)) :
    ∃ m' d', srcSimple cfg m (some d) SRC_SINC_MEDIUM_QUALITY ch = .ok (0, m', some d') ∧ d'.inputFramesUsed = d.inputFrames ∧
      |(d'.outputFramesGen : ℚ) - d.inputFrames * r| ≤ 1 + (d'.outputFramesGen / 2 ^ 44 + 1 / 10 ^ 6) * r ∧
      ∀ j c n A ω θ η, (j : ℕ) < d'.outputFramesGen → c < ch → ToneBands n A ω (2598 / 1000 * r) (1001 / 1000 * Real.pi * r) → 0 ≤ η → loudness n A + η ≤ 2 ^ 62 →
        RecordingOf ch m d c (tones n A ω θ) η → 47 / r + 1 ≤ (j : ℚ) / r → (j : ℚ) / r + 47 / r + 1 ≤ d.inputFrames →
        ∃ y : ℚ, (m' (d.dataOut + ((ch * j + c : ℕ) : ℤ))).val = some y ∧
          |(y : ℝ) - tonesUpTo (2598 / 1000 * r) n A ω θ (j / r)| ≤ loudness n A * (1 / 1700 + 1 / (1000000 * r) + 2598 / 1000 * r * (j / 2 ^ 44)) + 71 / 10 * η + 1 / 2 ^ 148 := by
  obtain ⟨m', d', a1, a2, a3, a4⟩ := near_medium_down cfg hL hP hF ch h1 h2 m d r hA hr hr1 hroom
  exact ⟨m', d', a1, a2, a3, fun j c n A ω θ η hj hc hLim η0 hsum hs hE1 hE2 => a4 j c n A ω θ η hj hc hLim η0 hsum (recordedNear_of hs _ _) hE1 hE2⟩

/-! ### zero order hold and linear -/

theorem behind_drift {τ v e : ℚ} (h : |τ - v| ≤ e) : |behind τ - behind v| ≤ e := by
  unfold behind
  refine (abs_max_sub_max_le_max _ _ _ _).trans ?_
  rw [sub_self, abs_zero, sub_sub_sub_cancel_right]
  exact max_le ((abs_nonneg _).trans h) h

theorem slope_near {g : ℝ → ℝ} {S : ℝ} (h : SlopeAtMost g S) {a b e : ℚ} (hab : |a - b| ≤ e) : |g a - g b| ≤ S * e := by
  have hS : 0 ≤ S := by
    have := (abs_nonneg _).trans (h 1 0)
    simpa using this
  exact (h _ _).trans (mul_le_mul_of_nonneg_left (by have := Alias.abs_cast hab; push_cast at this; exact this) hS)

/-- C68, zero order hold: the output follows the signal of the recording, one input frame behind, up to its slope `S` per frame, the error of the recording and the rounding of the clock. -/
theorem C68_zoh (cfg : Config) (hL : LibraryTables cfg) (ch : ℕ) (h1 : 1 ≤ ch) (h2 : ch ≤ 8355967) (m : Mem) (d : SrcData) (r : ℚ) (hA : ProperArgs ch r d)
    (hroom : (d.inputFrames + 1 + d.outputFrames / 2 ^ 44) * r + 1 < (d.outputFrames : ℚ)) :
    ∃ m' d', srcSimple cfg m (some d) SRC_ZERO_ORDER_HOLD ch = .ok (0, m', some d') ∧ d'.inputFramesUsed = d.inputFrames ∧
      |(d'.outputFramesGen : ℚ) - d.inputFrames * r| ≤ 1 + r + d'.outputFramesGen * r / 2 ^ 44 ∧
      ∀ j c g S η, (j : ℕ) < d'.outputFramesGen → c < ch → SlopeAtMost g S → RecordingOf ch m d c g η → (j : ℚ) / r + 2 ≤ d.inputFrames →
        ∃ y : ℚ, (m' (d.dataOut + ((ch * j + c : ℕ) : ℤ))).val = some y ∧ |(y : ℝ) - g (behind (j / r))| ≤ S + η + S * (j / 2 ^ 44) := by
  obtain ⟨m', d', a1, a2, a3, a4, -⟩ := C60_interp cfg hL _ (Or.inl rfl) ch h1 h2 m d r hA (fun h => absurd h (by decide))
  obtain ⟨b1, b2, b3⟩ := a3 (a4 hroom)
  refine ⟨m', d', a1, b1 rfl, b3, fun j c g S η hj hc hS hs hE => ?_⟩
  obtain ⟨τ, c1, c0, c2⟩ := a2.frames j c hj hc
  have hd := drift_small h1 hA (j := j) (by linarith)
  have c3 := _root_.abs_le.1 c1
  have hb : behind τ + 2 ≤ d.inputFrames := by
    have r0 : 0 ≤ (j : ℚ) / r := div_nonneg (Nat.cast_nonneg _) (by linarith [hA.low])
    unfold behind
    rcases max_choice 0 (τ - 1) with h | h <;> rw [h] <;> linarith
  obtain ⟨y, y1, y2⟩ := zoh_sample (c0 ▸ time_nonneg _ j) hS (recording_sampled hs hb)
  refine ⟨y, by rw [c2]; exact y1, (abs_sub_le _ _ _).trans (add_le_add y2 ?_)⟩
  have := slope_near hS (behind_drift c1)
  push_cast at this
  exact this

/-- C68, linear, at least three input frames: the output follows the signal of the recording, one input frame behind, up to an eighth of its bend `M`, the error of the recording, the rounding of the samples, of
magnitude at most `u`, and of the clock. -/
theorem C68_linear (cfg : Config) (hL : LibraryTables cfg) (ch : ℕ) (h1 : 1 ≤ ch) (h2 : ch ≤ 8355967) (m : Mem) (d : SrcData) (r : ℚ) (hA : ProperArgs ch r d) (h3 : 3 ≤ d.inputFrames)
    (hroom : (d.inputFrames + 1 + d.outputFrames / 2 ^ 44) * r + 1 < (d.outputFrames : ℚ)) :
    ∃ m' d', srcSimple cfg m (some d) SRC_LINEAR ch = .ok (0, m', some d') ∧ d.inputFrames - 1 ≤ d'.inputFramesUsed ∧
      |(d'.outputFramesGen : ℚ) - d.inputFrames * r| ≤ 1 + r + d'.outputFramesGen * r / 2 ^ 44 ∧
      ∀ j c g M S η u, (j : ℕ) < d'.outputFramesGen → c < ch → BendAtMost g M → SlopeAtMost g S → RecordingOf ch m d c g η →
        (∀ k : ℕ, (k : ℤ) < d.inputFrames → Within u (m (d.dataIn + ((ch * k + c : ℕ) : ℤ)))) → (j : ℚ) / r + 2 ≤ d.inputFrames →
        ∃ y : ℚ, (m' (d.dataOut + ((ch * j + c : ℕ) : ℤ))).val = some y ∧ |(y : ℝ) - g (behind (j / r))| ≤ M / 8 + η + u / 2 ^ 23 + 1 / 2 ^ 149 + S * (j / 2 ^ 44) := by
  obtain ⟨m', d', a1, a2, a3, a4, -⟩ := C60_interp cfg hL _ (Or.inr rfl) ch h1 h2 m d r hA (fun _ => h3)
  obtain ⟨b1, b2, b3⟩ := a3 (a4 hroom)
  refine ⟨m', d', a1, b2, b3, fun j c g M S η u hj hc hM hS hs hu hE => ?_⟩
  obtain ⟨τ, c1, c0, c2⟩ := a2.frames j c hj hc
  have hd := drift_small h1 hA (j := j) (by linarith)
  have c3 := _root_.abs_le.1 c1
  have hb : behind τ + 2 ≤ d.inputFrames := by
    have r0 : 0 ≤ (j : ℚ) / r := div_nonneg (Nat.cast_nonneg _) (by linarith [hA.low])
    unfold behind
    rcases max_choice 0 (τ - 1) with h | h <;> rw [h] <;> linarith
  have hu' : Around (inputOf ch m d) c (behind τ) 2 (Within u) := by
    intro k hk
    have : (k : ℚ) < d.inputFrames := by have := (_root_.abs_lt.1 hk).2; linarith
    have hk' : (k : ℤ) < d.inputFrames := by exact_mod_cast this
    unfold inputOf
    rw [if_pos hk']
    exact hu k hk'
  have hsm := recording_sampled hs hb
  rw [c0] at hsm hu'
  obtain ⟨y, y1, y2⟩ := linear_sample (ρ := fun _ => r) (n := j + 1) (fun _ _ => ⟨hA.low, hA.high⟩) (Nat.lt_succ_self j) hM hsm hu'
  rw [← c0] at y1 y2
  refine ⟨y, by rw [c2]; exact y1, (abs_sub_le _ _ _).trans (add_le_add y2 ?_)⟩
  have := slope_near hS (behind_drift c1)
  push_cast at this
  exact this

/-- Hundred stereo frames of the tone of `quarter` are a recording of it. -/
theorem quarter_recording (c : ℕ) (hc : c < 2) : RecordingOf 2 quarterMem (simpleArgs one64 100 102) c (tones 1 (fun _ => 1) (fun _ => Real.pi / 2) (fun _ => 0)) 0 := by
  intro k hk
  have hk : k < 100 := by have : (k : ℤ) < 100 := hk; omega
  obtain ⟨q, q1, q2⟩ := quarter_val hk 0
  refine ⟨q, ?_, by simp [tones, q2]⟩
  have e : (((simpleArgs one64 100 102).dataIn + ((2 * k + c : ℕ) : ℤ) - 1) / 2).toNat = k := by
    simp only [simpleArgs]
    omega
  unfold quarterMem
  rw [e]
  exact q1

/-- The hypotheses of `C68_fastest_up` and `C68_fastest_down` are met by this recording: by C68, output frame 50 of the conversion is `cos (25 π) = -1`, up to 1/9000. -/
example : ∃ m' d' y, srcSimple libCfg quarterMem (some (simpleArgs one64 100 102)) SRC_SINC_FASTEST (2 : ℕ) = .ok (0, m', some d') ∧ 98 < d'.outputFramesGen ∧
    (m' (1000 + 101)).val = some y ∧ |(y : ℝ) + 1| ≤ 1 / 9000 := by
  obtain ⟨m', d', h1, h2, h3, h4⟩ := C68_fastest_up libCfg libCfg_tables libCfg_shipped rfl 2 (by norm_num) (by norm_num) quarterMem _ 1 simpleArgs_proper le_rfl (by norm_num [simpleArgs])
  have h10 : (98 : ℚ) < d'.outputFramesGen := by
    have h8 := (_root_.abs_le.1 h3).1
    simp only [simpleArgs] at h8
    push_cast at h8
    norm_num at h8 ⊢
    linarith
  have h11 : 98 < d'.outputFramesGen := by exact_mod_cast h10
  have hpi := Real.pi_le_four
  obtain ⟨y, y1, y2⟩ := h4 50 1 1 (fun _ => 1) (fun _ => Real.pi / 2) (fun _ => 0) 0 (by push_cast; omega) (by norm_num) (fun k _ => ⟨by norm_num, by positivity, by linarith⟩) le_rfl
    (by simp [loudness]; norm_num) (quarter_recording 1 (by norm_num)) (by norm_num) (by norm_num [simpleArgs])
  refine ⟨m', d', y, h1, h11, y1, ?_⟩
  have e : tones 1 (fun _ => 1) (fun _ => Real.pi / 2) (fun _ => 0) (((50 : ℕ) : ℝ) / ((1 : ℚ) : ℝ)) = -1 := by
    simp only [tones, Finset.sum_range_one, one_mul, add_zero]
    rw [show Real.pi / 2 * (((50 : ℕ) : ℝ) / ((1 : ℚ) : ℝ)) = Real.pi + ((12 : ℕ) : ℝ) * (2 * Real.pi) by push_cast; ring, Real.cos_add_nat_mul_two_pi, Real.cos_pi]
  rw [e, sub_neg_eq_add] at y2
  refine y2.trans ?_
  simp only [loudness, Finset.sum_range_one]
  norm_num

/-- The hypotheses of `C68_linear` and `C68_zoh` are met by this recording: frame 51 of the conversion, one frame behind, is -1 up to 0.4. -/
example : ∃ m' d' y, srcSimple libCfg quarterMem (some (simpleArgs one64 100 103)) SRC_LINEAR (2 : ℕ) = .ok (0, m', some d') ∧ 97 < d'.outputFramesGen ∧
    (m' (1000 + 103)).val = some y ∧ |(y : ℝ) + 1| ≤ 1 / 2 := by
  obtain ⟨m', d', h1, -, h3, h4⟩ := C68_linear libCfg libCfg_tables 2 (by norm_num) (by norm_num) quarterMem (simpleArgs one64 100 103) 1
    ⟨by decide, by decide, one64_val, by norm_num, by norm_num, by decide, by decide, Or.inl (by decide), by decide, by decide⟩ (by decide) (by norm_num [simpleArgs])
  have h10 : (97 : ℚ) < d'.outputFramesGen := by
    have h8 := (_root_.abs_le.1 h3).1
    simp only [simpleArgs] at h8
    push_cast at h8
    norm_num at h8 ⊢
    linarith
  have h11 : 97 < d'.outputFramesGen := by exact_mod_cast h10
  have hpi := Real.pi_lt_d2
  have hpi0 := Real.pi_pos
  have hlim : ToneLimits 1 (fun _ => 1) (fun _ => Real.pi / 2) (63 / 40) := fun k _ => ⟨by norm_num, by positivity, by linarith⟩
  obtain ⟨y, y1, y2⟩ := h4 51 1 _ _ _ 0 1 (by push_cast; omega) (by norm_num) (tones_bend (θ := fun _ => 0) hlim) (tones_slope hlim) (quarter_recording 1 (by norm_num)) (fun k hk => by
      obtain ⟨q, q1, q2⟩ := quarter_recording 1 (by norm_num) k hk
      refine ⟨q, q1, ?_⟩
      have q3 : (q : ℝ) = Real.cos (Real.pi / 2 * k + 0) := by simpa [tones, sub_eq_zero] using q2
      have := Real.abs_cos_le_one (Real.pi / 2 * k + 0)
      rw [← q3] at this
      exact_mod_cast this) (by norm_num [simpleArgs])
  refine ⟨m', d', y, h1, h11, y1, ?_⟩
  have e : tones 1 (fun _ => 1) (fun _ => Real.pi / 2) (fun _ => 0) ((behind (((51 : ℕ) : ℚ) / 1) : ℚ) : ℝ) = -1 := by
    simp only [tones, Finset.sum_range_one, one_mul, add_zero]
    rw [show behind (((51 : ℕ) : ℚ) / 1) = 50 by norm_num [behind]]
    rw [show Real.pi / 2 * ((50 : ℚ) : ℝ) = Real.pi + ((12 : ℕ) : ℝ) * (2 * Real.pi) by push_cast; ring, Real.cos_add_nat_mul_two_pi, Real.cos_pi]
  rw [e, sub_neg_eq_add] at y2
  refine y2.trans ?_
  simp only [loudness, Finset.sum_range_one]
  norm_num

/-- The hypotheses of C67 are met by a call with the first three frames of a tone. -/
example (K : Kind) : ∃ os, Streamed ⟨none, none, none⟩ K.type 2 quarter [.process quarterMem (some smallCall)] os ∧ 0 < (outputs 2 os).length ∧
    (∀ op ∈ [Op.process quarterMem (some smallCall)], OrdinaryOp 1 (2 : ℕ) op) ∧ BendAtMost (tones 1 (fun _ => 1) (fun _ => Real.pi / 2) (fun _ => 0)) (5 / 2) ∧
    ∀ c, SampledFrom quarter c (behind 0) 2 (tones 1 (fun _ => 1) (fun _ => Real.pi / 2) (fun _ => 0)) 0 := by
  obtain ⟨os, h1, h2⟩ := small_stream K quarter quarterMem (fun k c hk hc => by
    have e : ((smallCall.dataIn + (2 * (k : ℤ) + c) - 1) / 2).toNat = k := by
      simp only [smallCall]
      omega
    simp [quarterMem, quarter, e])
  have hpi := Real.pi_lt_d2
  have hpi0 := Real.pi_pos
  have hlim : ToneLimits 1 (fun _ => 1) (fun _ => Real.pi / 2) (63 / 40) := fun k _ => ⟨by norm_num, by positivity, by linarith⟩
  refine ⟨os, h1, h2, fun op hop => ?_, ?_, fun c k hk => ?_⟩
  · rw [List.mem_singleton.1 hop]
    exact .process _ _ (by rintro _ ⟨⟩; exact (smallCall_ok K).1.one)
  · obtain ⟨a, b⟩ := tones_bend (θ := fun _ => 0) hlim
    refine ⟨a, fun s t => (b s t).trans (mul_le_mul_of_nonneg_right ?_ (abs_nonneg _))⟩
    simp only [loudness, Finset.sum_range_one]
    norm_num
  · have : (k : ℚ) < 2 := by rw [show behind 0 = 0 by norm_num [behind], sub_zero] at hk; exact (_root_.abs_lt.1 hk).2
    have : k < 2 := by exact_mod_cast this
    obtain ⟨q, q1, q2⟩ := quarter_val (show k < 100 by omega) c
    exact ⟨q, q1, by simp [tones, q2]⟩

end Verif
