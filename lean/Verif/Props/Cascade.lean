import Verif.Props.Pcm
import Verif.Props.Response

/-! Two conversions one after the other (C73). -/

namespace Verif
open Spec

/-- The signal at another rate. -/
theorem tones_rate (n : ℕ) (A ω θ : ℕ → ℝ) (r t : ℝ) : tones n A (fun k => ω k / r) θ t = tones n A ω θ (t / r) :=
  Finset.sum_congr rfl fun k _ => by dsimp only; rw [div_mul_eq_mul_div, mul_div_assoc]

/-- All tones are kept. -/
theorem upTo_all {n : ℕ} {A ω θ : ℕ → ℝ} {lo : ℝ} (h : ∀ k < n, ω k ≤ lo) (t : ℝ) : tonesUpTo lo n A ω θ t = tones n A ω θ t :=
  Finset.sum_congr rfl fun k hk => if_pos (h k (Finset.mem_range.1 hk))

/-- The number of frames of a conversion, without its room. -/
theorem gen_small {ch : ℕ} {d d' : SrcData} {r : ℚ} (h1 : 1 ≤ ch) (hA : ProperArgs ch r d)
    (h : |(d'.outputFramesGen : ℚ) - d.inputFrames * r| ≤ 1 + (d'.outputFramesGen / 2 ^ 44 + 1 / 10 ^ 6) * r) :
    (d'.outputFramesGen : ℚ) ≤ 2 ^ 40 ∧ d.inputFrames * r - 1 - r / 10 ≤ (d'.outputFramesGen : ℚ) := by
  have hN : d.inputFrames < 2 ^ 31 := by
    have := hA.inSize
    have hc : (1 : ℤ) ≤ ch := by exact_mod_cast h1
    nlinarith [hA.input]
  have hN' : (d.inputFrames : ℚ) ≤ 2 ^ 31 := by exact_mod_cast hN.le
  have hN0 : (0 : ℚ) ≤ d.inputFrames := by have := hA.input; exact_mod_cast (by omega : (0 : ℤ) ≤ d.inputFrames)
  have r0 : 0 < r := lt_of_lt_of_le (by norm_num) hA.low
  have r1 := hA.high
  have h' := _root_.abs_le.1 h
  have hb : (d'.outputFramesGen : ℚ) ≤ 2 ^ 40 := by
    have k1 : (d.inputFrames : ℚ) * r ≤ 2 ^ 31 * 256 := mul_le_mul hN' r1 r0.le (by norm_num)
    by_contra hc
    push_neg at hc
    have k2 : (d'.outputFramesGen / 2 ^ 44 + 1 / 10 ^ 6 : ℚ) * r ≤ (d'.outputFramesGen / 2 ^ 44 + 1 / 10 ^ 6) * 256 := mul_le_mul_of_nonneg_left r1 (by linarith)
    linarith [h'.2]
  refine ⟨hb, ?_⟩
  have k3 : (d'.outputFramesGen / 2 ^ 44 + 1 / 10 ^ 6 : ℚ) * r ≤ 1 / 10 * r := mul_le_mul_of_nonneg_right (by linarith) r0.le
  linarith [h'.1]

/-- C73, fast sinc converter: a recording of tones is converted by `src_simple` at a ratio `r1` of at least 1, and all frames this gives are converted by `src_simple` at a ratio `r2` from 1/180 to 1.  If no tone is above 2
radians per frame nor above `1.999 r1 r2` (0.64 of half the last sampling rate), the result is a recording of the same tones at the ratio `r1 r2`: frame `j` is the signal at time `j / (r1 r2)`; with `r1 r2 = 1` this is the
recording itself.  The error is `8 / 10000 + 1 / (1000000 r2)` of the loudness, 11 times the error of the recording and the rounding of the clocks, except near the ends of the recording. -/
theorem C73_fastest (cfg : Config) (hL : LibraryTables cfg) (hP : ShippedTables cfg) (hF : (cfg.table SRC_SINC_FASTEST).isSome) (ch : ℕ) (h1 : 1 ≤ ch) (h2 : ch ≤ 128) (m : Mem) (d1 : SrcData)
    (r1 : ℚ) (hA1 : ProperArgs ch r1 d1) (hr1 : 1 ≤ r1) (hroom1 : (d1.inputFrames + d1.outputFrames / 2 ^ 44) * r1 + 1 < (d1.outputFrames : ℚ)) :
    ∃ m1 d1', srcSimple cfg m (some d1) SRC_SINC_FASTEST ch = .ok (0, m1, some d1') ∧ |(d1'.outputFramesGen : ℚ) - d1.inputFrames * r1| ≤ 1 + (d1'.outputFramesGen / 2 ^ 44 + 1 / 10 ^ 6) * r1 ∧
      ∀ (d2 : SrcData) (r2 : ℚ), ProperArgs ch r2 d2 → 1 / 180 ≤ r2 → r2 ≤ 1 → (d2.inputFrames + d2.outputFrames / 2 ^ 44) * r2 + 1 < (d2.outputFrames : ℚ) →
        d2.dataIn = d1.dataOut → d2.inputFrames = d1'.outputFramesGen →
        ∃ m2 d2', srcSimple cfg m1 (some d2) SRC_SINC_FASTEST ch = .ok (0, m2, some d2') ∧
          |(d2'.outputFramesGen : ℚ) - d1'.outputFramesGen * r2| ≤ 1 + (d2'.outputFramesGen / 2 ^ 44 + 1 / 10 ^ 6) * r2 ∧
          ∀ j c n A ω θ η, (j : ℕ) < d2'.outputFramesGen → c < ch → ToneLimits n A ω 2 → (∀ k < n, ω k ≤ 1999 / 1000 * (r1 * r2)) → 0 ≤ η → loudness n A + η ≤ 2 ^ 60 →
            RecordingOf ch m d1 c (tones n A ω θ) η → 23 + 21 / (r1 * r2) ≤ (j : ℚ) / (r1 * r2) → (j : ℚ) / (r1 * r2) + 23 + 21 / (r1 * r2) ≤ d1.inputFrames →
            ∃ y : ℚ, (m2 (d2.dataOut + ((ch * j + c : ℕ) : ℤ))).val = some y ∧ |(y : ℝ) - tones n A ω θ (j / (r1 * r2))| ≤
              loudness n A * (8 / 10000 + 1 / (1000000 * r2) + 11 * ((d1'.outputFramesGen + j : ℝ) / 2 ^ 44)) + 11 * η + 1 / 2 ^ 140 := by
  obtain ⟨m1, d1', a1, a2, a3, a4⟩ := C68_fastest_up cfg hL hP hF ch h1 h2 m d1 r1 hA1 hr1 hroom1
  refine ⟨m1, d1', a1, a3, fun d2 r2 hA2 hr2 hr2' hroom2 hD hN => ?_⟩
  obtain ⟨m2, d2', b1, b2, b3, b4⟩ := near_fastest_down cfg hL hP hF ch h1 h2 m1 d2 r2 hA2 hr2 hr2' hroom2
  rw [hN] at b3
  refine ⟨m2, d2', b1, b3, fun j c n A ω θ η hj hc hLim hlow η0 hsum hs hE1 hE2 => ?_⟩
  have p1 : 0 < r1 := by linarith
  have p2 : 0 < r2 := by linarith
  have q1 : (1 : ℝ) ≤ r1 := by exact_mod_cast hr1
  have q2 : (0 : ℝ) < r2 := by exact_mod_cast p2
  have q2' : (r2 : ℝ) ≤ 1 := by exact_mod_cast hr2'
  have l0 := loudness_nonneg hLim
  obtain ⟨g1, g2⟩ := gen_small h1 hA1 a3
  -- the margins at the rate between
  have e1 : (j : ℚ) / (r1 * r2) * r1 = j / r2 := by field_simp
  have e2 : 21 / (r1 * r2) * r1 = 21 / r2 := by field_simp
  have m1' : 23 * r1 + 21 / r2 ≤ j / r2 := by
    have := mul_le_mul_of_nonneg_right hE1 p1.le
    rw [add_mul, e1, e2] at this
    exact this
  have m2' : (j : ℚ) / r2 + 23 * r1 + 21 / r2 ≤ d1.inputFrames * r1 := by
    have := mul_le_mul_of_nonneg_right hE2 p1.le
    rw [add_mul, add_mul, e1, e2] at this
    exact this
  set G : ℝ := (d1'.outputFramesGen : ℝ) / 2 ^ 44 with hG
  have hG1 : G ≤ 1 / 16 := by
    have : (d1'.outputFramesGen : ℝ) ≤ 2 ^ 40 := by exact_mod_cast g1
    rw [hG, div_le_iff₀ (by positivity)]
    linarith
  set η1 : ℝ := loudness n A * (1 / 10000 + 2 * G) + 2 * η + 1 / 2 ^ 148 with hη1
  have hj2 : 0 < d2.inputFrames := by have := hA2.input; omega
  have hG0 : 0 ≤ G := by
    have : (0 : ℝ) ≤ d1'.outputFramesGen := by rw [← hN]; exact_mod_cast hj2.le
    positivity
  have hrec : RecordedNear ch m1 d2 c (j / r2) (21 / r2 + 1) (tones n A (fun k => ω k / r1) θ) η1 := by
    intro k hk hkj
    rw [hN] at hk
    have hkj := _root_.abs_lt.1 hkj
    have c1 : 22 ≤ (k : ℚ) / r1 := by rw [le_div_iff₀ p1]; linarith
    have c2 : (k : ℚ) / r1 + 22 ≤ d1.inputFrames := by
      rw [← le_sub_iff_add_le, div_le_iff₀ p1, sub_mul]; linarith
    obtain ⟨y, y1, y2⟩ := a4 k c n A ω θ η hk hc hLim η0 (hsum.trans (by norm_num)) hs c1 c2
    refine ⟨y, by rw [hD]; exact y1, ?_⟩
    rw [tones_rate]
    refine y2.trans ?_
    have hkG : (k : ℝ) / 2 ^ 44 ≤ G := by
      rw [hG]
      have : (k : ℝ) ≤ d1'.outputFramesGen := by exact_mod_cast hk.le
      gcongr
    rw [hη1]
    gcongr
  have hB : ToneBands n A (fun k => ω k / r1) (1999 / 1000 * r2) (1001 / 1000 * Real.pi * r2) := by
    intro k hk
    obtain ⟨c1, c2, c3⟩ := hLim k hk
    have c4 : ω k / r1 ≤ ω k := div_le_self c2 q1
    refine ⟨c1, div_nonneg c2 (by linarith), by linarith [Real.pi_gt_three], Or.inl ?_⟩
    show ω k / r1 ≤ _
    rw [div_le_iff₀ (by linarith)]
    have := hlow k hk
    linarith
  have hη0 : 0 ≤ η1 := by positivity
  have hs2 : loudness n A + η1 ≤ 2 ^ 62 := by
    have : loudness n A * (1 / 10000 + 2 * G) ≤ loudness n A * (1 / 4) := mul_le_mul_of_nonneg_left (by linarith) l0
    rw [hη1]
    linarith
  obtain ⟨y, y1, y2⟩ := b4 j c n A (fun k => ω k / r1) θ η1 hj hc hB hη0 hs2 hrec (by linarith) (by rw [hN]; linarith)
  refine ⟨y, y1, ?_⟩
  rw [upTo_all (fun k hk => by
    show ω k / r1 ≤ _
    rw [div_le_iff₀ (by linarith)]
    have := hlow k hk
    linarith), tones_rate, div_div, mul_comm (r2 : ℝ) r1] at y2
  refine y2.trans ?_
  have j0 : (0 : ℝ) ≤ j := Nat.cast_nonneg _
  have k1 : loudness n A * (1999 / 1000 * r2 * (j / 2 ^ 44)) ≤ loudness n A * (11 * (j / 2 ^ 44)) := by
    refine mul_le_mul_of_nonneg_left ?_ l0
    refine mul_le_mul_of_nonneg_right ?_ (by positivity)
    linarith
  have k2 := mul_nonneg l0 hG0
  rw [hη1, show (d1'.outputFramesGen + j : ℝ) / 2 ^ 44 = G + j / 2 ^ 44 by rw [hG]; ring]
  nlinarith

/-- C73, medium sinc converter: tones up to 2.6 radians per frame and `2.598 r1 r2`, `9 / 10000 + 1 / (1000000 r2)` of the loudness, 18 times `η`. -/
theorem C73_medium (cfg : Config) (hL : LibraryTables cfg) (hP : ShippedTables cfg) (hF : (cfg.table SRC_SINC_MEDIUM_QUALITY).isSome) (ch : ℕ) (h1 : 1 ≤ ch) (h2 : ch ≤ 128) (m : Mem) (d1 : SrcData)
    (r1 : ℚ) (hA1 : ProperArgs ch r1 d1) (hr1 : 1 ≤ r1) (hroom1 : (d1.inputFrames + d1.outputFrames / 2 ^ 44) * r1 + 1 < (d1.outputFrames : ℚ)) :
    ∃ m1 d1', srcSimple cfg m (some d1) SRC_SINC_MEDIUM_QUALITY ch = .ok (0, m1, some d1') ∧ |(d1'.outputFramesGen : ℚ) - d1.inputFrames * r1| ≤ 1 + (d1'.outputFramesGen / 2 ^ 44 + 1 / 10 ^ 6) * r1 ∧
      ∀ (d2 : SrcData) (r2 : ℚ), ProperArgs ch r2 d2 → 1 / 180 ≤ r2 → r2 ≤ 1 → (d2.inputFrames + d2.outputFrames / 2 ^ 44) * r2 + 1 < (d2.outputFrames : ℚ) →
        d2.dataIn = d1.dataOut → d2.inputFrames = d1'.outputFramesGen →
        ∃ m2 d2', srcSimple cfg m1 (some d2) SRC_SINC_MEDIUM_QUALITY ch = .ok (0, m2, some d2') ∧
          |(d2'.outputFramesGen : ℚ) - d1'.outputFramesGen * r2| ≤ 1 + (d2'.outputFramesGen / 2 ^ 44 + 1 / 10 ^ 6) * r2 ∧
          ∀ j c n A ω θ η, (j : ℕ) < d2'.outputFramesGen → c < ch → ToneLimits n A ω (13 / 5) → (∀ k < n, ω k ≤ 2598 / 1000 * (r1 * r2)) → 0 ≤ η → loudness n A + η ≤ 2 ^ 60 →
            RecordingOf ch m d1 c (tones n A ω θ) η → 49 + 47 / (r1 * r2) ≤ (j : ℚ) / (r1 * r2) → (j : ℚ) / (r1 * r2) + 49 + 47 / (r1 * r2) ≤ d1.inputFrames →
            ∃ y : ℚ, (m2 (d2.dataOut + ((ch * j + c : ℕ) : ℤ))).val = some y ∧ |(y : ℝ) - tones n A ω θ (j / (r1 * r2))| ≤
              loudness n A * (9 / 10000 + 1 / (1000000 * r2) + 19 * ((d1'.outputFramesGen + j : ℝ) / 2 ^ 44)) + 18 * η + 1 / 2 ^ 140 := by
  obtain ⟨m1, d1', a1, a2, a3, a4⟩ := C68_medium_up cfg hL hP hF ch h1 h2 m d1 r1 hA1 hr1 hroom1
  refine ⟨m1, d1', a1, a3, fun d2 r2 hA2 hr2 hr2' hroom2 hD hN => ?_⟩
  obtain ⟨m2, d2', b1, b2, b3, b4⟩ := near_medium_down cfg hL hP hF ch h1 h2 m1 d2 r2 hA2 hr2 hr2' hroom2
  rw [hN] at b3
  refine ⟨m2, d2', b1, b3, fun j c n A ω θ η hj hc hLim hlow η0 hsum hs hE1 hE2 => ?_⟩
  have p1 : 0 < r1 := by linarith
  have p2 : 0 < r2 := by linarith
  have q1 : (1 : ℝ) ≤ r1 := by exact_mod_cast hr1
  have q2 : (0 : ℝ) < r2 := by exact_mod_cast p2
  have q2' : (r2 : ℝ) ≤ 1 := by exact_mod_cast hr2'
  have l0 := loudness_nonneg hLim
  obtain ⟨g1, g2⟩ := gen_small h1 hA1 a3
  -- the margins at the rate between
  have e1 : (j : ℚ) / (r1 * r2) * r1 = j / r2 := by field_simp
  have e2 : 47 / (r1 * r2) * r1 = 47 / r2 := by field_simp
  have m1' : 49 * r1 + 47 / r2 ≤ j / r2 := by
    have := mul_le_mul_of_nonneg_right hE1 p1.le
    rw [add_mul, e1, e2] at this
    exact this
  have m2' : (j : ℚ) / r2 + 49 * r1 + 47 / r2 ≤ d1.inputFrames * r1 := by
    have := mul_le_mul_of_nonneg_right hE2 p1.le
    rw [add_mul, add_mul, e1, e2] at this
    exact this
  set G : ℝ := (d1'.outputFramesGen : ℝ) / 2 ^ 44 with hG
  have hG1 : G ≤ 1 / 16 := by
    have : (d1'.outputFramesGen : ℝ) ≤ 2 ^ 40 := by exact_mod_cast g1
    rw [hG, div_le_iff₀ (by positivity)]
    linarith
  set η1 : ℝ := loudness n A * (1 / 30000 + (13 / 5) * G) + 12 / 5 * η + 1 / 2 ^ 148 with hη1
  have hj2 : 0 < d2.inputFrames := by have := hA2.input; omega
  have hG0 : 0 ≤ G := by
    have : (0 : ℝ) ≤ d1'.outputFramesGen := by rw [← hN]; exact_mod_cast hj2.le
    positivity
  have hrec : RecordedNear ch m1 d2 c (j / r2) (47 / r2 + 1) (tones n A (fun k => ω k / r1) θ) η1 := by
    intro k hk hkj
    rw [hN] at hk
    have hkj := _root_.abs_lt.1 hkj
    have c1 : 48 ≤ (k : ℚ) / r1 := by rw [le_div_iff₀ p1]; linarith
    have c2 : (k : ℚ) / r1 + 48 ≤ d1.inputFrames := by
      rw [← le_sub_iff_add_le, div_le_iff₀ p1, sub_mul]; linarith
    obtain ⟨y, y1, y2⟩ := a4 k c n A ω θ η hk hc hLim η0 (hsum.trans (by norm_num)) hs c1 c2
    refine ⟨y, by rw [hD]; exact y1, ?_⟩
    rw [tones_rate]
    refine y2.trans ?_
    have hkG : (k : ℝ) / 2 ^ 44 ≤ G := by
      rw [hG]
      have : (k : ℝ) ≤ d1'.outputFramesGen := by exact_mod_cast hk.le
      gcongr
    rw [hη1]
    gcongr
  have hB : ToneBands n A (fun k => ω k / r1) (2598 / 1000 * r2) (1001 / 1000 * Real.pi * r2) := by
    intro k hk
    obtain ⟨c1, c2, c3⟩ := hLim k hk
    have c4 : ω k / r1 ≤ ω k := div_le_self c2 q1
    refine ⟨c1, div_nonneg c2 (by linarith), by linarith [Real.pi_gt_three], Or.inl ?_⟩
    show ω k / r1 ≤ _
    rw [div_le_iff₀ (by linarith)]
    have := hlow k hk
    linarith
  have hη0 : 0 ≤ η1 := by positivity
  have hs2 : loudness n A + η1 ≤ 2 ^ 62 := by
    have : loudness n A * (1 / 30000 + (13 / 5) * G) ≤ loudness n A * (1 / 4) := mul_le_mul_of_nonneg_left (by linarith) l0
    rw [hη1]
    linarith
  obtain ⟨y, y1, y2⟩ := b4 j c n A (fun k => ω k / r1) θ η1 hj hc hB hη0 hs2 hrec (by linarith) (by rw [hN]; linarith)
  refine ⟨y, y1, ?_⟩
  rw [upTo_all (fun k hk => by
    show ω k / r1 ≤ _
    rw [div_le_iff₀ (by linarith)]
    have := hlow k hk
    linarith), tones_rate, div_div, mul_comm (r2 : ℝ) r1] at y2
  refine y2.trans ?_
  have j0 : (0 : ℝ) ≤ j := Nat.cast_nonneg _
  have k1 : loudness n A * (2598 / 1000 * r2 * (j / 2 ^ 44)) ≤ loudness n A * (19 * (j / 2 ^ 44)) := by
    refine mul_le_mul_of_nonneg_left ?_ l0
    refine mul_le_mul_of_nonneg_right ?_ (by positivity)
    linarith
  have k2 := mul_nonneg l0 hG0
  rw [hη1, show (d1'.outputFramesGen + j : ℝ) / 2 ^ 44 = G + j / 2 ^ 44 by rw [hG]; ring]
  nlinarith

/-- One conversion at any ratio from 1/180 on. -/
theorem any_fastest (cfg : Config) (hL : LibraryTables cfg) (hP : ShippedTables cfg) (hF : (cfg.table SRC_SINC_FASTEST).isSome) (ch : ℕ) (h1 : 1 ≤ ch) (h2 : ch ≤ 128) (m : Mem) (d : SrcData) (r : ℚ)
    (hA : ProperArgs ch r d) (hr : 1 / 180 ≤ r) (hroom : (d.inputFrames + d.outputFrames / 2 ^ 44) * r + 1 < (d.outputFrames : ℚ)) :
    ∃ m' d', srcSimple cfg m (some d) SRC_SINC_FASTEST ch = .ok (0, m', some d') ∧
      |(d'.outputFramesGen : ℚ) - d.inputFrames * r| ≤ 1 + (d'.outputFramesGen / 2 ^ 44 + 1 / 10 ^ 6) * r ∧
      ∀ j c n A ω θ η, (j : ℕ) < d'.outputFramesGen → c < ch → ToneLimits n A ω (1999 / 1000 * ((min 1 r : ℚ) : ℝ)) → 0 ≤ η → loudness n A + η ≤ 2 ^ 62 →
        RecordedNear ch m d c (j / r) (21 / min 1 r + 1) (tones n A ω θ) η → 21 / min 1 r + 1 ≤ (j : ℚ) / r → (j : ℚ) / r + 21 / min 1 r + 1 ≤ d.inputFrames →
        ∃ y : ℚ, (m' (d.dataOut + ((ch * j + c : ℕ) : ℤ))).val = some y ∧
          |(y : ℝ) - tones n A ω θ (j / r)| ≤ loudness n A * (1 / 4000 + 1 / (1000000 * ((min 1 r : ℚ) : ℝ)) + 2 * (j / 2 ^ 44)) + 27 / 5 * η + 1 / 2 ^ 148 := by
  rcases le_total r 1 with hr1 | hr1
  · obtain ⟨m', d', a1, -, a3, a4⟩ := near_fastest_down cfg hL hP hF ch h1 h2 m d r hA hr hr1 hroom
    refine ⟨m', d', a1, a3, fun j c n A ω θ η hj hc hLim η0 hsum hs hE1 hE2 => ?_⟩
    rw [min_eq_right hr1] at hLim hs hE1 hE2 ⊢
    have q1 : (r : ℝ) ≤ 1 := by exact_mod_cast hr1
    have q0 : (0 : ℝ) < r := by exact_mod_cast (by linarith : 0 < r)
    obtain ⟨y, y1, y2⟩ := a4 j c n A ω θ η hj hc (fun k hk => ⟨(hLim k hk).1, (hLim k hk).2.1, (hLim k hk).2.2.trans (by linarith [Real.pi_gt_three]), Or.inl (hLim k hk).2.2⟩) η0 hsum hs hE1 hE2
    refine ⟨y, y1, ?_⟩
    rw [upTo_all (fun k hk => (hLim k hk).2.2)] at y2
    refine y2.trans ?_
    have l0 := loudness_nonneg hLim
    have : 1999 / 1000 * (r : ℝ) ≤ 2 := by linarith
    gcongr
  · obtain ⟨m', d', a1, -, a3, a4⟩ := near_fastest_up cfg hL hP hF ch h1 h2 m d r hA hr1 hroom
    refine ⟨m', d', a1, a3, fun j c n A ω θ η hj hc hLim η0 hsum hs hE1 hE2 => ?_⟩
    rw [min_eq_left hr1] at hLim hs hE1 hE2 ⊢
    obtain ⟨y, y1, y2⟩ := a4 j c n A ω θ η hj hc (fun k hk => ⟨(hLim k hk).1, (hLim k hk).2.1, (hLim k hk).2.2.trans (by norm_num)⟩) η0 hsum (by norm_num at hs; exact hs) (by linarith) (by linarith)
    refine ⟨y, y1, y2.trans ?_⟩
    have l0 := loudness_nonneg hLim
    have : loudness n A * (1 / 10000 + 2 * (j / 2 ^ 44)) ≤ loudness n A * (1 / 4000 + 1 / (1000000 * ((1 : ℚ) : ℝ)) + 2 * (j / 2 ^ 44)) :=
      mul_le_mul_of_nonneg_left (by push_cast; norm_num) l0
    linarith

/-- C73, fast sinc converter, any two ratios `r1` and `r2` from 1/180 to 256: two conversions one after the other are one at the ratio `r1 r2`, for tones up to 0.63 of half the lowest of the three sampling rates. -/
theorem C73_fastest_any (cfg : Config) (hL : LibraryTables cfg) (hP : ShippedTables cfg) (hF : (cfg.table SRC_SINC_FASTEST).isSome) (ch : ℕ) (h1 : 1 ≤ ch) (h2 : ch ≤ 128) (m : Mem) (d1 : SrcData)
    (r1 : ℚ) (hA1 : ProperArgs ch r1 d1) (hr1 : 1 / 180 ≤ r1) (hroom1 : (d1.inputFrames + d1.outputFrames / 2 ^ 44) * r1 + 1 < (d1.outputFrames : ℚ)) :
    ∃ m1 d1', srcSimple cfg m (some d1) SRC_SINC_FASTEST ch = .ok (0, m1, some d1') ∧ |(d1'.outputFramesGen : ℚ) - d1.inputFrames * r1| ≤ 1 + (d1'.outputFramesGen / 2 ^ 44 + 1 / 10 ^ 6) * r1 ∧
      ∀ (d2 : SrcData) (r2 : ℚ), ProperArgs ch r2 d2 → 1 / 180 ≤ r2 → (d2.inputFrames + d2.outputFrames / 2 ^ 44) * r2 + 1 < (d2.outputFrames : ℚ) →
        d2.dataIn = d1.dataOut → d2.inputFrames = d1'.outputFramesGen →
        ∃ m2 d2', srcSimple cfg m1 (some d2) SRC_SINC_FASTEST ch = .ok (0, m2, some d2') ∧
          |(d2'.outputFramesGen : ℚ) - d1'.outputFramesGen * r2| ≤ 1 + (d2'.outputFramesGen / 2 ^ 44 + 1 / 10 ^ 6) * r2 ∧
          ∀ j c n A ω θ η, (j : ℕ) < d2'.outputFramesGen → c < ch → ToneLimits n A ω (1999 / 1000 * ((min 1 (min r1 (r1 * r2)) : ℚ) : ℝ)) → 0 ≤ η → loudness n A + η ≤ 2 ^ 58 →
            RecordingOf ch m d1 c (tones n A ω θ) η → 21 / min 1 r1 + 1 + (21 / min 1 r2 + 1) / r1 ≤ (j : ℚ) / (r1 * r2) →
            (j : ℚ) / (r1 * r2) + 21 / min 1 r1 + 1 + (21 / min 1 r2 + 1) / r1 ≤ d1.inputFrames →
            ∃ y : ℚ, (m2 (d2.dataOut + ((ch * j + c : ℕ) : ℤ))).val = some y ∧ |(y : ℝ) - tones n A ω θ (j / (r1 * r2))| ≤
              loudness n A * (16 / 10000 + 27 / 5 / (1000000 * ((min 1 r1 : ℚ) : ℝ)) + 1 / (1000000 * ((min 1 r2 : ℚ) : ℝ)) + 13 * ((d1'.outputFramesGen + j : ℝ) / 2 ^ 44)) + 30 * η + 1 / 2 ^ 140 := by
  obtain ⟨m1, d1', a1, a3, a4⟩ := any_fastest cfg hL hP hF ch h1 h2 m d1 r1 hA1 hr1 hroom1
  refine ⟨m1, d1', a1, a3, fun d2 r2 hA2 hr2 hroom2 hD hN => ?_⟩
  obtain ⟨m2, d2', b1, b3, b4⟩ := any_fastest cfg hL hP hF ch h1 h2 m1 d2 r2 hA2 hr2 hroom2
  rw [hN] at b3
  refine ⟨m2, d2', b1, b3, fun j c n A ω θ η hj hc hLim η0 hsum hs hE1 hE2 => ?_⟩
  have p1 : 0 < r1 := by linarith
  have p2 : 0 < r2 := by linarith
  have q1 : (0 : ℝ) < r1 := by exact_mod_cast p1
  have l0 := loudness_nonneg hLim
  obtain ⟨g1, g2⟩ := gen_small h1 hA1 a3
  set ρ1 : ℚ := min 1 r1 with hρ1
  set ρ2 : ℚ := min 1 r2 with hρ2
  have s1 : 0 < ρ1 := lt_min one_pos p1
  have s2 : 0 < ρ2 := lt_min one_pos p2
  have s1r : ρ1 ≤ r1 := min_le_right _ _
  have t1 : (1 : ℝ) / 180 ≤ (ρ1 : ℝ) := by
    have : (1 : ℚ) / 180 ≤ ρ1 := le_min (by norm_num) hr1
    have := Rat.cast_le (K := ℝ).2 this
    push_cast at this
    exact this
  have t2 : (0 : ℝ) < (ρ2 : ℝ) := by exact_mod_cast s2
  -- the frequencies
  have f1 : min 1 (min r1 (r1 * r2)) ≤ ρ1 := le_min (min_le_left _ _) ((min_le_right _ _).trans (min_le_left _ _))
  have f2 : min 1 (min r1 (r1 * r2)) ≤ r1 * ρ2 := by
    rw [hρ2, mul_min_of_nonneg _ _ p1.le, mul_one]
    exact min_le_right _ _
  have f1' : ((min 1 (min r1 (r1 * r2)) : ℚ) : ℝ) ≤ ρ1 := by exact_mod_cast f1
  have f2' : ((min 1 (min r1 (r1 * r2)) : ℚ) : ℝ) ≤ r1 * ρ2 := by exact_mod_cast f2
  have hLim1 : ToneLimits n A ω (1999 / 1000 * (ρ1 : ℝ)) := fun k hk => ⟨(hLim k hk).1, (hLim k hk).2.1, (hLim k hk).2.2.trans (by linarith)⟩
  have hLim2 : ToneLimits n A (fun k => ω k / r1) (1999 / 1000 * (ρ2 : ℝ)) := fun k hk => ⟨(hLim k hk).1, div_nonneg (hLim k hk).2.1 q1.le, by
    show ω k / r1 ≤ _
    rw [div_le_iff₀ q1]
    have := (hLim k hk).2.2
    linarith⟩
  -- the margins at the rate between
  have e1 : (j : ℚ) / (r1 * r2) * r1 = j / r2 := by field_simp
  have e2 : (21 / ρ2 + 1) / r1 * r1 = 21 / ρ2 + 1 := by field_simp
  have m0 : 21 ≤ 21 / ρ1 * r1 := by
    rw [div_mul_eq_mul_div, le_div_iff₀ s1]
    linarith
  have m1' : (21 / ρ1 + 1) * r1 + (21 / ρ2 + 1) ≤ j / r2 := by
    have := mul_le_mul_of_nonneg_right hE1 p1.le
    rw [add_mul, e1, e2] at this
    exact this
  have m2' : (j : ℚ) / r2 + (21 / ρ1 + 1) * r1 + (21 / ρ2 + 1) ≤ d1.inputFrames * r1 := by
    have := mul_le_mul_of_nonneg_right hE2 p1.le
    rw [add_mul, add_assoc ((j : ℚ) / (r1 * r2)), add_mul, e1, e2] at this
    exact this
  set G : ℝ := (d1'.outputFramesGen : ℝ) / 2 ^ 44 with hG
  have hG1 : G ≤ 1 / 16 := by
    have : (d1'.outputFramesGen : ℝ) ≤ 2 ^ 40 := by exact_mod_cast g1
    rw [hG, div_le_iff₀ (by positivity)]
    linarith
  set η1 : ℝ := loudness n A * (1 / 4000 + 1 / (1000000 * (ρ1 : ℝ)) + 2 * G) + 27 / 5 * η + 1 / 2 ^ 148 with hη1
  have hj2 : 0 < d2.inputFrames := by have := hA2.input; omega
  have hG0 : 0 ≤ G := by
    have : (0 : ℝ) ≤ d1'.outputFramesGen := by rw [← hN]; exact_mod_cast hj2.le
    positivity
  have t0 : (0 : ℝ) < ρ1 := by linarith
  have hrec : RecordedNear ch m1 d2 c (j / r2) (21 / ρ2 + 1) (tones n A (fun k => ω k / r1) θ) η1 := by
    intro k hk hkj
    rw [hN] at hk
    have hkj := _root_.abs_lt.1 hkj
    have c1 : 21 / ρ1 + 1 ≤ (k : ℚ) / r1 := by rw [le_div_iff₀ p1]; linarith
    have c2 : (k : ℚ) / r1 + 21 / ρ1 + 1 ≤ d1.inputFrames := by
      rw [add_assoc, ← le_sub_iff_add_le, div_le_iff₀ p1, sub_mul]; linarith
    obtain ⟨y, y1, y2⟩ := a4 k c n A ω θ η hk hc hLim1 η0 (hsum.trans (by norm_num)) (recordedNear_of hs _ _) c1 c2
    refine ⟨y, by rw [hD]; exact y1, ?_⟩
    rw [tones_rate]
    refine y2.trans ?_
    have hkG : (k : ℝ) / 2 ^ 44 ≤ G := by
      rw [hG]
      have : (k : ℝ) ≤ d1'.outputFramesGen := by exact_mod_cast hk.le
      gcongr
    rw [hη1]
    gcongr
  have hη0 : 0 ≤ η1 := by positivity
  have hinv : 1 / (1000000 * (ρ1 : ℝ)) ≤ 180 / 1000000 := by
    rw [div_le_div_iff₀ (by positivity) (by norm_num)]
    linarith
  have hs2 : loudness n A + η1 ≤ 2 ^ 62 := by
    have : loudness n A * (1 / 4000 + 1 / (1000000 * (ρ1 : ℝ)) + 2 * G) ≤ loudness n A * (1 / 4) := mul_le_mul_of_nonneg_left (by linarith) l0
    rw [hη1]
    linarith
  obtain ⟨y, y1, y2⟩ := b4 j c n A (fun k => ω k / r1) θ η1 hj hc hLim2 hη0 hs2 hrec (by linarith) (by rw [hN]; linarith)
  refine ⟨y, y1, ?_⟩
  rw [tones_rate, div_div, mul_comm (r2 : ℝ) r1] at y2
  refine y2.trans ?_
  have j0 : (0 : ℝ) ≤ j := Nat.cast_nonneg _
  have k2 := mul_nonneg l0 hG0
  have k3 := mul_nonneg l0 (show (0 : ℝ) ≤ j / 2 ^ 44 by positivity)
  have e5 : 27 / 5 / (1000000 * (ρ1 : ℝ)) = 27 / 5 * (1 / (1000000 * (ρ1 : ℝ))) := by ring
  rw [hη1, show (d1'.outputFramesGen + j : ℝ) / 2 ^ 44 = G + j / 2 ^ 44 by rw [hG]; ring, e5]
  generalize 1 / (1000000 * (ρ1 : ℝ)) = a at *
  generalize 1 / (1000000 * (ρ2 : ℝ)) = b at *
  nlinarith

/-- One conversion at any ratio from 1/180 on. -/
theorem any_medium (cfg : Config) (hL : LibraryTables cfg) (hP : ShippedTables cfg) (hF : (cfg.table SRC_SINC_MEDIUM_QUALITY).isSome) (ch : ℕ) (h1 : 1 ≤ ch) (h2 : ch ≤ 128) (m : Mem) (d : SrcData) (r : ℚ)
    (hA : ProperArgs ch r d) (hr : 1 / 180 ≤ r) (hroom : (d.inputFrames + d.outputFrames / 2 ^ 44) * r + 1 < (d.outputFrames : ℚ)) :
    ∃ m' d', srcSimple cfg m (some d) SRC_SINC_MEDIUM_QUALITY ch = .ok (0, m', some d') ∧
      |(d'.outputFramesGen : ℚ) - d.inputFrames * r| ≤ 1 + (d'.outputFramesGen / 2 ^ 44 + 1 / 10 ^ 6) * r ∧
      ∀ j c n A ω θ η, (j : ℕ) < d'.outputFramesGen → c < ch → ToneLimits n A ω (2598 / 1000 * ((min 1 r : ℚ) : ℝ)) → 0 ≤ η → loudness n A + η ≤ 2 ^ 62 →
        RecordedNear ch m d c (j / r) (47 / min 1 r + 1) (tones n A ω θ) η → 47 / min 1 r + 1 ≤ (j : ℚ) / r → (j : ℚ) / r + 47 / min 1 r + 1 ≤ d.inputFrames →
        ∃ y : ℚ, (m' (d.dataOut + ((ch * j + c : ℕ) : ℤ))).val = some y ∧
          |(y : ℝ) - tones n A ω θ (j / r)| ≤ loudness n A * (1 / 1700 + 1 / (1000000 * ((min 1 r : ℚ) : ℝ)) + (13 / 5) * (j / 2 ^ 44)) + 71 / 10 * η + 1 / 2 ^ 148 := by
  rcases le_total r 1 with hr1 | hr1
  · obtain ⟨m', d', a1, -, a3, a4⟩ := near_medium_down cfg hL hP hF ch h1 h2 m d r hA hr hr1 hroom
    refine ⟨m', d', a1, a3, fun j c n A ω θ η hj hc hLim η0 hsum hs hE1 hE2 => ?_⟩
    rw [min_eq_right hr1] at hLim hs hE1 hE2 ⊢
    have q1 : (r : ℝ) ≤ 1 := by exact_mod_cast hr1
    have q0 : (0 : ℝ) < r := by exact_mod_cast (by linarith : 0 < r)
    obtain ⟨y, y1, y2⟩ := a4 j c n A ω θ η hj hc (fun k hk => ⟨(hLim k hk).1, (hLim k hk).2.1, (hLim k hk).2.2.trans (by linarith [Real.pi_gt_three]), Or.inl (hLim k hk).2.2⟩) η0 hsum hs hE1 hE2
    refine ⟨y, y1, ?_⟩
    rw [upTo_all (fun k hk => (hLim k hk).2.2)] at y2
    refine y2.trans ?_
    have l0 := loudness_nonneg hLim
    have : 2598 / 1000 * (r : ℝ) ≤ (13 / 5) := by linarith
    gcongr
  · obtain ⟨m', d', a1, -, a3, a4⟩ := near_medium_up cfg hL hP hF ch h1 h2 m d r hA hr1 hroom
    refine ⟨m', d', a1, a3, fun j c n A ω θ η hj hc hLim η0 hsum hs hE1 hE2 => ?_⟩
    rw [min_eq_left hr1] at hLim hs hE1 hE2 ⊢
    obtain ⟨y, y1, y2⟩ := a4 j c n A ω θ η hj hc (fun k hk => ⟨(hLim k hk).1, (hLim k hk).2.1, (hLim k hk).2.2.trans (by norm_num)⟩) η0 hsum (by norm_num at hs; exact hs) (by linarith) (by linarith)
    refine ⟨y, y1, y2.trans ?_⟩
    have l0 := loudness_nonneg hLim
    have : loudness n A * (1 / 30000 + (13 / 5) * (j / 2 ^ 44)) ≤ loudness n A * (1 / 1700 + 1 / (1000000 * ((1 : ℚ) : ℝ)) + (13 / 5) * (j / 2 ^ 44)) :=
      mul_le_mul_of_nonneg_left (by push_cast; norm_num) l0
    linarith

/-- C73, medium sinc converter, any two ratios. -/
theorem C73_medium_any (cfg : Config) (hL : LibraryTables cfg) (hP : ShippedTables cfg) (hF : (cfg.table SRC_SINC_MEDIUM_QUALITY).isSome) (ch : ℕ) (h1 : 1 ≤ ch) (h2 : ch ≤ 128) (m : Mem) (d1 : SrcData)
    (r1 : ℚ) (hA1 : ProperArgs ch r1 d1) (hr1 : 1 / 180 ≤ r1) (hroom1 : (d1.inputFrames + d1.outputFrames / 2 ^ 44) * r1 + 1 < (d1.outputFrames : ℚ)) :
    ∃ m1 d1', srcSimple cfg m (some d1) SRC_SINC_MEDIUM_QUALITY ch = .ok (0, m1, some d1') ∧ |(d1'.outputFramesGen : ℚ) - d1.inputFrames * r1| ≤ 1 + (d1'.outputFramesGen / 2 ^ 44 + 1 / 10 ^ 6) * r1 ∧
      ∀ (d2 : SrcData) (r2 : ℚ), ProperArgs ch r2 d2 → 1 / 180 ≤ r2 → (d2.inputFrames + d2.outputFrames / 2 ^ 44) * r2 + 1 < (d2.outputFrames : ℚ) →
        d2.dataIn = d1.dataOut → d2.inputFrames = d1'.outputFramesGen →
        ∃ m2 d2', srcSimple cfg m1 (some d2) SRC_SINC_MEDIUM_QUALITY ch = .ok (0, m2, some d2') ∧
          |(d2'.outputFramesGen : ℚ) - d1'.outputFramesGen * r2| ≤ 1 + (d2'.outputFramesGen / 2 ^ 44 + 1 / 10 ^ 6) * r2 ∧
          ∀ j c n A ω θ η, (j : ℕ) < d2'.outputFramesGen → c < ch → ToneLimits n A ω (2598 / 1000 * ((min 1 (min r1 (r1 * r2)) : ℚ) : ℝ)) → 0 ≤ η → loudness n A + η ≤ 2 ^ 58 →
            RecordingOf ch m d1 c (tones n A ω θ) η → 47 / min 1 r1 + 1 + (47 / min 1 r2 + 1) / r1 ≤ (j : ℚ) / (r1 * r2) →
            (j : ℚ) / (r1 * r2) + 47 / min 1 r1 + 1 + (47 / min 1 r2 + 1) / r1 ≤ d1.inputFrames →
            ∃ y : ℚ, (m2 (d2.dataOut + ((ch * j + c : ℕ) : ℤ))).val = some y ∧ |(y : ℝ) - tones n A ω θ (j / (r1 * r2))| ≤
              loudness n A * (48 / 10000 + 71 / 10 / (1000000 * ((min 1 r1 : ℚ) : ℝ)) + 1 / (1000000 * ((min 1 r2 : ℚ) : ℝ)) + 22 * ((d1'.outputFramesGen + j : ℝ) / 2 ^ 44)) + 51 * η + 1 / 2 ^ 140 := by
  obtain ⟨m1, d1', a1, a3, a4⟩ := any_medium cfg hL hP hF ch h1 h2 m d1 r1 hA1 hr1 hroom1
  refine ⟨m1, d1', a1, a3, fun d2 r2 hA2 hr2 hroom2 hD hN => ?_⟩
  obtain ⟨m2, d2', b1, b3, b4⟩ := any_medium cfg hL hP hF ch h1 h2 m1 d2 r2 hA2 hr2 hroom2
  rw [hN] at b3
  refine ⟨m2, d2', b1, b3, fun j c n A ω θ η hj hc hLim η0 hsum hs hE1 hE2 => ?_⟩
  have p1 : 0 < r1 := by linarith
  have p2 : 0 < r2 := by linarith
  have q1 : (0 : ℝ) < r1 := by exact_mod_cast p1
  have l0 := loudness_nonneg hLim
  obtain ⟨g1, g2⟩ := gen_small h1 hA1 a3
  set ρ1 : ℚ := min 1 r1 with hρ1
  set ρ2 : ℚ := min 1 r2 with hρ2
  have s1 : 0 < ρ1 := lt_min one_pos p1
  have s2 : 0 < ρ2 := lt_min one_pos p2
  have s1r : ρ1 ≤ r1 := min_le_right _ _
  have t1 : (1 : ℝ) / 180 ≤ (ρ1 : ℝ) := by
    have : (1 : ℚ) / 180 ≤ ρ1 := le_min (by norm_num) hr1
    have := Rat.cast_le (K := ℝ).2 this
    push_cast at this
    exact this
  have t2 : (0 : ℝ) < (ρ2 : ℝ) := by exact_mod_cast s2
  -- the frequencies
  have f1 : min 1 (min r1 (r1 * r2)) ≤ ρ1 := le_min (min_le_left _ _) ((min_le_right _ _).trans (min_le_left _ _))
  have f2 : min 1 (min r1 (r1 * r2)) ≤ r1 * ρ2 := by
    rw [hρ2, mul_min_of_nonneg _ _ p1.le, mul_one]
    exact min_le_right _ _
  have f1' : ((min 1 (min r1 (r1 * r2)) : ℚ) : ℝ) ≤ ρ1 := by exact_mod_cast f1
  have f2' : ((min 1 (min r1 (r1 * r2)) : ℚ) : ℝ) ≤ r1 * ρ2 := by exact_mod_cast f2
  have hLim1 : ToneLimits n A ω (2598 / 1000 * (ρ1 : ℝ)) := fun k hk => ⟨(hLim k hk).1, (hLim k hk).2.1, (hLim k hk).2.2.trans (by linarith)⟩
  have hLim2 : ToneLimits n A (fun k => ω k / r1) (2598 / 1000 * (ρ2 : ℝ)) := fun k hk => ⟨(hLim k hk).1, div_nonneg (hLim k hk).2.1 q1.le, by
    show ω k / r1 ≤ _
    rw [div_le_iff₀ q1]
    have := (hLim k hk).2.2
    linarith⟩
  -- the margins at the rate between
  have e1 : (j : ℚ) / (r1 * r2) * r1 = j / r2 := by field_simp
  have e2 : (47 / ρ2 + 1) / r1 * r1 = 47 / ρ2 + 1 := by field_simp
  have m0 : 47 ≤ 47 / ρ1 * r1 := by
    rw [div_mul_eq_mul_div, le_div_iff₀ s1]
    linarith
  have m1' : (47 / ρ1 + 1) * r1 + (47 / ρ2 + 1) ≤ j / r2 := by
    have := mul_le_mul_of_nonneg_right hE1 p1.le
    rw [add_mul, e1, e2] at this
    exact this
  have m2' : (j : ℚ) / r2 + (47 / ρ1 + 1) * r1 + (47 / ρ2 + 1) ≤ d1.inputFrames * r1 := by
    have := mul_le_mul_of_nonneg_right hE2 p1.le
    rw [add_mul, add_assoc ((j : ℚ) / (r1 * r2)), add_mul, e1, e2] at this
    exact this
  set G : ℝ := (d1'.outputFramesGen : ℝ) / 2 ^ 44 with hG
  have hG1 : G ≤ 1 / 16 := by
    have : (d1'.outputFramesGen : ℝ) ≤ 2 ^ 40 := by exact_mod_cast g1
    rw [hG, div_le_iff₀ (by positivity)]
    linarith
  set η1 : ℝ := loudness n A * (1 / 1700 + 1 / (1000000 * (ρ1 : ℝ)) + (13 / 5) * G) + 71 / 10 * η + 1 / 2 ^ 148 with hη1
  have hj2 : 0 < d2.inputFrames := by have := hA2.input; omega
  have hG0 : 0 ≤ G := by
    have : (0 : ℝ) ≤ d1'.outputFramesGen := by rw [← hN]; exact_mod_cast hj2.le
    positivity
  have t0 : (0 : ℝ) < ρ1 := by linarith
  have hrec : RecordedNear ch m1 d2 c (j / r2) (47 / ρ2 + 1) (tones n A (fun k => ω k / r1) θ) η1 := by
    intro k hk hkj
    rw [hN] at hk
    have hkj := _root_.abs_lt.1 hkj
    have c1 : 47 / ρ1 + 1 ≤ (k : ℚ) / r1 := by rw [le_div_iff₀ p1]; linarith
    have c2 : (k : ℚ) / r1 + 47 / ρ1 + 1 ≤ d1.inputFrames := by
      rw [add_assoc, ← le_sub_iff_add_le, div_le_iff₀ p1, sub_mul]; linarith
    obtain ⟨y, y1, y2⟩ := a4 k c n A ω θ η hk hc hLim1 η0 (hsum.trans (by norm_num)) (recordedNear_of hs _ _) c1 c2
    refine ⟨y, by rw [hD]; exact y1, ?_⟩
    rw [tones_rate]
    refine y2.trans ?_
    have hkG : (k : ℝ) / 2 ^ 44 ≤ G := by
      rw [hG]
      have : (k : ℝ) ≤ d1'.outputFramesGen := by exact_mod_cast hk.le
      gcongr
    rw [hη1]
    gcongr
  have hη0 : 0 ≤ η1 := by positivity
  have hinv : 1 / (1000000 * (ρ1 : ℝ)) ≤ 180 / 1000000 := by
    rw [div_le_div_iff₀ (by positivity) (by norm_num)]
    linarith
  have hs2 : loudness n A + η1 ≤ 2 ^ 62 := by
    have : loudness n A * (1 / 1700 + 1 / (1000000 * (ρ1 : ℝ)) + (13 / 5) * G) ≤ loudness n A * (1 / 4) := mul_le_mul_of_nonneg_left (by linarith) l0
    rw [hη1]
    linarith
  obtain ⟨y, y1, y2⟩ := b4 j c n A (fun k => ω k / r1) θ η1 hj hc hLim2 hη0 hs2 hrec (by linarith) (by rw [hN]; linarith)
  refine ⟨y, y1, ?_⟩
  rw [tones_rate, div_div, mul_comm (r2 : ℝ) r1] at y2
  refine y2.trans ?_
  have j0 : (0 : ℝ) ≤ j := Nat.cast_nonneg _
  have k2 := mul_nonneg l0 hG0
  have k3 := mul_nonneg l0 (show (0 : ℝ) ≤ j / 2 ^ 44 by positivity)
  have e5 : 71 / 10 / (1000000 * (ρ1 : ℝ)) = 71 / 10 * (1 / (1000000 * (ρ1 : ℝ))) := by ring
  rw [hη1, show (d1'.outputFramesGen + j : ℝ) / 2 ^ 44 = G + j / 2 ^ 44 by rw [hG]; ring, e5]
  generalize 1 / (1000000 * (ρ1 : ℝ)) = a at *
  generalize 1 / (1000000 * (ρ2 : ℝ)) = b at *
  nlinarith

/-- The arguments of the second call: `n` frames at address 1000, room for 110 frames at address 5000. -/
def secondArgs (ratio : F64) (n : ℤ) : SrcData :=
  { dataIn := 1000, dataOut := 5000, inputFrames := n, outputFrames := 110, inputFramesUsed := 0, outputFramesGen := 0, endOfInput := 0, srcRatio := ratio }

/-- The hypotheses of `C73_fastest` are met by a tone converted to twice its sampling rate and back: frame 50 is `cos (25 π) = -1` again, up to `1 / 1000`. -/
example : ∃ m1 d1 m2 d2 y, srcSimple libCfg quarterMem (some (simpleArgs (dbl 2) 100 210)) SRC_SINC_FASTEST (2 : ℕ) = .ok (0, m1, some d1) ∧
    srcSimple libCfg m1 (some (secondArgs half d1.outputFramesGen)) SRC_SINC_FASTEST (2 : ℕ) = .ok (0, m2, some d2) ∧ (m2 (5000 + 101)).val = some y ∧ |(y : ℝ) + 1| ≤ 1 / 1000 := by
  obtain ⟨m1, d1, h1, h3, h4⟩ := C73_fastest libCfg libCfg_tables libCfg_shipped rfl 2 (by norm_num) (by norm_num) quarterMem (simpleArgs (dbl 2) 100 210) 2
    ⟨by decide, by decide, two_val, by norm_num, by norm_num, by decide, by decide, Or.inl (by decide), by decide, by decide⟩ (by norm_num) (by norm_num [simpleArgs])
  have g : 198 < d1.outputFramesGen ∧ d1.outputFramesGen < 202 := by
    have h8 := _root_.abs_le.1 h3
    simp only [simpleArgs] at h8
    push_cast at h8
    have : (198 : ℚ) < d1.outputFramesGen ∧ (d1.outputFramesGen : ℚ) < 202 := by
      constructor <;> norm_num at h8 ⊢ <;> linarith
    exact_mod_cast this
  have gq : (d1.outputFramesGen : ℚ) < 202 ∧ (198 : ℚ) < d1.outputFramesGen := by exact_mod_cast g.symm
  obtain ⟨m2, d2, k1, k2, k3⟩ := h4 (secondArgs half d1.outputFramesGen) (1 / 2)
    ⟨by simp only [secondArgs]; omega, by simp only [secondArgs]; norm_num, half_val, by norm_num, by norm_num, by simp [secondArgs], by simp [secondArgs],
      Or.inl (by simp only [secondArgs]; push_cast; omega), by simp only [secondArgs]; push_cast; omega, by simp only [secondArgs]; norm_num⟩
    (by norm_num) (by norm_num) (by simp only [secondArgs]; push_cast; linarith) rfl rfl
  have h10 : (50 : ℚ) < d2.outputFramesGen := by
    have h8 := (_root_.abs_le.1 k2).1
    norm_num at h8 ⊢
    linarith
  have h11 : 50 < d2.outputFramesGen := by exact_mod_cast h10
  have hpi := Real.pi_lt_d2
  obtain ⟨y, y1, y2⟩ := k3 50 1 1 (fun _ => 1) (fun _ => Real.pi / 2) (fun _ => 0) 0 (by push_cast; omega) (by norm_num) (fun k _ => ⟨by norm_num, by positivity, by linarith⟩)
    (fun k _ => by push_cast; linarith) le_rfl (by simp [loudness]; norm_num) (quarter_recording 1 (by norm_num)) (by norm_num) (by norm_num [simpleArgs])
  refine ⟨m1, d1, m2, d2, y, h1, k1, y1, ?_⟩
  have e : tones 1 (fun _ => 1) (fun _ => Real.pi / 2) (fun _ => 0) (((50 : ℕ) : ℝ) / (((2 : ℚ) : ℝ) * (((1 : ℚ) / 2 : ℚ) : ℝ))) = -1 := by
    simp only [tones, Finset.sum_range_one, one_mul, add_zero]
    rw [show Real.pi / 2 * (((50 : ℕ) : ℝ) / (((2 : ℚ) : ℝ) * (((1 : ℚ) / 2 : ℚ) : ℝ))) = Real.pi + ((12 : ℕ) : ℝ) * (2 * Real.pi) by push_cast; ring, Real.cos_add_nat_mul_two_pi, Real.cos_pi]
  rw [e, sub_neg_eq_add] at y2
  refine y2.trans ?_
  have : (d1.outputFramesGen : ℝ) ≤ 202 := by exact_mod_cast g.2.le
  simp only [loudness, Finset.sum_range_one]
  push_cast
  linarith

/-- The hypotheses of `C73_fastest_any` are met by the same tone converted to twice its sampling rate and back: frame 50 is `cos (25 π) = -1` again, up to `1 / 500`. -/
example : ∃ m1 d1 m2 d2 y, srcSimple libCfg quarterMem (some (simpleArgs (dbl 2) 100 210)) SRC_SINC_FASTEST (2 : ℕ) = .ok (0, m1, some d1) ∧
    srcSimple libCfg m1 (some (secondArgs half d1.outputFramesGen)) SRC_SINC_FASTEST (2 : ℕ) = .ok (0, m2, some d2) ∧ (m2 (5000 + 101)).val = some y ∧ |(y : ℝ) + 1| ≤ 1 / 500 := by
  obtain ⟨m1, d1, h1, h3, h4⟩ := C73_fastest_any libCfg libCfg_tables libCfg_shipped rfl 2 (by norm_num) (by norm_num) quarterMem (simpleArgs (dbl 2) 100 210) 2
    ⟨by decide, by decide, two_val, by norm_num, by norm_num, by decide, by decide, Or.inl (by decide), by decide, by decide⟩ (by norm_num) (by norm_num [simpleArgs])
  have g : 198 < d1.outputFramesGen ∧ d1.outputFramesGen < 202 := by
    have h8 := _root_.abs_le.1 h3
    simp only [simpleArgs] at h8
    push_cast at h8
    have : (198 : ℚ) < d1.outputFramesGen ∧ (d1.outputFramesGen : ℚ) < 202 := by
      constructor <;> norm_num at h8 ⊢ <;> linarith
    exact_mod_cast this
  have gq : (d1.outputFramesGen : ℚ) < 202 ∧ (198 : ℚ) < d1.outputFramesGen := by exact_mod_cast g.symm
  obtain ⟨m2, d2, k1, k2, k3⟩ := h4 (secondArgs half d1.outputFramesGen) (1 / 2)
    ⟨by simp only [secondArgs]; omega, by simp only [secondArgs]; norm_num, half_val, by norm_num, by norm_num, by simp [secondArgs], by simp [secondArgs],
      Or.inl (by simp only [secondArgs]; push_cast; omega), by simp only [secondArgs]; push_cast; omega, by simp only [secondArgs]; norm_num⟩
    (by norm_num) (by simp only [secondArgs]; push_cast; linarith) rfl rfl
  have h10 : (50 : ℚ) < d2.outputFramesGen := by
    have h8 := (_root_.abs_le.1 k2).1
    norm_num at h8 ⊢
    linarith
  have h11 : 50 < d2.outputFramesGen := by exact_mod_cast h10
  have hpi := Real.pi_lt_d2
  obtain ⟨y, y1, y2⟩ := k3 50 1 1 (fun _ => 1) (fun _ => Real.pi / 2) (fun _ => 0) 0 (by push_cast; omega) (by norm_num) (fun k _ => ⟨by norm_num, by positivity, by norm_num; linarith⟩)
    le_rfl (by simp [loudness]; norm_num) (quarter_recording 1 (by norm_num)) (by norm_num) (by norm_num [simpleArgs])
  refine ⟨m1, d1, m2, d2, y, h1, k1, y1, ?_⟩
  have e : tones 1 (fun _ => 1) (fun _ => Real.pi / 2) (fun _ => 0) (((50 : ℕ) : ℝ) / (((2 : ℚ) : ℝ) * (((1 : ℚ) / 2 : ℚ) : ℝ))) = -1 := by
    simp only [tones, Finset.sum_range_one, one_mul, add_zero]
    rw [show Real.pi / 2 * (((50 : ℕ) : ℝ) / (((2 : ℚ) : ℝ) * (((1 : ℚ) / 2 : ℚ) : ℝ))) = Real.pi + ((12 : ℕ) : ℝ) * (2 * Real.pi) by push_cast; ring, Real.cos_add_nat_mul_two_pi, Real.cos_pi]
  rw [e, sub_neg_eq_add] at y2
  refine y2.trans ?_
  have : (d1.outputFramesGen : ℝ) ≤ 202 := by exact_mod_cast g.2.le
  simp only [loudness, Finset.sum_range_one]
  norm_num
  linarith

end Verif
