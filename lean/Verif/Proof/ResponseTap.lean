import Verif.Proof.AliasFilter

/-! The exact filter of a checked table at ratios up to 1, on one cosine: its gain is a function of its frequency relative to the rate of the output. -/

namespace Verif.Alias

/-- The frequency relative to the rate of the output, and to the step in the table. -/
theorem lip_room {g : ℝ → ℝ} {Ω' Λ N ρ s ω : ℝ} (hz : ∀ a, Ω' ≤ a → g a = 0) (hl : ∀ a b, 0 ≤ a → 0 ≤ b → |g a - g b| ≤ Λ * |a - b|) (Λ0 : 0 ≤ Λ) (Ω0 : 0 ≤ Ω')
    (n0 : 0 < N) (ρ0 : 0 < ρ) (s0 : 0 < s) (w0 : 0 ≤ ω) (half : 1 / 2 ≤ N * ρ) (step : |s - N * ρ| ≤ 1 / 8191) :
    |g (ω * N / s) - g (ω / ρ)| ≤ Λ * Ω' / (8189 * N) / ρ := by
  have r0 : 0 ≤ Λ * Ω' / (8189 * N) / ρ := by positivity
  have near : ∀ d, d ≤ Ω' / (8189 * N * ρ) → Λ * d ≤ Λ * Ω' / (8189 * N) / ρ := by
    intro d hd
    refine (mul_le_mul_of_nonneg_left hd Λ0).trans (le_of_eq ?_)
    field_simp
  have st := _root_.abs_le.1 step
  have a0 : 0 ≤ ω * N / s := by positivity
  have b0 : 0 ≤ ω / ρ := by positivity
  by_cases hb : Ω' ≤ ω / ρ
  · by_cases ha : Ω' ≤ ω * N / s
    · rw [hz _ ha, hz _ hb, sub_zero, abs_zero]
      exact r0
    · refine (hl _ _ a0 b0).trans (near _ ?_)
      have e : ω * N / s - ω / ρ = ω * N / s * ((N * ρ - s) / (N * ρ)) := by field_simp
      rw [e, abs_mul, abs_of_nonneg a0, abs_div, abs_of_pos (mul_pos n0 ρ0), abs_sub_comm]
      have h1 : |s - N * ρ| / (N * ρ) ≤ 1 / (8189 * N * ρ) := by
        rw [div_le_div_iff₀ (by positivity) (by positivity)]
        nlinarith [mul_pos n0 ρ0]
      calc ω * N / s * (|s - N * ρ| / (N * ρ)) ≤ Ω' * (1 / (8189 * N * ρ)) := mul_le_mul (not_le.1 ha).le h1 (by positivity) Ω0
        _ = _ := by ring
  · refine (hl _ _ a0 b0).trans (near _ ?_)
    have e : ω * N / s - ω / ρ = ω / ρ * ((N * ρ - s) / s) := by field_simp
    rw [e, abs_mul, abs_of_nonneg b0, abs_div, abs_of_pos s0, abs_sub_comm]
    have h1 : |s - N * ρ| / s ≤ 1 / (8189 * N * ρ) := by
      rw [div_le_div_iff₀ s0 (by positivity)]
      nlinarith [mul_pos n0 ρ0]
    calc ω / ρ * (|s - N * ρ| / s) ≤ Ω' * (1 / (8189 * N * ρ)) := mul_le_mul (not_le.1 hb).le h1 (by positivity) Ω0
      _ = _ := by ring

theorem one_gained {h : ℕ → ℝ} {L N K : ℕ} (h0 : ∀ n, L < n → h n = 0) (hK : L < K * N) (hN : 0 < N) {γ κ : ℝ} (H : Decays h L N γ κ) (g0 : 0 ≤ γ) (k0 : 0 ≤ κ)
    {g : ℝ → ℝ} {Ω Ω' γ0 δ Λ Y Z q : ℝ} (hg : ∀ a, 0 ≤ a → 0 ≤ g a ∧ g a ≤ 1) (hπ : Real.pi ≤ Ω) (hΩ : Ω ≤ N) (hΩ' : 0 ≤ Ω')
    (hw : ∀ a, 0 ≤ a → a ≤ Ω → ∀ p ≤ N, ∀ ψ, |Sine.wave h N K (a / N) ψ p - g a * Real.cos ψ| ≤ γ0)
    (hz : ∀ a, Ω' ≤ a → g a = 0) (hδ : ∀ a, Ω ≤ a → g a ≤ δ) (hl : ∀ a b, 0 ≤ a → 0 ≤ b → |g a - g b| ≤ Λ * |a - b|) (Λ0 : 0 ≤ Λ)
    (hY1 : γ0 + 5 / 48 * (Ω / N) ^ 2 ≤ Y) (hY2 : γ / (98 / 10) + κ / ((2 * N - 1) ^ 2 * (98 / 10)) + δ ≤ Y) (hZ : Ω * (1001 / 1000) / (4096 * N) ≤ Z)
    (hq : Λ * Ω' / (8189 * N) ≤ q) {ρ s φ i ω θ : ℝ} (ρ0 : 0 < ρ) (half : 1 / 2 ≤ N * ρ) (w0 : 0 ≤ ω) (s0 : 0 < s) (step : |s - N * ρ| ≤ 1 / 8191)
    (hφ : |φ - i| ≤ 1001 / 1000 / (4096 * s)) :
    |gainAt h L N s ω| ≤ 1 + Y ∧ |gainAt h L N s ω * Real.cos (ω * φ + θ) - g (ω / ρ) * Real.cos (ω * i + θ)| ≤ Y + (Z + q / ρ) := by
  have n0 : (0 : ℝ) < N := by exact_mod_cast hN
  have n1 : (1 : ℝ) ≤ N := by exact_mod_cast hN
  have pi0 := Real.pi_pos
  have Z0 : 0 ≤ Z := le_trans (div_nonneg (mul_nonneg (by linarith) (by norm_num)) (by positivity)) hZ
  have pi1 : (98 / 10 : ℝ) ≤ Real.pi ^ 2 := by
    have := Real.pi_gt_d4
    nlinarith
  have sq0 : 0 < (2 * (N : ℝ) - 1) ^ 2 := by
    have : 0 < 2 * (N : ℝ) - 1 := by linarith
    positivity
  have a0 : 0 ≤ ω * N / s := by positivity
  have lip := (lip_room hz hl Λ0 hΩ' n0 ρ0 s0 w0 half step).trans (div_le_div_of_nonneg_right hq ρ0.le)
  have c1 := Real.abs_cos_le_one (ω * φ + θ)
  have c2 := Real.abs_cos_le_one (ω * i + θ)
  obtain ⟨ga0, ga1⟩ := hg _ a0
  obtain ⟨gb0, gb1⟩ := hg (ω / ρ) (by positivity)
  by_cases ws : ω * N ≤ Ω * s
  · have gp := (gain_pass h0 hK hN (fun a ha => by rw [abs_of_nonneg (hg a ha).1]; exact (hg a ha).2) s0 w0 ws hΩ hw).trans hY1
    have nc := (near_cos (θ := θ) n0 s0 w0 ws hφ).trans hZ
    generalize gainAt h L N s ω = v at *
    generalize g (ω * N / s) = u at *
    generalize g (ω / ρ) = t at *
    generalize Real.cos (ω * φ + θ) = c at *
    generalize Real.cos (ω * i + θ) = c' at *
    constructor
    · have := abs_sub_abs_le_abs_sub v u
      rw [abs_of_nonneg ga0] at this
      linarith
    · have k1 : |(v - u) * c| ≤ Y * 1 := by
        rw [abs_mul]
        exact mul_le_mul gp c1 (abs_nonneg _) ((abs_nonneg _).trans gp)
      have k2 : |(u - t) * c| ≤ q / ρ * 1 := by
        rw [abs_mul]
        exact mul_le_mul lip c1 (abs_nonneg _) ((abs_nonneg _).trans lip)
      have k3 : |t * (c - c')| ≤ 1 * Z := by
        rw [abs_mul, abs_of_nonneg gb0]
        exact mul_le_mul gb1 nc (abs_nonneg _) (by norm_num)
      rw [show v * c - t * c' = (v - u) * c + (u - t) * c + t * (c - c') by ring]
      have t1 := abs_add_le ((v - u) * c + (u - t) * c) (t * (c - c'))
      have t2 := abs_add_le ((v - u) * c) ((u - t) * c)
      linarith
  · have big : Ω ≤ ω * N / s := by
      rw [le_div_iff₀ s0]
      exact (not_le.1 ws).le
    have gs : |gainAt h L N s ω| ≤ γ / (98 / 10) + κ / ((2 * N - 1) ^ 2 * (98 / 10)) := by
      refine (gain_stop hN H g0 k0 s0 ?_).trans ?_
      · have := mul_le_mul_of_nonneg_right hπ s0.le
        linarith
      · gcongr
    have du := hδ _ big
    generalize gainAt h L N s ω = v at *
    generalize g (ω * N / s) = u at *
    generalize g (ω / ρ) = t at *
    generalize Real.cos (ω * φ + θ) = c at *
    generalize Real.cos (ω * i + θ) = c' at *
    generalize γ / (98 / 10) + κ / ((2 * N - 1) ^ 2 * (98 / 10)) = e at *
    have y0 : 0 ≤ Y := by linarith [abs_nonneg v]
    refine ⟨by linarith, ?_⟩
    have k1 : |v * c| ≤ e * 1 := by
      rw [abs_mul]
      exact mul_le_mul gs c1 (abs_nonneg _) ((abs_nonneg _).trans gs)
    have k2 : |t * c'| ≤ t * 1 := by
      rw [abs_mul, abs_of_nonneg gb0]
      exact mul_le_mul_of_nonneg_left c2 gb0
    have t1 := abs_sub (v * c) (t * c')
    rw [_root_.abs_le] at lip
    linarith

end Verif.Alias
