import Mathlib.Analysis.Convex.Deriv
import Mathlib.Analysis.Calculus.Deriv.Mul
import Mathlib.Analysis.Calculus.Deriv.Add
import Mathlib.Analysis.Calculus.Deriv.Pow
import Mathlib.Analysis.SpecialFunctions.Trigonometric.Bounds
import Verif.Spec.Smooth

/-! The error of linear interpolation. -/

namespace Verif.Spec

theorem bend_convex {g : ℝ → ℝ} {M : ℝ} (h : BendAtMost g M) {σ : ℝ} (hσ : |σ| ≤ 1) : ConvexOn ℝ Set.univ (fun t => M / 2 * t ^ 2 + σ * g t) := by
  have hd : ∀ t, HasDerivAt (fun t => M / 2 * t ^ 2 + σ * g t) (M * t + σ * deriv g t) t := by
    intro t
    have h1 : HasDerivAt (fun t : ℝ => M / 2 * t ^ 2) (M / 2 * (2 * t)) t := by
      simpa using (hasDerivAt_pow 2 t).const_mul (M / 2)
    have := h1.add ((h.1 t).hasDerivAt.const_mul σ)
    rwa [show M / 2 * (2 * t) = M * t by ring] at this
  refine Monotone.convexOn_univ_of_deriv (fun t => (hd t).differentiableAt) (fun s t hst => ?_)
  rw [(hd s).deriv, (hd t).deriv]
  have h1 := h.2 s t
  have h2 : |σ * (deriv g s - deriv g t)| ≤ M * (t - s) := by
    rw [abs_mul]
    rw [abs_sub_comm s t, abs_of_nonneg (sub_nonneg.2 hst)] at h1
    exact (mul_le_of_le_one_left (abs_nonneg _) hσ).trans h1
  have := (_root_.abs_le.1 h2).2
  linarith

/-- Between two frames. -/
theorem chord_near {g : ℝ → ℝ} {M : ℝ} (h : BendAtMost g M) (a : ℝ) {s : ℝ} (h0 : 0 ≤ s) (h1 : s ≤ 1) :
    |(1 - s) * g a + s * g (a + 1) - g (a + s)| ≤ M / 8 := by
  have hM : 0 ≤ M := by
    have := (abs_nonneg _).trans (h.2 1 0)
    simpa using this
  have c1 := (bend_convex h (σ := 1) (by simp)).2 (Set.mem_univ a) (Set.mem_univ (a + 1)) (sub_nonneg.2 h1) h0 (by ring)
  have c2 := (bend_convex h (σ := -1) (by simp)).2 (Set.mem_univ a) (Set.mem_univ (a + 1)) (sub_nonneg.2 h1) h0 (by ring)
  simp only [smul_eq_mul] at c1 c2
  rw [show (1 - s) * a + s * (a + 1) = a + s by ring] at c1 c2
  have hq : M * (s * (1 - s)) ≤ M * (1 / 4) := mul_le_mul_of_nonneg_left (by nlinarith [sq_nonneg (s - 1 / 2)]) hM
  rw [_root_.abs_le]
  constructor <;> nlinarith

/-- A sum of tones is as smooth as its tones. -/
theorem tones_slope {n : ℕ} {A ω θ : ℕ → ℝ} {Ω : ℝ} (h : ToneLimits n A ω Ω) : SlopeAtMost (tones n A ω θ) (loudness n A * Ω) := by
  intro s t
  unfold tones loudness
  rw [← Finset.sum_sub_distrib, Finset.sum_mul, Finset.sum_mul]
  refine (Finset.abs_sum_le_sum_abs _ _).trans (Finset.sum_le_sum (fun k hk => ?_))
  obtain ⟨a, b, c⟩ := h k (Finset.mem_range.1 hk)
  rw [← mul_sub, abs_mul, abs_of_nonneg a, mul_assoc]
  refine mul_le_mul_of_nonneg_left ?_ a
  refine (Real.abs_cos_sub_cos_le _ _).trans ?_
  rw [show ω k * s + θ k - (ω k * t + θ k) = ω k * (s - t) by ring, abs_mul, abs_of_nonneg b]
  exact mul_le_mul_of_nonneg_right c (abs_nonneg _)

theorem tones_deriv (n : ℕ) (A ω θ : ℕ → ℝ) (t : ℝ) :
    HasDerivAt (tones n A ω θ) (∑ k ∈ Finset.range n, A k * (-(ω k) * Real.sin (ω k * t + θ k))) t := by
  unfold tones
  refine HasDerivAt.fun_sum (fun k _ => ?_)
  refine HasDerivAt.const_mul _ ?_
  have h1 : HasDerivAt (fun t => ω k * t + θ k) (ω k) t := by simpa using ((hasDerivAt_id t).const_mul (ω k)).add_const (θ k)
  have := h1.cos
  rwa [show -Real.sin (ω k * t + θ k) * ω k = -(ω k) * Real.sin (ω k * t + θ k) by ring] at this

theorem tones_bend {n : ℕ} {A ω θ : ℕ → ℝ} {Ω : ℝ} (h : ToneLimits n A ω Ω) : BendAtMost (tones n A ω θ) (loudness n A * Ω ^ 2) := by
  refine ⟨fun t => (tones_deriv n A ω θ t).differentiableAt, fun s t => ?_⟩
  rw [(tones_deriv n A ω θ s).deriv, (tones_deriv n A ω θ t).deriv]
  unfold loudness
  rw [← Finset.sum_sub_distrib, Finset.sum_mul, Finset.sum_mul]
  refine (Finset.abs_sum_le_sum_abs _ _).trans (Finset.sum_le_sum (fun k hk => ?_))
  obtain ⟨a, b, c⟩ := h k (Finset.mem_range.1 hk)
  rw [← mul_sub, abs_mul, abs_of_nonneg a, mul_assoc]
  refine mul_le_mul_of_nonneg_left ?_ a
  rw [← mul_sub, abs_mul, abs_neg, abs_of_nonneg b]
  have h1 := Real.abs_sin_sub_sin_le (ω k * s + θ k) (ω k * t + θ k)
  rw [show ω k * s + θ k - (ω k * t + θ k) = ω k * (s - t) by ring, abs_mul, abs_of_nonneg b] at h1
  calc ω k * |Real.sin (ω k * s + θ k) - Real.sin (ω k * t + θ k)| ≤ ω k * (ω k * |s - t|) := mul_le_mul_of_nonneg_left h1 b
    _ = ω k * ω k * |s - t| := by ring
    _ ≤ Ω ^ 2 * |s - t| := mul_le_mul_of_nonneg_right (by nlinarith) (abs_nonneg _)

end Verif.Spec
