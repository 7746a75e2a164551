import Mathlib.Analysis.Fourier.PoissonSummation
import Mathlib.MeasureTheory.Integral.IntervalIntegral.FundThmCalculus
import Mathlib.Analysis.SpecialFunctions.Integrals.Basic

/-! Poisson's summation formula for the kernel of linear interpolation. -/

namespace Verif.Alias
open MeasureTheory Complex
open scoped FourierTransform

/-- Kernel of linear interpolation. -/
noncomputable def hat (x : ℝ) : ℝ := max 0 (1 - |x|)

/-- Its Fourier transform. -/
noncomputable def hatT (ξ : ℝ) : ℝ := if ξ = 0 then 1 else (2 - 2 * Real.cos ξ) / ξ ^ 2

theorem hat_continuous : Continuous hat := by unfold hat; fun_prop

theorem hat_zero {x : ℝ} (h : 1 ≤ |x|) : hat x = 0 := max_eq_left (by linarith)

theorem hat_left {x : ℝ} (h0 : -1 ≤ x) (h1 : x ≤ 0) : hat x = 1 + x := by
  unfold hat; rw [abs_of_nonpos h1, max_eq_right (by linarith)]; ring

theorem hat_right {x : ℝ} (h0 : 0 ≤ x) (h1 : x ≤ 1) : hat x = 1 - x := by
  unfold hat; rw [abs_of_nonneg h0, max_eq_right (by linarith)]

theorem hat_integral (ξ : ℝ) : ∫ x : ℝ, (hat x : ℂ) * cexp (I * (ξ * x)) = hatT ξ := by
  have hsupp : ∫ x : ℝ, (hat x : ℂ) * cexp (I * (ξ * x)) = ∫ x in (-1 : ℝ)..1, (hat x : ℂ) * cexp (I * (ξ * x)) := by
    rw [intervalIntegral.integral_of_le (by norm_num), ← integral_Icc_eq_integral_Ioc, ← setIntegral_eq_integral_of_forall_compl_eq_zero]
    intro x hx
    rw [hat_zero]
    · simp
    · by_contra h
      push Not at h
      rw [abs_lt] at h
      exact hx ⟨h.1.le, h.2.le⟩
  have hc : Continuous fun x : ℝ => (hat x : ℂ) * cexp (I * (ξ * x)) := by
    have := hat_continuous
    fun_prop
  rw [hsupp, ← intervalIntegral.integral_add_adjacent_intervals (b := 0) (hc.intervalIntegrable _ _) (hc.intervalIntegrable _ _)]
  have e1 : ∫ x in (-1 : ℝ)..0, (hat x : ℂ) * cexp (I * (ξ * x)) = ∫ x in (-1 : ℝ)..0, (1 + (x : ℂ)) * cexp (I * (ξ * x)) := by
    refine intervalIntegral.integral_congr (fun x hx => ?_)
    rw [Set.uIcc_of_le (by norm_num)] at hx
    simp only [hat_left hx.1 hx.2]
    push_cast
    ring
  have e2 : ∫ x in (0 : ℝ)..1, (hat x : ℂ) * cexp (I * (ξ * x)) = ∫ x in (0 : ℝ)..1, (1 - (x : ℂ)) * cexp (I * (ξ * x)) := by
    refine intervalIntegral.integral_congr (fun x hx => ?_)
    rw [Set.uIcc_of_le (by norm_num)] at hx
    simp only [hat_right hx.1 hx.2]
    push_cast
    ring
  rw [e1, e2]
  unfold hatT
  split_ifs with h0
  · subst h0
    have p1 : ∀ x ∈ Set.uIcc (-1 : ℝ) 0, HasDerivAt (fun x : ℝ => (x : ℂ) + (x : ℂ) ^ 2 / 2) ((1 + (x : ℂ)) * cexp (I * ((0 : ℝ) * x))) x := by
      intro x _
      have h := (hasDerivAt_id x).ofReal_comp
      have h2 := h.add ((h.pow 2).div_const 2)
      refine h2.congr_deriv ?_
      simp
    have p2 : ∀ x ∈ Set.uIcc (0 : ℝ) 1, HasDerivAt (fun x : ℝ => (x : ℂ) - (x : ℂ) ^ 2 / 2) ((1 - (x : ℂ)) * cexp (I * ((0 : ℝ) * x))) x := by
      intro x _
      have h := (hasDerivAt_id x).ofReal_comp
      have h2 := h.sub ((h.pow 2).div_const 2)
      refine h2.congr_deriv ?_
      simp
    rw [intervalIntegral.integral_eq_sub_of_hasDerivAt p1 (Continuous.intervalIntegrable (by fun_prop) _ _),
      intervalIntegral.integral_eq_sub_of_hasDerivAt p2 (Continuous.intervalIntegrable (by fun_prop) _ _)]
    push_cast
    ring
  · have z : (ξ : ℂ) ≠ 0 := by exact_mod_cast h0
    have c0 : (I * ξ : ℂ) ≠ 0 := mul_ne_zero I_ne_zero (by exact_mod_cast h0)
    have ex : ∀ x : ℝ, HasDerivAt (fun x : ℝ => cexp (I * (ξ * x))) (I * ξ * cexp (I * (ξ * x))) x := by
      intro x
      have h := (((hasDerivAt_id x).ofReal_comp).const_mul (I * (ξ : ℂ))).cexp
      refine (h.congr_deriv ?_).congr_of_eventuallyEq (Filter.Eventually.of_forall (fun y => ?_))
      · simp only [id]; push_cast; rw [mul_assoc I]; ring
      · simp only [id]; rw [mul_assoc]
    have p1 : ∀ x ∈ Set.uIcc (-1 : ℝ) 0, HasDerivAt (fun x : ℝ => (1 + (x : ℂ)) * cexp (I * (ξ * x)) / (I * ξ) - cexp (I * (ξ * x)) / (I * ξ) ^ 2)
        ((1 + (x : ℂ)) * cexp (I * (ξ * x))) x := by
      intro x _
      have h := (hasDerivAt_id x).ofReal_comp
      have h2 := (((h.const_add 1).mul (ex x)).div_const (I * ξ)).sub ((ex x).div_const ((I * ξ) ^ 2))
      refine h2.congr_deriv ?_
      simp only [id]
      field_simp
      push_cast
      ring
    have p2 : ∀ x ∈ Set.uIcc (0 : ℝ) 1, HasDerivAt (fun x : ℝ => (1 - (x : ℂ)) * cexp (I * (ξ * x)) / (I * ξ) + cexp (I * (ξ * x)) / (I * ξ) ^ 2)
        ((1 - (x : ℂ)) * cexp (I * (ξ * x))) x := by
      intro x _
      have h := (hasDerivAt_id x).ofReal_comp
      have h2 := (((h.const_sub 1).mul (ex x)).div_const (I * ξ)).add ((ex x).div_const ((I * ξ) ^ 2))
      refine h2.congr_deriv ?_
      simp only [id]
      field_simp
      push_cast
      ring
    rw [intervalIntegral.integral_eq_sub_of_hasDerivAt p1 (Continuous.intervalIntegrable (by fun_prop) _ _),
      intervalIntegral.integral_eq_sub_of_hasDerivAt p2 (Continuous.intervalIntegrable (by fun_prop) _ _)]
    have hcos : ((Real.cos ξ : ℝ) : ℂ) = (cexp (I * ξ) + cexp (-(I * ξ))) / 2 := by
      rw [ofReal_cos, Complex.cos]
      congr 2
      · congr 1; ring
      · congr 1; ring
    push_cast
    rw [← ofReal_cos, hcos]
    simp only [mul_one, mul_zero, Complex.exp_zero, mul_neg]
    rw [mul_pow, I_sq]
    field_simp
    ring

theorem hatT_nonneg (ξ : ℝ) : 0 ≤ hatT ξ := by
  unfold hatT
  split_ifs
  · norm_num
  · have := Real.cos_le_one ξ
    exact div_nonneg (by linarith) (sq_nonneg _)

theorem hatT_sq (ξ : ℝ) : hatT ξ * ξ ^ 2 = 2 - 2 * Real.cos ξ := by
  unfold hatT
  split_ifs with h
  · subst h; simp
  · field_simp

theorem hatT_le_one (ξ : ℝ) : hatT ξ ≤ 1 := by
  unfold hatT
  split_ifs with h
  · exact le_rfl
  · have := Real.one_sub_sq_div_two_le_cos (x := ξ)
    rw [div_le_one (by positivity)]
    linarith

/-- The Fourier transform of a shifted and scaled kernel times a complex exponential. -/
theorem hat_fourier {s : ℝ} (hs : 0 < s) (ω n w : ℝ) :
    𝓕 (fun x : ℝ => (hat (s * x - n) : ℂ) * cexp (I * (ω * x))) w = 1 / s * (cexp (I * ((ω - 2 * Real.pi * w) / s * n)) * hatT ((ω - 2 * Real.pi * w) / s)) := by
  rw [Real.fourier_real_eq_integral_exp_smul]
  have e : ∀ x : ℝ, cexp (((-2 * Real.pi * x * w : ℝ) : ℂ) * I) • ((hat (s * x - n) : ℂ) * cexp (I * (ω * x))) =
      (fun u : ℝ => cexp (I * ((ω - 2 * Real.pi * w) / s * n)) * ((hat u : ℂ) * cexp (I * (((ω - 2 * Real.pi * w) / s : ℝ) * u)))) (s * x - n) := by
    intro x
    have hs' : (s : ℂ) ≠ 0 := by exact_mod_cast hs.ne'
    simp only [smul_eq_mul]
    rw [mul_left_comm, ← Complex.exp_add, mul_left_comm (cexp (I * ((ω - 2 * Real.pi * w) / s * n))), ← Complex.exp_add]
    congr 2
    push_cast
    field_simp
    ring
  simp only [e]
  rw [Measure.integral_comp_mul_left (g := fun y => (fun u : ℝ => cexp (I * ((ω - 2 * Real.pi * w) / s * n)) * ((hat u : ℂ) * cexp (I * (((ω - 2 * Real.pi * w) / s : ℝ) * u)))) (y - n)) (a := s)]
  rw [integral_sub_right_eq_self (fun u : ℝ => cexp (I * ((ω - 2 * Real.pi * w) / s * n)) * ((hat u : ℂ) * cexp (I * (((ω - 2 * Real.pi * w) / s : ℝ) * u)))) n]
  rw [integral_const_mul, hat_integral, abs_of_pos (inv_pos.2 hs)]
  rw [Complex.real_smul]
  push_cast
  ring

theorem hatT_summable {s : ℝ} (hs : 0 < s) (ω : ℝ) : Summable fun m : ℤ => hatT ((ω - 2 * Real.pi * m) / s) := by
  have g : Summable fun m : ℤ => 4 * s ^ 2 * (1 / (m : ℝ) ^ 2) := (Real.summable_one_div_int_pow.2 (by norm_num : 1 < 2)).mul_left _
  refine Summable.of_norm_bounded_eventually g ?_
  have fin : {m : ℤ | |(m : ℝ)| ≤ |ω|}.Finite := by
    refine (Set.finite_Icc (-⌈|ω|⌉) ⌈|ω|⌉).subset (fun m hm => ?_)
    have h1 : |(m : ℝ)| ≤ ⌈|ω|⌉ := le_trans hm (Int.le_ceil _)
    rw [abs_le] at h1
    exact ⟨by exact_mod_cast h1.1, by exact_mod_cast h1.2⟩
  refine Filter.eventually_cofinite.2 (fin.subset (fun m hm => ?_))
  by_contra h
  apply hm
  simp only [Set.mem_ofPred_eq, not_le] at h
  have pi3 := Real.two_le_pi
  have hm0 : 0 < |(m : ℝ)| := lt_of_le_of_lt (abs_nonneg _) h
  have h2 : |(m : ℝ)| ≤ |ω - 2 * Real.pi * m| := by
    have := abs_sub_abs_le_abs_sub (2 * Real.pi * m) ω
    rw [abs_mul, abs_of_pos (by positivity : 0 < 2 * Real.pi), abs_sub_comm] at this
    nlinarith
  have hne : ω - 2 * Real.pi * m ≠ 0 := by
    intro h0
    rw [h0, abs_zero] at h2
    linarith
  rw [Real.norm_of_nonneg (hatT_nonneg _)]
  have h3 := hatT_sq ((ω - 2 * Real.pi * m) / s)
  have h4 := Real.neg_one_le_cos ((ω - 2 * Real.pi * m) / s)
  have h5 : (m : ℝ) ^ 2 ≤ (ω - 2 * Real.pi * m) ^ 2 := sq_le_sq.2 h2
  have hm2 : 0 < (m : ℝ) ^ 2 := by rw [← sq_abs]; positivity
  rw [div_pow] at h3
  have h6 : hatT ((ω - 2 * Real.pi * m) / s) * (ω - 2 * Real.pi * m) ^ 2 ≤ 4 * s ^ 2 := by
    have : hatT ((ω - 2 * Real.pi * m) / s) * (ω - 2 * Real.pi * m) ^ 2 = (hatT ((ω - 2 * Real.pi * m) / s) * ((ω - 2 * Real.pi * m) ^ 2 / s ^ 2)) * s ^ 2 := by
      field_simp
    rw [this, h3]
    nlinarith [sq_nonneg s]
  rw [mul_one_div, le_div_iff₀ hm2]
  nlinarith [hatT_nonneg ((ω - 2 * Real.pi * m) / s)]

/-- Poisson's formula for one kernel. -/
theorem hat_poisson {s : ℝ} (hs : 0 < s) (ω x n : ℝ) :
    HasSum (fun m : ℤ => cexp (I * ((ω - 2 * Real.pi * m) / s * n)) * hatT ((ω - 2 * Real.pi * m) / s) * cexp (2 * Real.pi * I * m * x))
      (s * ∑' k : ℤ, (hat (s * (x + k) - n) : ℂ) * cexp (I * (ω * (x + k)))) := by
  have hs' : (s : ℂ) ≠ 0 := by exact_mod_cast hs.ne'
  have sumT : Summable fun m : ℤ => cexp (I * ((ω - 2 * Real.pi * m) / s * n)) * hatT ((ω - 2 * Real.pi * m) / s) := by
    refine Summable.of_norm_bounded (hatT_summable hs ω) (fun m => ?_)
    rw [norm_mul, show I * ((ω - 2 * Real.pi * m) / s * n) = ((((ω - 2 * Real.pi * m) / s * n : ℝ)) : ℂ) * I by push_cast; ring, norm_exp_ofReal_mul_I, one_mul,
      norm_real, Real.norm_of_nonneg (hatT_nonneg _)]
  have cont : Continuous fun x : ℝ => (hat (s * x - n) : ℂ) * cexp (I * (ω * x)) := by
    have := hat_continuous
    fun_prop
  have dec : (fun x : ℝ => (hat (s * x - n) : ℂ) * cexp (I * (ω * x))) =O[Filter.cocompact ℝ] fun x : ℝ => |x| ^ (-(2 : ℝ)) := by
    refine Asymptotics.IsBigO.of_bound 0 ?_
    have : (Set.Icc (-((1 + |n|) / s)) ((1 + |n|) / s))ᶜ ∈ Filter.cocompact ℝ := isCompact_Icc.compl_mem_cocompact
    filter_upwards [this] with y hy
    rw [hat_zero]
    · simp
    · by_contra h
      push Not at h
      apply hy
      rw [abs_lt] at h
      have a1 := neg_abs_le n
      have a2 := le_abs_self n
      rw [Set.mem_Icc, ← neg_div, div_le_iff₀ hs, le_div_iff₀ hs]
      constructor <;> linarith
  have F := fun w => hat_fourier hs ω n w
  have key := Real.tsum_eq_tsum_fourier_of_rpow_decay_of_summable cont (by norm_num : (1 : ℝ) < 2) dec (by
    simp only [F]
    push_cast
    exact sumT.mul_left _) x
  simp only [F] at key
  push_cast at key
  rw [key, ← tsum_mul_left]
  have e : ∀ m : ℤ, (s : ℂ) * (1 / s * (cexp (I * ((ω - 2 * Real.pi * m) / s * n)) * hatT ((ω - 2 * Real.pi * m) / s)) * fourier m (x : UnitAddCircle)) =
      cexp (I * ((ω - 2 * Real.pi * m) / s * n)) * hatT ((ω - 2 * Real.pi * m) / s) * cexp (2 * Real.pi * I * m * x) := by
    intro m
    rw [fourier_coe_apply]
    simp only [ofReal_one, div_one]
    field_simp
  simp only [e]
  refine Summable.hasSum (Summable.of_norm_bounded (hatT_summable hs ω) (fun m => ?_))
  rw [norm_mul, norm_mul, show I * ((ω - 2 * Real.pi * m) / s * n) = ((((ω - 2 * Real.pi * m) / s * n : ℝ)) : ℂ) * I by push_cast; ring, norm_exp_ofReal_mul_I, one_mul,
      norm_real, Real.norm_of_nonneg (hatT_nonneg _), show 2 * Real.pi * I * m * x = ((2 * Real.pi * m * x : ℝ) : ℂ) * I by push_cast; ring, norm_exp_ofReal_mul_I, mul_one]

end Verif.Alias
