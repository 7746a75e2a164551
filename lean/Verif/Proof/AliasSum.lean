import Mathlib.Algebra.Order.BigOperators.Ring.Finset
import Verif.Proof.AliasHat

/-! Linear interpolation of a symmetric table, sampled at equal distances, applied to a sinusoid. -/

namespace Verif.Alias
open Complex

/-- The symmetric table `h`, with entries up to `L`, interpolated linearly. -/
noncomputable def interp (h : ℕ → ℝ) (L : ℕ) (u : ℝ) : ℝ := h 0 * hat u + ∑ n ∈ Finset.range L, h (n + 1) * (hat (u - ((n + 1 : ℕ) : ℝ)) + hat (u + ((n + 1 : ℕ) : ℝ)))

/-- Its transfer function. -/
noncomputable def spec (h : ℕ → ℝ) (L : ℕ) (ξ : ℝ) : ℝ := h 0 + ∑ n ∈ Finset.range L, h (n + 1) * (2 * Real.cos (((n + 1 : ℕ) : ℝ) * ξ))

theorem exp_pair (a : ℝ) : cexp (I * a) + cexp (I * (-a)) = ((2 * Real.cos a : ℝ) : ℂ) := by
  push_cast
  rw [Complex.cos, mul_comm I, mul_comm I]
  ring

theorem interp_zero {h : ℕ → ℝ} {L : ℕ} {u : ℝ} (hu : (L : ℝ) + 1 ≤ |u|) : interp h L u = 0 := by
  unfold interp
  rw [hat_zero (by have : (0 : ℝ) ≤ L := Nat.cast_nonneg L; linarith), mul_zero, zero_add]
  refine Finset.sum_eq_zero (fun n hn => ?_)
  have hn : ((n + 1 : ℕ) : ℝ) ≤ L := by exact_mod_cast Finset.mem_range.1 hn
  have n0 : (0 : ℝ) ≤ ((n + 1 : ℕ) : ℝ) := Nat.cast_nonneg _
  have a := abs_sub_abs_le_abs_sub u ((n + 1 : ℕ) : ℝ)
  have b := abs_sub_abs_le_abs_sub u (-((n + 1 : ℕ) : ℝ))
  rw [sub_neg_eq_add, abs_neg] at b
  rw [abs_of_nonneg n0] at a b
  rw [hat_zero (by linarith), hat_zero (by linarith)]
  ring

/-- Only finitely many samples are not zero. -/
theorem interp_finite (h : ℕ → ℝ) (L : ℕ) {s : ℝ} (hs : 0 < s) (x : ℝ) : {k : ℤ | interp h L (s * (x + k)) ≠ 0}.Finite := by
  refine (Set.finite_Icc ⌊-(((L : ℝ) + 1) / s) - x⌋ ⌈((L : ℝ) + 1) / s - x⌉).subset (fun k hk => ?_)
  have hk : |s * (x + k)| < (L : ℝ) + 1 := by
    by_contra h
    exact hk (interp_zero (not_lt.1 h))
  rw [abs_mul, abs_of_pos hs, ← lt_div_iff₀' hs, abs_lt] at hk
  constructor
  · have := Int.floor_le (-(((L : ℝ) + 1) / s) - x)
    have : (⌊-(((L : ℝ) + 1) / s) - x⌋ : ℝ) < k := by linarith [hk.1]
    exact_mod_cast this.le
  · have := Int.le_ceil (((L : ℝ) + 1) / s - x)
    have : (k : ℝ) < ⌈((L : ℝ) + 1) / s - x⌉ := by linarith [hk.2]
    exact_mod_cast this.le

theorem hat_finite {s : ℝ} (hs : 0 < s) (x n : ℝ) : {k : ℤ | hat (s * (x + k) - n) ≠ 0}.Finite := by
  refine (Set.finite_Icc ⌊(n - 1) / s - x⌋ ⌈(n + 1) / s - x⌉).subset (fun k hk => ?_)
  have hk : |s * (x + k) - n| < 1 := by
    by_contra h
    exact hk (hat_zero (not_lt.1 h))
  rw [abs_lt] at hk
  have k1 : (n - 1) / s < x + k := by rw [div_lt_iff₀ hs]; linarith
  have k2 : x + k < (n + 1) / s := by rw [lt_div_iff₀ hs]; linarith
  constructor
  · have := Int.floor_le ((n - 1) / s - x)
    have : (⌊(n - 1) / s - x⌋ : ℝ) < k := by linarith
    exact_mod_cast this.le
  · have := Int.le_ceil ((n + 1) / s - x)
    have : (k : ℝ) < ⌈(n + 1) / s - x⌉ := by linarith
    exact_mod_cast this.le

/-- Poisson's formula for the table. -/
theorem interp_poisson (h : ℕ → ℝ) (L : ℕ) {s : ℝ} (hs : 0 < s) (ω x : ℝ) :
    HasSum (fun m : ℤ => ((spec h L ((ω - 2 * Real.pi * m) / s) * hatT ((ω - 2 * Real.pi * m) / s) : ℝ) : ℂ) * cexp (2 * Real.pi * I * m * x))
      (s * ∑' k : ℤ, (interp h L (s * (x + k)) : ℂ) * cexp (I * (ω * (x + k)))) := by
  have sm : ∀ n : ℝ, Summable fun k : ℤ => (hat (s * (x + k) - n) : ℂ) * cexp (I * (ω * (x + k))) := fun n =>
    summable_of_hasFiniteSupport ((hat_finite hs x n).subset (fun k hk => by
      intro h0
      apply hk
      show (hat (s * (x + k) - n) : ℂ) * _ = 0
      rw [h0]; simp))
  have P := fun n : ℝ => hat_poisson hs ω x n
  have pair := fun n : ℕ => ((P ((n + 1 : ℕ) : ℝ)).add (P (-((n + 1 : ℕ) : ℝ)))).mul_left (h (n + 1) : ℂ)
  have all := ((P 0).mul_left (h 0 : ℂ)).add (hasSum_sum (s := Finset.range L) (fun n _ => pair n))
  have e1 : (fun m : ℤ => ((spec h L ((ω - 2 * Real.pi * m) / s) * hatT ((ω - 2 * Real.pi * m) / s) : ℝ) : ℂ) * cexp (2 * Real.pi * I * m * x)) =
      fun m : ℤ => (h 0 : ℂ) * (cexp (I * ((ω - 2 * Real.pi * m) / s * (0 : ℝ))) * hatT ((ω - 2 * Real.pi * m) / s) * cexp (2 * Real.pi * I * m * x)) +
        ∑ n ∈ Finset.range L, (h (n + 1) : ℂ) * (cexp (I * ((ω - 2 * Real.pi * m) / s * ((n + 1 : ℕ) : ℝ))) * hatT ((ω - 2 * Real.pi * m) / s) * cexp (2 * Real.pi * I * m * x) +
          cexp (I * ((ω - 2 * Real.pi * m) / s * (-((n + 1 : ℕ) : ℝ) : ℝ))) * hatT ((ω - 2 * Real.pi * m) / s) * cexp (2 * Real.pi * I * m * x)) := by
    ext m
    have q : ∀ n : ℕ, cexp (I * ((ω - 2 * Real.pi * m) / s * ((n + 1 : ℕ) : ℝ))) + cexp (I * ((ω - 2 * Real.pi * m) / s * (-((n + 1 : ℕ) : ℝ) : ℝ))) =
        ((2 * Real.cos (((n + 1 : ℕ) : ℝ) * ((ω - 2 * Real.pi * m) / s)) : ℝ) : ℂ) := by
      intro n
      rw [← exp_pair]
      congr 2 <;> push_cast <;> ring
    have r : ∀ n : ℕ, (h (n + 1) : ℂ) * (cexp (I * ((ω - 2 * Real.pi * m) / s * ((n + 1 : ℕ) : ℝ))) * hatT ((ω - 2 * Real.pi * m) / s) * cexp (2 * Real.pi * I * m * x) +
          cexp (I * ((ω - 2 * Real.pi * m) / s * (-((n + 1 : ℕ) : ℝ) : ℝ))) * hatT ((ω - 2 * Real.pi * m) / s) * cexp (2 * Real.pi * I * m * x)) =
        (h (n + 1) : ℂ) * ((2 * Real.cos (((n + 1 : ℕ) : ℝ) * ((ω - 2 * Real.pi * m) / s)) : ℝ) : ℂ) * (hatT ((ω - 2 * Real.pi * m) / s) * cexp (2 * Real.pi * I * m * x)) := by
      intro n
      rw [← q]; ring
    simp only [r]
    rw [← Finset.sum_mul]
    unfold spec
    push_cast
    rw [mul_zero, mul_zero, Complex.exp_zero]
    ring
  have e2 : (s : ℂ) * ∑' k : ℤ, (interp h L (s * (x + k)) : ℂ) * cexp (I * (ω * (x + k))) =
      (h 0 : ℂ) * (s * ∑' k : ℤ, (hat (s * (x + k) - 0) : ℂ) * cexp (I * (ω * (x + k)))) +
        ∑ n ∈ Finset.range L, (h (n + 1) : ℂ) * (s * (∑' k : ℤ, (hat (s * (x + k) - ((n + 1 : ℕ) : ℝ)) : ℂ) * cexp (I * (ω * (x + k)))) +
          s * ∑' k : ℤ, (hat (s * (x + k) - (-((n + 1 : ℕ) : ℝ))) : ℂ) * cexp (I * (ω * (x + k)))) := by
    have g0 := ((sm 0).hasSum.mul_left (h 0 : ℂ)).add (hasSum_sum (s := Finset.range L) (fun n _ => ((sm ((n + 1 : ℕ) : ℝ)).hasSum.add (sm (-((n + 1 : ℕ) : ℝ))).hasSum).mul_left (h (n + 1) : ℂ)))
    have g1 := (tsum_congr (f := fun k : ℤ => (interp h L (s * (x + k)) : ℂ) * cexp (I * (ω * (x + k)))) (fun k => by
      unfold interp
      push_cast
      rw [add_mul, Finset.sum_mul, sub_zero, mul_assoc]
      congr 1
      refine Finset.sum_congr rfl (fun n _ => ?_)
      rw [sub_neg_eq_add]
      ring)).trans g0.tsum_eq
    rw [g1, mul_add, Finset.mul_sum]
    congr 1
    · ring
    · exact Finset.sum_congr rfl (fun n _ => by ring)
  rw [e1, e2]
  exact all

/-- A sum that converges is as close to one of its terms as the others are small. -/
theorem hasSum_near {f : ℤ → ℝ} {a X : ℝ} (h : HasSum f a) (hX : ∀ S : Finset ℤ, 0 ∉ S → ∑ m ∈ S, |f m| ≤ X) : |a - f 0| ≤ X := by
  have t : Filter.Tendsto (fun S : Finset ℤ => |∑ m ∈ S, f m - f 0|) Filter.atTop (nhds |a - f 0|) := (Filter.Tendsto.sub_const h (f 0)).abs
  refine le_of_tendsto t ?_
  filter_upwards [Filter.eventually_ge_atTop {(0 : ℤ)}] with S hS
  have h0 : (0 : ℤ) ∈ S := hS (Finset.mem_singleton_self 0)
  rw [← Finset.add_sum_erase S f h0, add_sub_cancel_left]
  exact (Finset.abs_sum_le_sum_abs _ _).trans (hX _ (Finset.notMem_erase 0 S))

/-- Filtering a sinusoid with the table, up to images. -/
theorem tone_sum (h : ℕ → ℝ) (L : ℕ) {s : ℝ} (hs : 0 < s) (ω τ θ : ℝ) {X : ℝ}
    (hX : ∀ S : Finset ℤ, 0 ∉ S → ∑ m ∈ S, |spec h L ((ω - 2 * Real.pi * m) / s) * hatT ((ω - 2 * Real.pi * m) / s)| ≤ X) :
    |s * ∑' k : ℤ, interp h L (s * (k - τ)) * Real.cos (ω * k + θ) - spec h L (ω / s) * hatT (ω / s) * Real.cos (ω * τ + θ)| ≤ X := by
  have P := (interp_poisson h L hs ω (-τ)).mul_left (cexp (I * ((ω * τ + θ : ℝ) : ℂ)))
  have R := Complex.hasSum_re P
  have sm : Summable fun k : ℤ => (interp h L (s * (-τ + k)) : ℂ) * cexp (I * (ω * (((-τ : ℝ) : ℂ) + k))) :=
    summable_of_hasFiniteSupport ((interp_finite h L hs (-τ)).subset (fun k hk => by
      intro h0
      apply hk
      show (interp h L (s * (-τ + k)) : ℂ) * _ = 0
      rw [h0]; simp))
  have e1 : (cexp (I * ((ω * τ + θ : ℝ) : ℂ)) * (s * ∑' k : ℤ, (interp h L (s * (-τ + k)) : ℂ) * cexp (I * (ω * (((-τ : ℝ) : ℂ) + k))))).re =
      s * ∑' k : ℤ, interp h L (s * (k - τ)) * Real.cos (ω * k + θ) := by
    rw [mul_left_comm, Complex.re_ofReal_mul, ← tsum_mul_left, Complex.re_tsum (sm.mul_left _)]
    congr 1
    refine tsum_congr (fun k => ?_)
    rw [mul_left_comm, Complex.re_ofReal_mul, ← Complex.exp_add]
    have : I * ((ω * τ + θ : ℝ) : ℂ) + I * (ω * (((-τ : ℝ) : ℂ) + k)) = ((ω * k + θ : ℝ) : ℂ) * I := by push_cast; ring
    rw [this, Complex.exp_ofReal_mul_I_re, neg_add_eq_sub]
  rw [e1] at R
  have near := hasSum_near R (X := X) (fun S hS => by
    refine le_trans (Finset.sum_le_sum (fun m _ => ?_)) (hX S hS)
    refine (Complex.abs_re_le_norm _).trans ?_
    have n1 : ‖cexp (I * ((ω * τ + θ : ℝ) : ℂ))‖ = 1 := by rw [mul_comm]; exact Complex.norm_exp_ofReal_mul_I _
    have n2 : ‖cexp (2 * Real.pi * I * m * ((-τ : ℝ) : ℂ))‖ = 1 := by
      have : 2 * Real.pi * I * m * ((-τ : ℝ) : ℂ) = ((2 * Real.pi * m * (-τ) : ℝ) : ℂ) * I := by push_cast; ring
      rw [this]; exact Complex.norm_exp_ofReal_mul_I _
    rw [norm_mul, norm_mul, n1, n2, one_mul, mul_one, Complex.norm_real, Real.norm_eq_abs])
  have e0 : (cexp (I * ((ω * τ + θ : ℝ) : ℂ)) * (((spec h L ((ω - 2 * Real.pi * (0 : ℤ)) / s) * hatT ((ω - 2 * Real.pi * (0 : ℤ)) / s) : ℝ) : ℂ) * cexp (2 * Real.pi * I * (0 : ℤ) * ((-τ : ℝ) : ℂ)))).re =
      spec h L (ω / s) * hatT (ω / s) * Real.cos (ω * τ + θ) := by
    rw [Int.cast_zero, Int.cast_zero, mul_zero, mul_zero, zero_mul, sub_zero, Complex.exp_zero, mul_one, mul_comm, Complex.re_ofReal_mul, mul_comm I, Complex.exp_ofReal_mul_I_re]
  rw [e0] at near
  exact near

/-- The second differences of the table. -/
def diff2 (h : ℕ → ℝ) : ℕ → ℝ
  | 0 => 2 * h 0 - 2 * h 1
  | n + 1 => 2 * h (n + 1) - h n - h (n + 2)

theorem spec_diff2 (h : ℕ → ℝ) (ξ : ℝ) : ∀ L, (2 - 2 * Real.cos ξ) * spec h L ξ =
    spec (diff2 h) L ξ + 2 * (h (L + 1) * Real.cos (L * ξ) - h L * Real.cos ((L + 1 : ℕ) * ξ))
  | 0 => by simp [spec, diff2]; ring
  | L + 1 => by
    have ih := spec_diff2 h ξ L
    have e : ∀ f : ℕ → ℝ, spec f (L + 1) ξ = spec f L ξ + f (L + 1) * (2 * Real.cos (((L + 1 : ℕ) : ℝ) * ξ)) := fun f => by
      unfold spec; rw [Finset.sum_range_succ, add_assoc]
    have c : Real.cos (((L + 1 + 1 : ℕ) : ℝ) * ξ) + Real.cos ((L : ℝ) * ξ) = 2 * Real.cos ξ * Real.cos (((L + 1 : ℕ) : ℝ) * ξ) := by
      have a : ((L + 1 + 1 : ℕ) : ℝ) * ξ = ((L + 1 : ℕ) : ℝ) * ξ + ξ := by push_cast; ring
      have b : (L : ℝ) * ξ = ((L + 1 : ℕ) : ℝ) * ξ - ξ := by push_cast; ring
      rw [a, b, Real.cos_add, Real.cos_sub]; ring
    rw [e, e, mul_add, ih]
    simp only [diff2]
    linear_combination (2 * h (L + 1)) * c

/-- The transfer function of the interpolated table from that of its second differences. -/
theorem spec_hatT (h : ℕ → ℝ) {L : ℕ} (h0 : h (L + 2) = 0) (ξ : ℝ) :
    |spec h (L + 1) ξ * hatT ξ| * ξ ^ 2 ≤ |spec (diff2 h) L ξ| + (2 * |diff2 h (L + 1)| + 2 * |h (L + 1)|) := by
  have e := spec_diff2 h ξ (L + 1)
  have e' : spec (diff2 h) (L + 1) ξ = spec (diff2 h) L ξ + diff2 h (L + 1) * (2 * Real.cos (((L + 1 : ℕ) : ℝ) * ξ)) := by
    unfold spec; rw [Finset.sum_range_succ, add_assoc]
  rw [h0, zero_mul, zero_sub, ← hatT_sq ξ, e'] at e
  have l : |spec h (L + 1) ξ * hatT ξ| * ξ ^ 2 = |spec (diff2 h) L ξ + (diff2 h (L + 1) * (2 * Real.cos (((L + 1 : ℕ) : ℝ) * ξ)) + 2 * -(h (L + 1) * Real.cos (((L + 1 + 1 : ℕ) : ℝ) * ξ)))| := by
    rw [← add_assoc, ← e, ← abs_of_nonneg (sq_nonneg ξ), ← abs_mul]
    congr 1
    rw [abs_of_nonneg (sq_nonneg ξ)]; ring
  rw [l]
  refine (abs_add_le _ _).trans (add_le_add le_rfl ((abs_add_le _ _).trans (add_le_add ?_ ?_)))
  · rw [abs_mul, abs_mul, abs_two]
    nlinarith [Real.abs_cos_le_one (((L + 1 : ℕ) : ℝ) * ξ), abs_nonneg (diff2 h (L + 1))]
  · rw [abs_mul, abs_neg, abs_mul, abs_two]
    nlinarith [Real.abs_cos_le_one (((L + 1 + 1 : ℕ) : ℝ) * ξ), abs_nonneg (h (L + 1))]

end Verif.Alias
