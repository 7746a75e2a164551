import Mathlib.Analysis.Convex.Deriv
import Mathlib.Analysis.SpecialFunctions.Trigonometric.Deriv
import Verif.Proof.SineCheck

/-! From the frequencies and phases of the check to all frequencies. -/

namespace Verif.Sine

theorem convex_add_cos : ConvexOn ℝ Set.univ (fun x : ℝ => x ^ 2 / 2 + Real.cos x) := by
  have d1 : deriv (fun x : ℝ => x ^ 2 / 2 + Real.cos x) = fun x => x - Real.sin x := by
    ext x
    have h : HasDerivAt (fun x : ℝ => x ^ 2 / 2 + Real.cos x) (2 * x / 2 + -Real.sin x) x := by
      refine (((hasDerivAt_pow 2 x).div_const 2).fun_add (Real.hasDerivAt_cos x)).congr_deriv ?_
      simp
    rw [h.deriv]; ring
  refine convexOn_univ_of_deriv2_nonneg (by fun_prop) (by rw [d1]; fun_prop) (fun x => ?_)
  have d2 : deriv^[2] (fun x : ℝ => x ^ 2 / 2 + Real.cos x) x = 1 - Real.cos x := by
    rw [Function.iterate_succ, Function.iterate_one, Function.comp_apply, d1]
    exact ((hasDerivAt_id x).sub (Real.hasDerivAt_sin x)).deriv
  rw [d2]
  linarith [Real.cos_le_one x]

theorem convex_sub_cos : ConvexOn ℝ Set.univ (fun x : ℝ => x ^ 2 / 2 - Real.cos x) := by
  have d1 : deriv (fun x : ℝ => x ^ 2 / 2 - Real.cos x) = fun x => x + Real.sin x := by
    ext x
    have h : HasDerivAt (fun x : ℝ => x ^ 2 / 2 - Real.cos x) (2 * x / 2 - -Real.sin x) x := by
      refine (((hasDerivAt_pow 2 x).div_const 2).fun_sub (Real.hasDerivAt_cos x)).congr_deriv ?_
      simp
    rw [h.deriv]; ring
  refine convexOn_univ_of_deriv2_nonneg (by fun_prop) (by rw [d1]; fun_prop) (fun x => ?_)
  have d2 : deriv^[2] (fun x : ℝ => x ^ 2 / 2 - Real.cos x) x = 1 + Real.cos x := by
    rw [Function.iterate_succ, Function.iterate_one, Function.comp_apply, d1]
    exact ((hasDerivAt_id x).add (Real.hasDerivAt_sin x)).deriv
  rw [d2]
  linarith [Real.neg_one_le_cos x]

/-- Linear interpolation of the cosine. -/
theorem cos_lerp (a b : ℝ) {t : ℝ} (t0 : 0 ≤ t) (t1 : t ≤ 1) : |(1 - t) * Real.cos a + t * Real.cos b - Real.cos ((1 - t) * a + t * b)| ≤ (b - a) ^ 2 / 8 := by
  have h1 := convex_add_cos.2 (Set.mem_univ a) (Set.mem_univ b) (sub_nonneg.2 t1) t0 (by ring)
  have h2 := convex_sub_cos.2 (Set.mem_univ a) (Set.mem_univ b) (sub_nonneg.2 t1) t0 (by ring)
  simp only [smul_eq_mul] at h1 h2
  have e : (1 - t) * (a ^ 2 / 2) + t * (b ^ 2 / 2) - ((1 - t) * a + t * b) ^ 2 / 2 ≤ (b - a) ^ 2 / 8 := by
    nlinarith [sq_nonneg ((2 * t - 1) * (b - a))]
  rw [abs_le]
  constructor <;> nlinarith

/-- The filter at table phase `p`, applied to a cosine whose phase at this position is `ψ`; `α` is the angle per table entry. -/
noncomputable def wave (h : ℕ → ℝ) (inc K : ℕ) (α ψ : ℝ) (p : ℕ) : ℝ :=
  ∑ m ∈ Finset.range K, (h (p + m * inc) * Real.cos (ψ - ((p + m * inc : ℕ) : ℝ) * α) + h (inc - p + m * inc) * Real.cos (ψ + ((inc - p + m * inc : ℕ) : ℝ) * α))

theorem wave_grid {h : ℕ → ℝ} {inc K p : ℕ} {κ α β : ℝ} (hp : p ≤ inc) (h1 : |errCos h inc K κ α p| ≤ β) (h2 : |errSin h inc K κ α p| ≤ β) (ψ : ℝ) :
    |wave h inc K α ψ p - κ * Real.cos ψ| ≤ 2 * β := by
  have e : wave h inc K α ψ p - κ * Real.cos ψ = Real.cos (ψ - p * α) * errCos h inc K κ α p - Real.sin (ψ - p * α) * errSin h inc K κ α p := by
    unfold wave errCos errSin
    rw [mul_sub, mul_sub, Finset.mul_sum, Finset.mul_sum]
    have c : κ * Real.cos ψ = Real.cos (ψ - p * α) * (κ * Real.cos (p * α)) - Real.sin (ψ - p * α) * (κ * Real.sin (p * α)) := by
      have : Real.cos ψ = Real.cos (ψ - p * α) * Real.cos (p * α) - Real.sin (ψ - p * α) * Real.sin (p * α) := by
        rw [← Real.cos_add]; congr 1; ring
      rw [this]; ring
    rw [c, show ∀ a b c d : ℝ, a - b - (c - d) = (a - c) - (b - d) by intros; ring, ← Finset.sum_sub_distrib]
    congr 1
    refine Finset.sum_congr rfl (fun m _ => ?_)
    have c1 : Real.cos (ψ - ((p + m * inc : ℕ) : ℝ) * α) = Real.cos (ψ - p * α) * Real.cos (m * (inc * α)) + Real.sin (ψ - p * α) * Real.sin (m * (inc * α)) := by
      rw [← Real.cos_sub]; congr 1; push_cast; ring
    have c2 : Real.cos (ψ + ((inc - p + m * inc : ℕ) : ℝ) * α) = Real.cos (ψ - p * α) * Real.cos ((m + 1) * (inc * α)) - Real.sin (ψ - p * α) * Real.sin ((m + 1) * (inc * α)) := by
      rw [← Real.cos_add]; congr 1; push_cast [Nat.cast_sub hp]; ring
    rw [c1, c2]
    ring
  rw [e]
  have b1 := Real.abs_cos_le_one (ψ - p * α)
  have b2 := Real.abs_sin_le_one (ψ - p * α)
  refine (abs_sub _ _).trans ?_
  rw [abs_mul, abs_mul]
  have := mul_le_mul b1 h1 (abs_nonneg _) (by norm_num)
  have := mul_le_mul b2 h2 (abs_nonneg _) (by norm_num)
  linarith

/-- Second moment of the table. -/
noncomputable def moment (h : ℕ → ℝ) (inc K p : ℕ) : ℝ :=
  ∑ m ∈ Finset.range K, (|h (p + m * inc)| * ((p + m * inc : ℕ) : ℝ) ^ 2 + |h (inc - p + m * inc)| * ((inc - p + m * inc : ℕ) : ℝ) ^ 2)

theorem wave_lerp {h : ℕ → ℝ} {inc K p : ℕ} (α₀ α₁ ψ : ℝ) {t : ℝ} (t0 : 0 ≤ t) (t1 : t ≤ 1) :
    |(1 - t) * wave h inc K α₀ ψ p + t * wave h inc K α₁ ψ p - wave h inc K ((1 - t) * α₀ + t * α₁) ψ p| ≤ moment h inc K p * (α₁ - α₀) ^ 2 / 8 := by
  unfold wave moment
  rw [Finset.mul_sum, Finset.mul_sum, ← Finset.sum_add_distrib, ← Finset.sum_sub_distrib, Finset.sum_mul, Finset.sum_div]
  refine (Finset.abs_sum_le_sum_abs _ _).trans (Finset.sum_le_sum (fun m _ => ?_))
  have one : ∀ (g u : ℝ), |(1 - t) * (g * Real.cos (ψ + u * α₀)) + t * (g * Real.cos (ψ + u * α₁)) - g * Real.cos (ψ + u * ((1 - t) * α₀ + t * α₁))| ≤
      |g| * u ^ 2 * (α₁ - α₀) ^ 2 / 8 := by
    intro g u
    have := cos_lerp (ψ + u * α₀) (ψ + u * α₁) t0 t1
    rw [show (1 - t) * (ψ + u * α₀) + t * (ψ + u * α₁) = ψ + u * ((1 - t) * α₀ + t * α₁) by ring] at this
    rw [show (1 - t) * (g * Real.cos (ψ + u * α₀)) + t * (g * Real.cos (ψ + u * α₁)) - g * Real.cos (ψ + u * ((1 - t) * α₀ + t * α₁)) =
      g * ((1 - t) * Real.cos (ψ + u * α₀) + t * Real.cos (ψ + u * α₁) - Real.cos (ψ + u * ((1 - t) * α₀ + t * α₁))) by ring, abs_mul]
    refine (mul_le_mul_of_nonneg_left this (abs_nonneg g)).trans (le_of_eq ?_)
    ring
  have a := one (h (p + m * inc)) (-((p + m * inc : ℕ) : ℝ))
  have b := one (h (inc - p + m * inc)) ((inc - p + m * inc : ℕ) : ℝ)
  rw [neg_sq] at a
  simp only [neg_mul, ← sub_eq_add_neg] at a
  rw [abs_le] at *
  constructor <;> linarith

/-- The values `κ 0`, `κ 1`, ... at the whole numbers, joined by straight lines. -/
noncomputable def gainAt (κ : ℕ → ℝ) (x : ℝ) : ℝ := (1 - (x - ⌊x⌋₊)) * κ ⌊x⌋₊ + (x - ⌊x⌋₊) * κ (⌊x⌋₊ + 1)

theorem gainAt_nat (κ : ℕ → ℝ) (j : ℕ) : gainAt κ j = κ j := by
  unfold gainAt
  rw [Nat.floor_natCast]
  ring

theorem gainAt_const (v x : ℝ) : gainAt (fun _ => v) x = v := by
  unfold gainAt
  ring

theorem gainAt_mem {κ : ℕ → ℝ} {a b : ℝ} {J : ℕ} (h : ∀ j ≤ J, a ≤ κ j ∧ κ j ≤ b) {x : ℝ} (x0 : 0 ≤ x) (xJ : x ≤ J) : a ≤ gainAt κ x ∧ gainAt κ x ≤ b := by
  have f0 := Nat.floor_le x0
  have f1 := Nat.lt_floor_add_one x
  have jJ : ⌊x⌋₊ ≤ J := by exact_mod_cast f0.trans xJ
  rcases eq_or_lt_of_le jJ with e | l
  · have : x = (J : ℕ) := le_antisymm xJ (by rw [← e]; exact f0)
    rw [this, gainAt_nat]
    exact h J le_rfl
  · have h1 := h _ jJ
    have h2 := h _ l
    unfold gainAt
    have t0 : 0 ≤ x - ⌊x⌋₊ := by linarith
    have t1 : 0 ≤ 1 - (x - ⌊x⌋₊) := by linarith
    constructor <;> nlinarith [h1.1, h1.2, h2.1, h2.2]

/-- All frequencies up to `J * Δ`. -/
theorem wave_all {h : ℕ → ℝ} {inc K J : ℕ} {κ : ℕ → ℝ} {Δ β D : ℝ} (hΔ : 0 < Δ)
    (hg : ∀ j ≤ J, ∀ p ≤ inc, |errCos h inc K (κ j) (j * Δ) p| ≤ β ∧ |errSin h inc K (κ j) (j * Δ) p| ≤ β) (hD : ∀ p ≤ inc, moment h inc K p ≤ D)
    {α : ℝ} (a0 : 0 ≤ α) (a1 : α ≤ J * Δ) (ψ : ℝ) {p : ℕ} (hp : p ≤ inc) : |wave h inc K α ψ p - gainAt κ (α / Δ) * Real.cos ψ| ≤ 2 * β + D * Δ ^ 2 / 8 := by
  have hb : 0 ≤ β := (abs_nonneg _).trans (hg 0 (Nat.zero_le _) p hp).1
  have hd : 0 ≤ D := le_trans (Finset.sum_nonneg (fun _ _ => by positivity)) (hD p hp)
  have x0 : 0 ≤ α / Δ := div_nonneg a0 hΔ.le
  have f0 := Nat.floor_le x0
  have f1 := Nat.lt_floor_add_one (α / Δ)
  have xJ : α / Δ ≤ J := by rw [div_le_iff₀ hΔ]; exact a1
  have ea : α = α / Δ * Δ := by field_simp
  have jJ : ⌊α / Δ⌋₊ ≤ J := by exact_mod_cast f0.trans xJ
  rcases eq_or_lt_of_le jJ with e | l
  · have : α / Δ = (J : ℕ) := le_antisymm xJ (by rw [← e]; exact f0)
    rw [this, gainAt_nat]
    rw [ea, this]
    have := wave_grid hp (hg J le_rfl p hp).1 (hg J le_rfl p hp).2 ψ
    have : 0 ≤ D * Δ ^ 2 / 8 := by positivity
    linarith
  · unfold gainAt
    set j := ⌊α / Δ⌋₊ with hj
    have g0 := wave_grid hp (hg j jJ p hp).1 (hg j jJ p hp).2 ψ
    have g1 := wave_grid hp (hg (j + 1) l p hp).1 (hg (j + 1) l p hp).2 ψ
    have t0 : 0 ≤ α / Δ - j := by linarith
    have t1 : α / Δ - j ≤ 1 := by linarith
    have w := wave_lerp (h := h) (inc := inc) (K := K) (p := p) (j * Δ) (((j + 1 : ℕ) : ℝ) * Δ) ψ t0 t1
    have e2 : (1 - (α / Δ - j)) * (j * Δ) + (α / Δ - j) * (((j + 1 : ℕ) : ℝ) * Δ) = α := by
      push_cast
      field_simp
      ring
    rw [e2, show ((j + 1 : ℕ) : ℝ) * Δ - j * Δ = Δ by push_cast; ring] at w
    have hm : moment h inc K p * Δ ^ 2 / 8 ≤ D * Δ ^ 2 / 8 := by have := hD p hp; gcongr
    clear_value j
    generalize α / Δ - j = t at *
    rw [abs_le] at *
    have := sub_nonneg.2 t1
    constructor <;> nlinarith

end Verif.Sine
