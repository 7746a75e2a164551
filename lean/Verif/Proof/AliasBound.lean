import Mathlib.Algebra.Field.GeomSum
import Verif.Proof.AliasSum
import Verif.Proof.SineWave

/-! Transfer functions away from the pass band. -/

namespace Verif.Alias
open Complex

/-! ### sums over a table and over its phases -/

/-- Both halves of the symmetric table. -/
noncomputable def full (h : ℕ → ℝ) (M : ℕ) (ξ : ℝ) : ℝ :=
  ∑ n ∈ Finset.range M, h n * Real.cos (n * ξ) + ∑ n ∈ Finset.range M, h (n + 1) * Real.cos ((n + 1 : ℕ) * ξ)

theorem full_eq {h : ℕ → ℝ} {L M : ℕ} (h0 : ∀ n, L < n → h n = 0) (hM : L < M) (ξ : ℝ) : full h M ξ = spec h L ξ := by
  obtain ⟨M, rfl⟩ : ∃ M', M = M' + 1 := ⟨M - 1, by omega⟩
  unfold full spec
  rw [Finset.sum_range_succ', Finset.sum_range_succ (fun n => h (n + 1) * _), h0 (M + 1) hM, zero_mul, add_zero, Nat.cast_zero, zero_mul, Real.cos_zero, mul_one]
  have e : ∑ n ∈ Finset.range L, h (n + 1) * (2 * Real.cos (((n + 1 : ℕ) : ℝ) * ξ)) = ∑ n ∈ Finset.range M, h (n + 1) * (2 * Real.cos (((n + 1 : ℕ) : ℝ) * ξ)) := by
    refine Finset.sum_subset (Finset.range_mono (by omega)) (fun n _ hn => ?_)
    rw [h0 (n + 1) (by have := Finset.mem_range.not.1 hn; omega), zero_mul]
  rw [e]
  have : ∑ n ∈ Finset.range M, h (n + 1) * (2 * Real.cos (((n + 1 : ℕ) : ℝ) * ξ)) = 2 * ∑ n ∈ Finset.range M, h (n + 1) * Real.cos (((n + 1 : ℕ) : ℝ) * ξ) := by
    rw [Finset.mul_sum]; exact Finset.sum_congr rfl (fun _ _ => by ring)
  rw [this]; ring

theorem sum_phases (f : ℕ → ℝ) (N : ℕ) : ∀ K, ∑ n ∈ Finset.range (K * N), f n = ∑ p ∈ Finset.range N, ∑ m ∈ Finset.range K, f (p + m * N)
  | 0 => by simp
  | K + 1 => by
    rw [Nat.succ_mul, Finset.sum_range_add, sum_phases f N K, ← Finset.sum_add_distrib]
    refine Finset.sum_congr rfl (fun p _ => ?_)
    rw [Finset.sum_range_succ, Nat.add_comm (K * N) p]

theorem sum_phases' (f : ℕ → ℝ) (N K : ℕ) : ∑ n ∈ Finset.range (K * N), f (n + 1) = ∑ p ∈ Finset.range N, ∑ m ∈ Finset.range K, f (N - p + m * N) := by
  rw [sum_phases (fun n => f (n + 1)) N K, ← Finset.sum_range_reflect]
  refine Finset.sum_congr rfl (fun p hp => Finset.sum_congr rfl (fun m _ => ?_))
  have := Finset.mem_range.1 hp
  congr 1
  omega

theorem full_phases (h : ℕ → ℝ) (N K : ℕ) (ξ : ℝ) : full h (K * N) ξ =
    ∑ p ∈ Finset.range N, ∑ m ∈ Finset.range K, (h (p + m * N) * Real.cos ((p + m * N : ℕ) * ξ) + h (N - p + m * N) * Real.cos ((N - p + m * N : ℕ) * ξ)) := by
  unfold full
  rw [sum_phases (fun n => h n * Real.cos (n * ξ)), sum_phases' (fun n => h n * Real.cos (n * ξ)), ← Finset.sum_add_distrib]
  refine Finset.sum_congr rfl (fun p _ => ?_)
  rw [← Finset.sum_add_distrib]

/-- Where the table maps a tone to the tone with gain `g`. -/
theorem full_wave {h : ℕ → ℝ} {N K : ℕ} {α γ g : ℝ} (hw : ∀ p ≤ N, ∀ ψ, |Sine.wave h N K α ψ p - g * Real.cos ψ| ≤ γ) : |full h (K * N) α - N * g| ≤ N * γ := by
  have e : full h (K * N) α - N * g = ∑ p ∈ Finset.range N, (Sine.wave h N K α 0 p - g) := by
    rw [full_phases, Finset.sum_sub_distrib]
    simp [Sine.wave]
  rw [e]
  refine (Finset.abs_sum_le_sum_abs _ _).trans ((Finset.sum_le_card_nsmul _ _ γ (fun p hp => ?_)).trans (by simp))
  have := hw p (Finset.mem_range.1 hp).le 0
  rwa [Real.cos_zero, mul_one] at this

/-- The sum of equally spaced phases vanishes. -/
theorem cos_sum_zero {N : ℕ} (hN : 0 < N) {q : ℤ} (hq : ¬ (N : ℤ) ∣ q) : ∑ p ∈ Finset.range N, Real.cos (2 * Real.pi * q / N * p) = 0 := by
  have n0 : (N : ℂ) ≠ 0 := by exact_mod_cast hN.ne'
  have z1 : cexp (2 * Real.pi * I * (q / N)) ≠ 1 := by
    intro h
    obtain ⟨n, hn⟩ := Complex.exp_eq_one_iff.1 h
    apply hq
    have hp : (2 * Real.pi * I : ℂ) ≠ 0 := Complex.two_pi_I_ne_zero
    have : (q : ℂ) = n * N := by
      have : (q / N : ℂ) = n := by
        apply mul_left_cancel₀ hp
        rw [hn]; ring
      rw [← this]; field_simp
    exact ⟨n, by rw [mul_comm]; exact_mod_cast this⟩
  have zN : cexp (2 * Real.pi * I * (q / N)) ^ N = 1 := by
    rw [← Complex.exp_nat_mul, Complex.exp_eq_one_iff]
    exact ⟨q, by field_simp⟩
  have g := geom_sum_eq z1 N
  rw [zN, sub_self, zero_div] at g
  have := congrArg Complex.re g
  rw [Complex.re_sum, Complex.zero_re] at this
  rw [← this]
  refine Finset.sum_congr rfl (fun p _ => ?_)
  rw [← Complex.exp_nat_mul, show (p : ℂ) * (2 * Real.pi * I * (q / N)) = ((2 * Real.pi * q / N * p : ℝ) : ℂ) * I by push_cast; ring, Complex.exp_ofReal_mul_I_re]

/-- All images of a frequency of the check, other than those at multiples of the table's rate. -/
theorem full_image {h : ℕ → ℝ} {N K : ℕ} (hN : 0 < N) {κ α β : ℝ} (k0 : 0 ≤ κ) (hg : ∀ p ≤ N, |Sine.errCos h N K κ α p| ≤ β ∧ |Sine.errSin h N K κ α p| ≤ β) (q : ℤ) :
    |full h (K * N) (α + 2 * Real.pi * q / N)| ≤ N * (3 / 2 * β) + if (N : ℤ) ∣ q then N * κ else 0 := by
  have n0 : (N : ℝ) ≠ 0 := by exact_mod_cast hN.ne'
  set ξ := α + 2 * Real.pi * q / N with hξ
  have e : full h (K * N) ξ = ∑ p ∈ Finset.range N, (Real.cos (p * ξ) * Sine.errCos h N K κ α p + Real.sin (p * ξ) * Sine.errSin h N K κ α p) +
      κ * ∑ p ∈ Finset.range N, Real.cos (2 * Real.pi * q / N * p) := by
    rw [full_phases, Finset.mul_sum, ← Finset.sum_add_distrib]
    refine Finset.sum_congr rfl (fun p hp => ?_)
    have hp := (Finset.mem_range.1 hp).le
    have c0 : Real.cos (2 * Real.pi * q / N * p) = Real.cos (p * ξ) * Real.cos (p * α) + Real.sin (p * ξ) * Real.sin (p * α) := by
      rw [← Real.cos_sub, hξ]; congr 1; ring
    rw [c0]
    unfold Sine.errCos Sine.errSin
    rw [mul_sub, mul_sub, Finset.mul_sum, Finset.mul_sum]
    rw [show ∀ a b c d : ℝ, a - b + (c - d) + κ * (Real.cos (p * ξ) * Real.cos (p * α) + Real.sin (p * ξ) * Real.sin (p * α)) =
      (a + c) + (κ * (Real.cos (p * ξ) * Real.cos (p * α) + Real.sin (p * ξ) * Real.sin (p * α)) - b - d) by intros; ring, ← Finset.sum_add_distrib]
    rw [show κ * (Real.cos (p * ξ) * Real.cos (p * α) + Real.sin (p * ξ) * Real.sin (p * α)) - Real.cos (p * ξ) * (κ * Real.cos (p * α)) - Real.sin (p * ξ) * (κ * Real.sin (p * α)) = 0 by ring, add_zero]
    refine Finset.sum_congr rfl (fun m _ => ?_)
    have c1 : Real.cos (((p + m * N : ℕ) : ℝ) * ξ) = Real.cos (p * ξ) * Real.cos (m * (N * α)) - Real.sin (p * ξ) * Real.sin (m * (N * α)) := by
      rw [← Real.cos_add, ← Real.cos_add_int_mul_two_pi _ (-(m * q))]
      congr 1
      rw [hξ]; push_cast; field_simp; ring
    have c2 : Real.cos (((N - p + m * N : ℕ) : ℝ) * ξ) = Real.cos (p * ξ) * Real.cos ((m + 1) * (N * α)) + Real.sin (p * ξ) * Real.sin ((m + 1) * (N * α)) := by
      rw [← Real.cos_sub, ← Real.cos_neg (p * ξ - (m + 1) * (N * α)), ← Real.cos_add_int_mul_two_pi _ (-((m + 1) * q))]
      congr 1
      rw [hξ]; push_cast [Nat.cast_sub hp]; field_simp; ring
    rw [c1, c2]
    ring
  rw [e]
  have b0 : 0 ≤ β := (abs_nonneg _).trans (hg 0 (Nat.zero_le _)).1
  have h1 : |∑ p ∈ Finset.range N, (Real.cos (p * ξ) * Sine.errCos h N K κ α p + Real.sin (p * ξ) * Sine.errSin h N K κ α p)| ≤ N * (3 / 2 * β) := by
    refine (Finset.abs_sum_le_sum_abs _ _).trans ((Finset.sum_le_card_nsmul _ _ (3 / 2 * β) (fun p hp => ?_)).trans (by simp))
    obtain ⟨g1, g2⟩ := hg p (Finset.mem_range.1 hp).le
    have t := Real.sin_sq_add_cos_sq (p * ξ)
    have s1 := sq_le_sq' (by linarith [(abs_le.1 g1).1]) (abs_le.1 g1).2
    have s2 := sq_le_sq' (by linarith [(abs_le.1 g2).1]) (abs_le.1 g2).2
    apply abs_le_of_sq_le_sq _ (by positivity)
    generalize Sine.errCos h N K κ α p = x at *
    generalize Sine.errSin h N K κ α p = y at *
    generalize Real.cos (p * ξ) = c at *
    generalize Real.sin (p * ξ) = s at *
    have : (c * x + s * y) ^ 2 = (s ^ 2 + c ^ 2) * (x ^ 2 + y ^ 2) - (c * y - s * x) ^ 2 := by ring
    rw [this, t]
    nlinarith [sq_nonneg (c * y - s * x), sq_nonneg β]
  have h2 : |κ * ∑ p ∈ Finset.range N, Real.cos (2 * Real.pi * q / N * p)| ≤ if (N : ℤ) ∣ q then N * κ else 0 := by
    split_ifs with hd
    · rw [abs_mul, abs_of_nonneg k0, mul_comm]
      refine mul_le_mul_of_nonneg_right ?_ k0
      exact (Finset.abs_sum_le_sum_abs _ _).trans ((Finset.sum_le_card_nsmul _ _ 1 (fun p _ => Real.abs_cos_le_one _)).trans (by simp))
    · rw [cos_sum_zero hN hd]; simp
  exact (abs_add_le _ _).trans (add_le_add h1 h2)

/-- Second moment. -/
noncomputable def bendSum (h : ℕ → ℝ) (M : ℕ) : ℝ := ∑ n ∈ Finset.range M, |h n| * (n : ℝ) ^ 2 + ∑ n ∈ Finset.range M, |h (n + 1)| * ((n + 1 : ℕ) : ℝ) ^ 2

theorem full_lerp (h : ℕ → ℝ) (M : ℕ) (a b : ℝ) {t : ℝ} (t0 : 0 ≤ t) (t1 : t ≤ 1) :
    |(1 - t) * full h M a + t * full h M b - full h M ((1 - t) * a + t * b)| ≤ bendSum h M * (b - a) ^ 2 / 8 := by
  have one : ∀ (g u : ℝ), |(1 - t) * (g * Real.cos (u * a)) + t * (g * Real.cos (u * b)) - g * Real.cos (u * ((1 - t) * a + t * b))| ≤ |g| * u ^ 2 * ((b - a) ^ 2 / 8) := by
    intro g u
    have := Sine.cos_lerp (u * a) (u * b) t0 t1
    rw [show (1 - t) * (u * a) + t * (u * b) = u * ((1 - t) * a + t * b) by ring] at this
    rw [show (1 - t) * (g * Real.cos (u * a)) + t * (g * Real.cos (u * b)) - g * Real.cos (u * ((1 - t) * a + t * b)) =
      g * ((1 - t) * Real.cos (u * a) + t * Real.cos (u * b) - Real.cos (u * ((1 - t) * a + t * b))) by ring, abs_mul]
    refine (mul_le_mul_of_nonneg_left this (abs_nonneg g)).trans (le_of_eq ?_)
    ring
  have sum : ∀ (f : ℕ → ℝ) (v : ℕ → ℝ), |(1 - t) * ∑ n ∈ Finset.range M, f n * Real.cos (v n * a) + t * ∑ n ∈ Finset.range M, f n * Real.cos (v n * b) -
      ∑ n ∈ Finset.range M, f n * Real.cos (v n * ((1 - t) * a + t * b))| ≤ (∑ n ∈ Finset.range M, |f n| * v n ^ 2) * ((b - a) ^ 2 / 8) := by
    intro f v
    rw [Finset.mul_sum, Finset.mul_sum, ← Finset.sum_add_distrib, ← Finset.sum_sub_distrib, Finset.sum_mul]
    exact (Finset.abs_sum_le_sum_abs _ _).trans (Finset.sum_le_sum (fun n _ => one _ _))
  have s1 := sum h (fun n => n)
  have s2 := sum (fun n => h (n + 1)) (fun n => ((n + 1 : ℕ) : ℝ))
  unfold full bendSum
  rw [abs_le] at *
  constructor <;> linarith

/-- Between the frequencies of the check. -/
theorem full_between {h : ℕ → ℝ} {N K J : ℕ} (hN : 0 < N) {κ Δ β D : ℝ} (hΔ : 0 < Δ)
    (hg : ∀ j : ℕ, j ≤ J → ∃ k, 0 ≤ k ∧ k ≤ κ ∧ ∀ p ≤ N, |Sine.errCos h N K k (j * Δ) p| ≤ β ∧ |Sine.errSin h N K k (j * Δ) p| ≤ β) (hD : bendSum h (K * N) ≤ D)
    {α : ℝ} (a0 : 0 ≤ α) (a1 : α ≤ J * Δ) (q : ℤ) :
    |full h (K * N) (α + 2 * Real.pi * q / N)| ≤ N * (3 / 2 * β) + D * Δ ^ 2 / 8 + if (N : ℤ) ∣ q then N * κ else 0 := by
  have grid : ∀ j : ℕ, j ≤ J → |full h (K * N) (j * Δ + 2 * Real.pi * q / N)| ≤ N * (3 / 2 * β) + if (N : ℤ) ∣ q then N * κ else 0 := by
    intro j hj
    obtain ⟨k, k0, k1, g⟩ := hg j hj
    refine (full_image hN k0 g q).trans (add_le_add le_rfl ?_)
    split_ifs
    · gcongr
    · exact le_rfl
  have d0 : 0 ≤ D := le_trans (by unfold bendSum; positivity) hD
  have x0 : 0 ≤ α / Δ := div_nonneg a0 hΔ.le
  have f0 := Nat.floor_le x0
  have f1 := Nat.lt_floor_add_one (α / Δ)
  have xJ : α / Δ ≤ J := by rw [div_le_iff₀ hΔ]; exact a1
  set j := ⌊α / Δ⌋₊ with hj
  have jJ : j ≤ J := by exact_mod_cast f0.trans xJ
  have ea : α = α / Δ * Δ := by field_simp
  have p0 : 0 ≤ D * Δ ^ 2 / 8 := by positivity
  rcases eq_or_lt_of_le jJ with e | l
  · have : α / Δ = J := le_antisymm xJ (by rw [← e]; exact f0)
    have g := grid J le_rfl
    rw [ea, this]
    linarith
  · have g0 := grid j jJ
    have g1 := grid (j + 1) l
    have t0 : 0 ≤ α / Δ - j := by linarith
    have t1 : α / Δ - j ≤ 1 := by linarith
    have w := full_lerp h (K * N) (j * Δ + 2 * Real.pi * q / N) (((j + 1 : ℕ) : ℝ) * Δ + 2 * Real.pi * q / N) t0 t1
    have e2 : (1 - (α / Δ - j)) * (j * Δ + 2 * Real.pi * q / N) + (α / Δ - j) * (((j + 1 : ℕ) : ℝ) * Δ + 2 * Real.pi * q / N) = α + 2 * Real.pi * q / N := by
      have : (1 - (α / Δ - j)) * (j * Δ) + (α / Δ - j) * (((j + 1 : ℕ) : ℝ) * Δ) = α := by
        push_cast
        field_simp
        ring
      linear_combination this
    rw [e2, show ((j + 1 : ℕ) : ℝ) * Δ + 2 * Real.pi * q / N - (j * Δ + 2 * Real.pi * q / N) = Δ by push_cast; ring] at w
    have hm : bendSum h (K * N) * Δ ^ 2 / 8 ≤ D * Δ ^ 2 / 8 := by gcongr
    generalize α / Δ - j = t at *
    generalize (if (N : ℤ) ∣ q then N * κ else 0) = r at *
    rw [abs_le] at *
    have := sub_nonneg.2 t1
    constructor <;> nlinarith

theorem full_neg (h : ℕ → ℝ) (M : ℕ) (ξ : ℝ) : full h M (-ξ) = full h M ξ := by
  unfold full
  simp only [mul_neg, Real.cos_neg]

theorem full_abs (h : ℕ → ℝ) (M : ℕ) (ξ : ℝ) : full h M |ξ| = full h M ξ := by
  rcases abs_choice ξ with e | e <;> rw [e]
  exact full_neg h M ξ

/-- The multiple of `2π` that is closest. -/
noncomputable def turns (Ω : ℝ) : ℤ := ⌊(Ω + Real.pi) / (2 * Real.pi)⌋

theorem turns_near (Ω : ℝ) : |Ω - 2 * Real.pi * turns Ω| ≤ Real.pi := by
  have p := Real.pi_pos
  have a := Int.floor_le ((Ω + Real.pi) / (2 * Real.pi))
  have b := Int.lt_floor_add_one ((Ω + Real.pi) / (2 * Real.pi))
  rw [le_div_iff₀ (by positivity)] at a
  rw [div_lt_iff₀ (by positivity)] at b
  unfold turns
  rw [abs_le]
  constructor <;> linarith

theorem full_far {h : ℕ → ℝ} {N K J : ℕ} (hN : 0 < N) {κ Δ β D : ℝ} (hΔ : 0 < Δ) (hJ : Real.pi / N ≤ J * Δ)
    (hg : ∀ j : ℕ, j ≤ J → ∃ k, 0 ≤ k ∧ k ≤ κ ∧ ∀ p ≤ N, |Sine.errCos h N K k (j * Δ) p| ≤ β ∧ |Sine.errSin h N K k (j * Δ) p| ≤ β) (hD : bendSum h (K * N) ≤ D) (Ω : ℝ) :
    |full h (K * N) (Ω / N)| ≤ N * (3 / 2 * β) + D * Δ ^ 2 / 8 + if (N : ℤ) ∣ turns |Ω| then N * κ else 0 := by
  have n0 : (0 : ℝ) < N := by exact_mod_cast hN
  have e1 : full h (K * N) (Ω / N) = full h (K * N) (|Ω| / N) := by
    rw [← full_abs, abs_div, abs_of_pos n0]
  rw [e1]
  generalize |Ω| = Ω at *
  have hn := turns_near Ω
  have key := full_between hN hΔ hg hD (α := |Ω - 2 * Real.pi * turns Ω| / N) (by positivity) (le_trans (by gcongr) hJ)
  rcases le_or_gt 0 (Ω - 2 * Real.pi * turns Ω) with s | s
  · have := key (turns Ω)
    rw [abs_of_nonneg s, show (Ω - 2 * Real.pi * turns Ω) / N + 2 * Real.pi * turns Ω / N = Ω / N by ring] at this
    exact this
  · have := key (-turns Ω)
    rw [abs_of_neg s, show -(Ω - 2 * Real.pi * turns Ω) / N + 2 * Real.pi * ((-turns Ω : ℤ) : ℝ) / N = -(Ω / N) by push_cast; ring, full_neg] at this
    simpa only [dvd_neg] using this

/-! ### sums over all images -/

theorem odd_squares (S : Finset ℕ) : ∑ m ∈ S, 1 / (2 * (m : ℝ) + 1) ^ 2 ≤ 5 / 4 := by
  have all : ∀ n : ℕ, ∑ m ∈ Finset.range (n + 1), 1 / (2 * (m : ℝ) + 1) ^ 2 ≤ 5 / 4 - 1 / (4 * (n + 1 : ℝ)) := by
    intro n
    induction n with
    | zero => norm_num
    | succ n ih =>
      rw [Finset.sum_range_succ]
      have n0 : (0 : ℝ) ≤ n := Nat.cast_nonneg n
      have : 1 / (2 * ((n + 1 : ℕ) : ℝ) + 1) ^ 2 ≤ 1 / (4 * (n + 1 : ℝ)) - 1 / (4 * (((n + 1 : ℕ) : ℝ) + 1)) := by
        push_cast
        rw [div_sub_div _ _ (by positivity) (by positivity), div_le_div_iff₀ (by positivity) (by positivity)]
        nlinarith
      linarith
  obtain ⟨n, hn⟩ := S.exists_nat_subset_range
  refine (Finset.sum_le_sum_of_subset_of_nonneg (hn.trans (Finset.range_mono (Nat.le_succ n))) (fun _ _ _ => by positivity)).trans ((all n).trans ?_)
  have : (0 : ℝ) < 1 / (4 * (n + 1 : ℝ)) := by positivity
  linarith

theorem all_squares (S : Finset ℕ) : ∑ m ∈ S, 1 / ((m : ℝ) + 1) ^ 2 ≤ 2 := by
  have all : ∀ n : ℕ, ∑ m ∈ Finset.range (n + 1), 1 / ((m : ℝ) + 1) ^ 2 ≤ 2 - 1 / (n + 1 : ℝ) := by
    intro n
    induction n with
    | zero => norm_num
    | succ n ih =>
      rw [Finset.sum_range_succ]
      have n0 : (0 : ℝ) ≤ n := Nat.cast_nonneg n
      have : 1 / (((n + 1 : ℕ) : ℝ) + 1) ^ 2 ≤ 1 / (n + 1 : ℝ) - 1 / (((n + 1 : ℕ) : ℝ) + 1) := by
        push_cast
        rw [div_sub_div _ _ (by positivity) (by positivity), div_le_div_iff₀ (by positivity) (by positivity)]
        nlinarith
      linarith
  obtain ⟨n, hn⟩ := S.exists_nat_subset_range
  refine (Finset.sum_le_sum_of_subset_of_nonneg (hn.trans (Finset.range_mono (Nat.le_succ n))) (fun _ _ _ => by positivity)).trans ((all n).trans ?_)
  have : (0 : ℝ) < 1 / (n + 1 : ℝ) := by positivity
  linarith

/-- Images on one side. -/
theorem side_sum {N : ℕ} (hN : 0 < N) {r γ κ : ℝ} (r0 : 0 < r) (g0 : 0 ≤ γ) (k0 : 0 ≤ κ) {b F : ℕ → ℝ} (hb : ∀ m : ℕ, Real.pi * (2 * m + 1) / r ≤ b m)
    (hp : ∀ m : ℕ, Real.pi ≤ b m) (hs : ∀ m : ℕ, b m + 2 * Real.pi ≤ b (m + 1))
    (hF : ∀ m, F m * b m ^ 2 ≤ γ + if (N : ℤ) ∣ turns (b m) then κ else 0) (S : Finset ℕ) :
    ∑ m ∈ S, F m ≤ γ * (5 / 4) * r ^ 2 / Real.pi ^ 2 + 2 * κ / ((2 * N - 1) ^ 2 * Real.pi ^ 2) := by
  have p0 := Real.pi_pos
  have N1 : (1 : ℝ) ≤ N := by exact_mod_cast hN
  have t1 : ∀ m, 1 ≤ turns (b m) := fun m => by
    unfold turns
    rw [Int.le_floor, le_div_iff₀ (by positivity)]
    push_cast
    linarith [hp m]
  have tinc : StrictMono fun m => turns (b m) := strictMono_nat_of_lt_succ (fun m => by
    have a := hs m
    unfold turns
    have : ⌊(b m + Real.pi) / (2 * Real.pi)⌋ + 1 ≤ ⌊(b (m + 1) + Real.pi) / (2 * Real.pi)⌋ := by
      rw [← Int.floor_add_one]
      apply Int.floor_le_floor
      rw [div_add_one (by positivity)]
      apply div_le_div_of_nonneg_right _ (by positivity)
      linarith
    omega)
  have bp : ∀ m, 0 < b m := fun m => lt_of_lt_of_le p0 (hp m)
  have each : ∀ m, F m ≤ γ * r ^ 2 / Real.pi ^ 2 * (1 / (2 * (m : ℝ) + 1) ^ 2) + if (N : ℤ) ∣ turns (b m) then κ / b m ^ 2 else 0 := by
    intro m
    have h1 : F m ≤ (γ + if (N : ℤ) ∣ turns (b m) then κ else 0) / b m ^ 2 := by
      rw [le_div_iff₀ (by have := bp m; positivity)]; exact hF m
    refine h1.trans ?_
    rw [add_div]
    refine add_le_add ?_ ?_
    · have e : γ * r ^ 2 / Real.pi ^ 2 * (1 / (2 * (m : ℝ) + 1) ^ 2) = γ / (Real.pi * (2 * m + 1) / r) ^ 2 := by field_simp
      rw [e]
      have h0 : 0 < Real.pi * (2 * m + 1) / r := by positivity
      have := hb m
      gcongr
    · split_ifs
      · exact le_rfl
      · simp
  refine (Finset.sum_le_sum (fun m _ => each m)).trans ?_
  rw [Finset.sum_add_distrib, ← Finset.mul_sum]
  refine add_le_add ?_ ?_
  · have := mul_le_mul_of_nonneg_left (odd_squares S) (show 0 ≤ γ * r ^ 2 / Real.pi ^ 2 by positivity)
    refine this.trans (le_of_eq (by ring))
  · rw [← Finset.sum_filter]
    set T := S.filter fun m => (N : ℤ) ∣ turns (b m) with hT
    set f : ℕ → ℕ := fun m => (turns (b m) / N).toNat - 1 with hf
    have nd : ∀ m ∈ T, ((f m : ℤ) + 1) * N = turns (b m) := by
      intro m hm
      obtain ⟨c, hc⟩ := (Finset.mem_filter.1 hm).2
      have := t1 m
      have Nz : (0 : ℤ) < N := by exact_mod_cast hN
      have c1 : 1 ≤ c := by
        by_contra h
        have : c ≤ 0 := by omega
        nlinarith
      rw [hf]
      dsimp only
      rw [hc, Int.mul_ediv_cancel_left _ Nz.ne']
      rw [show (((c.toNat - 1 : ℕ)) : ℤ) + 1 = c by omega, mul_comm]
    have inj : Set.InjOn f T := by
      intro x hx y hy hxy
      apply tinc.injective
      show turns (b x) = turns (b y)
      rw [← nd x hx, ← nd y hy, hxy]
    have le : ∀ m ∈ T, κ / b m ^ 2 ≤ κ / ((2 * N - 1) ^ 2 * Real.pi ^ 2) * (1 / ((f m : ℝ) + 1) ^ 2) := by
      intro m hm
      have e : κ / ((2 * N - 1) ^ 2 * Real.pi ^ 2) * (1 / ((f m : ℝ) + 1) ^ 2) = κ / (Real.pi * (2 * N - 1) * ((f m : ℝ) + 1)) ^ 2 := by
        have : (2 * (N : ℝ) - 1) ≠ 0 := by linarith
        field_simp
      rw [e]
      have tn := turns_near (b m)
      have h := nd m hm
      have h' : ((f m : ℝ) + 1) * N = turns (b m) := by exact_mod_cast h
      rw [← h', abs_le] at tn
      have f0 : (0 : ℝ) ≤ f m := Nat.cast_nonneg _
      have h2 : Real.pi * (2 * N - 1) * ((f m : ℝ) + 1) ≤ b m := by nlinarith
      have h3 : 0 < Real.pi * (2 * N - 1) * ((f m : ℝ) + 1) := by
        have : 0 < 2 * (N : ℝ) - 1 := by linarith
        positivity
      gcongr
    refine (Finset.sum_le_sum le).trans ?_
    rw [← Finset.mul_sum, ← Finset.sum_image (f := fun n : ℕ => 1 / ((n : ℝ) + 1) ^ 2) inj]
    have c0 : 0 ≤ κ / ((2 * N - 1) ^ 2 * Real.pi ^ 2) := by positivity
    refine (mul_le_mul_of_nonneg_left (all_squares _) c0).trans (le_of_eq (by ring))

theorem int_split {f : ℤ → ℝ} {c : ℝ} (h1 : ∀ S : Finset ℕ, ∑ n ∈ S, f ((n : ℤ) + 1) ≤ c) (h2 : ∀ S : Finset ℕ, ∑ n ∈ S, f (-((n : ℤ) + 1)) ≤ c) (S : Finset ℤ) (h0 : 0 ∉ S) :
    ∑ m ∈ S, f m ≤ 2 * c := by
  rw [← Finset.sum_filter_add_sum_filter_not S (fun m => 0 < m)]
  have a := h1 ((S.filter fun m => 0 < m).image fun m => (m - 1).toNat)
  rw [Finset.sum_image] at a
  · have b := h2 ((S.filter fun m => ¬ 0 < m).image fun m => (-m - 1).toNat)
    rw [Finset.sum_image] at b
    · have e1 : ∑ m ∈ S.filter fun m => 0 < m, f (((m - 1).toNat : ℤ) + 1) = ∑ m ∈ S.filter fun m => 0 < m, f m :=
        Finset.sum_congr rfl (fun m hm => by have := (Finset.mem_filter.1 hm).2; congr 1; omega)
      have e2 : ∑ m ∈ S.filter fun m => ¬ 0 < m, f (-(((-m - 1).toNat : ℤ) + 1)) = ∑ m ∈ S.filter fun m => ¬ 0 < m, f m :=
        Finset.sum_congr rfl (fun m hm => by
          have h := Finset.mem_filter.1 hm
          have : m ≠ 0 := fun e => h0 (e ▸ h.1)
          have := h.2
          congr 1; omega)
      rw [e1] at a
      rw [e2] at b
      linarith
    · intro x hx y hy hxy
      have hx := Finset.mem_filter.1 hx
      have hy := Finset.mem_filter.1 hy
      have x0 : x ≠ 0 := fun e => h0 (e ▸ hx.1)
      have y0 : y ≠ 0 := fun e => h0 (e ▸ hy.1)
      have := hx.2
      have := hy.2
      dsimp only at hxy
      omega
  · intro x hx y hy hxy
    have hx := (Finset.mem_filter.1 hx).2
    have hy := (Finset.mem_filter.1 hy).2
    dsimp only at hxy
    omega

/-- The transfer function decreases with the square of the frequency, except next to the multiples of the table's rate. -/
def Decays (h : ℕ → ℝ) (L N : ℕ) (γ κ : ℝ) : Prop :=
  ∀ Ω : ℝ, |spec h L (Ω / N) * hatT (Ω / N)| / N * Ω ^ 2 ≤ γ + if (N : ℤ) ∣ turns |Ω| then κ else 0

/-- All images together. -/
theorem Decays.images {h : ℕ → ℝ} {L N : ℕ} {γ κ : ℝ} (H : Decays h L N γ κ) (hN : 0 < N) (g0 : 0 ≤ γ) (k0 : 0 ≤ κ) {r : ℝ} (r0 : 0 < r) (r1 : r ≤ 1) {ω : ℝ} (w0 : 0 ≤ ω) (w1 : ω ≤ Real.pi)
    (S : Finset ℤ) (hS : 0 ∉ S) :
    ∑ m ∈ S, |spec h L ((ω - 2 * Real.pi * m) / (r * N)) * hatT ((ω - 2 * Real.pi * m) / (r * N))| ≤
      N * (2 * (γ * (5 / 4) * r ^ 2 / Real.pi ^ 2 + 2 * κ / ((2 * N - 1) ^ 2 * Real.pi ^ 2))) := by
  have p0 := Real.pi_pos
  have n0 : (0 : ℝ) < N := by exact_mod_cast hN
  have main := int_split (f := fun m : ℤ => |spec h L ((ω - 2 * Real.pi * m) / (r * N)) * hatT ((ω - 2 * Real.pi * m) / (r * N))| / N)
    (c := γ * (5 / 4) * r ^ 2 / Real.pi ^ 2 + 2 * κ / ((2 * N - 1) ^ 2 * Real.pi ^ 2)) (fun S => ?_) (fun S => ?_) S hS
  · rw [← Finset.sum_div, div_le_iff₀ n0] at main
    exact main.trans_eq (mul_comm _ _)
  · refine side_sum (b := fun m => (2 * Real.pi * (m + 1) - ω) / r) hN r0 g0 k0 (fun m => ?_) (fun m => ?_) (fun m => ?_) (fun m => ?_) S
    · apply div_le_div_of_nonneg_right _ r0.le
      linarith
    · rw [le_div_iff₀ r0]
      have : (0 : ℝ) ≤ Real.pi * m := by positivity
      nlinarith
    · push_cast
      rw [div_add' _ _ _ r0.ne']
      apply div_le_div_of_nonneg_right _ r0.le
      nlinarith
    · have := H ((ω - 2 * Real.pi * ((m + 1 : ℤ) : ℝ)) / r)
      rw [div_div, ← sq_abs, abs_div, abs_of_pos r0, abs_sub_comm, abs_of_nonneg (show 0 ≤ 2 * Real.pi * ((m + 1 : ℤ) : ℝ) - ω by
        push_cast
        have : (0 : ℝ) ≤ Real.pi * m := by positivity
        linarith)] at this
      push_cast at this ⊢
      exact this
  · refine side_sum (b := fun m => (2 * Real.pi * (m + 1) + ω) / r) hN r0 g0 k0 (fun m => ?_) (fun m => ?_) (fun m => ?_) (fun m => ?_) S
    · apply div_le_div_of_nonneg_right _ r0.le
      linarith
    · rw [le_div_iff₀ r0]
      have : (0 : ℝ) ≤ Real.pi * m := by positivity
      nlinarith
    · push_cast
      rw [div_add' _ _ _ r0.ne']
      apply div_le_div_of_nonneg_right _ r0.le
      nlinarith
    · have := H ((ω - 2 * Real.pi * ((-(m + 1) : ℤ) : ℝ)) / r)
      have e : ω - 2 * Real.pi * ((-(m + 1) : ℤ) : ℝ) = 2 * Real.pi * (m + 1) + ω := by push_cast; ring
      rw [div_div, e, ← sq_abs, abs_div, abs_of_pos r0, abs_of_nonneg (show 0 ≤ 2 * Real.pi * ((m : ℝ) + 1) + ω by positivity)] at this
      rw [e]
      exact this

/-- From the second differences of the table. -/
theorem decays_of {h d : ℕ → ℝ} {L N K J : ℕ} (hN : 0 < N) (h0 : h (L + 2) = 0) (hd : ∀ n ≤ L, d n = diff2 h n) (hd0 : ∀ n, L < n → d n = 0) (hL : L < K * N) {κ Δ β D E : ℝ} (hΔ : 0 < Δ) (hJ : Real.pi / N ≤ J * Δ)
    (hg : ∀ j : ℕ, j ≤ J → ∃ k, 0 ≤ k ∧ k ≤ κ ∧ ∀ p ≤ N, |Sine.errCos d N K k (j * Δ) p| ≤ β ∧ |Sine.errSin d N K k (j * Δ) p| ≤ β) (hD : bendSum d (K * N) ≤ D)
    (hE : 2 * |diff2 h (L + 1)| + 2 * |h (L + 1)| ≤ E) : Decays h (L + 1) N (N * (N * (3 / 2 * β) + D * Δ ^ 2 / 8 + E)) (N * (N * κ)) := by
  intro Ω
  have n0 : (0 : ℝ) < N := by exact_mod_cast hN
  have a := spec_hatT h h0 (Ω / N)
  have b := full_far hN hΔ hJ hg hD Ω
  rw [full_eq hd0 hL] at b
  have e : spec d L (Ω / N) = spec (diff2 h) L (Ω / N) := by
    unfold spec
    rw [hd 0 (Nat.zero_le _)]
    congr 1
    exact Finset.sum_congr rfl (fun n hn => by rw [hd (n + 1) (Finset.mem_range.1 hn)])
  rw [e] at b
  have c := a.trans (add_le_add b hE)
  have i : N * (if (N : ℤ) ∣ turns |Ω| then N * κ else 0) = if (N : ℤ) ∣ turns |Ω| then N * (N * κ) else 0 := by split_ifs <;> simp
  rw [← i]
  have d := mul_le_mul_of_nonneg_left c n0.le
  have f : N * (|spec h (L + 1) (Ω / N) * hatT (Ω / N)| * (Ω / N) ^ 2) = |spec h (L + 1) (Ω / N) * hatT (Ω / N)| / N * Ω ^ 2 := by field_simp
  rw [f] at d
  linarith

end Verif.Alias
