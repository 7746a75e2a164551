import Mathlib.Analysis.SpecialFunctions.Trigonometric.Bounds
import Verif.Proof.SineWave
import Verif.Proof.TableAt

/-! The exact filter of a checked table on samples of a cosine. -/

namespace Verif.Sine
open Verif Spec

/-- Weighted sum over mirrored table phases. -/
noncomputable def mirrored (q : ℤ → ℚ) (inc : ℤ) (K : ℕ) (u v : ℕ → ℝ) (p : ℤ) : ℝ :=
  ∑ m ∈ Finset.range K, ((q (p + m * inc) : ℝ) * u m + (q (inc - p + m * inc) : ℝ) * v m)

theorem response_weighted (q : ℤ → ℚ) (inc : ℤ) (K : ℕ) (s : ℤ) (u : ℕ → ℝ) :
    ∑ m ∈ Finset.range K, (response q (s + m * (4096 * inc)) : ℝ) * u m =
      (1 - ((s % 4096 : ℤ) : ℝ) / 4096) * ∑ m ∈ Finset.range K, (q (s / 4096 + m * inc) : ℝ) * u m +
      ((s % 4096 : ℤ) : ℝ) / 4096 * ∑ m ∈ Finset.range K, (q (s / 4096 + 1 + m * inc) : ℝ) * u m := by
  rw [Finset.mul_sum, Finset.mul_sum, ← Finset.sum_add_distrib]
  refine Finset.sum_congr rfl (fun m _ => ?_)
  unfold response
  rw [show s + (m : ℤ) * (4096 * inc) = s + (m * inc) * 4096 by ring, Int.add_mul_ediv_right _ _ (by norm_num), Int.add_mul_emod_self_right,
    show s / 4096 + m * inc + 1 = s / 4096 + 1 + m * inc by ring]
  push_cast
  ring

/-- The sum over the grid through any position is interpolated between table phases. -/
theorem mirror_weighted (q : ℤ → ℚ) {inc : ℤ} (K : ℕ) (u v : ℕ → ℝ) {c : ℤ → ℝ} {γ : ℝ} (h : ∀ p, 0 ≤ p → p ≤ inc → |mirrored q inc K u v p - c p| ≤ γ)
    {s : ℤ} (s0 : 0 ≤ s) (s1 : s ≤ 4096 * inc) :
    ∃ (p : ℤ) (φ : ℝ), 0 ≤ φ ∧ φ ≤ 1 ∧ (s : ℝ) / 4096 = p + φ ∧
      |∑ m ∈ Finset.range K, (response q (s + m * (4096 * inc)) : ℝ) * u m + ∑ m ∈ Finset.range K, (response q (4096 * inc - s + m * (4096 * inc)) : ℝ) * v m -
        ((1 - φ) * c p + φ * c (p + 1))| ≤ γ := by
  have split : ∀ p, mirrored q inc K u v p = ∑ m ∈ Finset.range K, (q (p + m * inc) : ℝ) * u m + ∑ m ∈ Finset.range K, (q (inc - p + m * inc) : ℝ) * v m :=
    fun p => Finset.sum_add_distrib
  have m0 : 0 ≤ s % 4096 := Int.emod_nonneg _ (by norm_num)
  have m1 : s % 4096 < 4096 := Int.emod_lt_of_pos _ (by norm_num)
  have q0 : (0 : ℝ) ≤ ((s % 4096 : ℤ) : ℝ) / 4096 := by
    have : (0 : ℝ) ≤ ((s % 4096 : ℤ) : ℝ) := by exact_mod_cast m0
    positivity
  have q1 : ((s % 4096 : ℤ) : ℝ) / 4096 ≤ 1 := by
    have : ((s % 4096 : ℤ) : ℝ) ≤ 4096 := by exact_mod_cast m1.le
    rw [div_le_one (by norm_num)]; exact this
  refine ⟨s / 4096, ((s % 4096 : ℤ) : ℝ) / 4096, q0, q1, ?_, ?_⟩
  · have : (s : ℝ) = ((4096 * (s / 4096) + s % 4096 : ℤ) : ℝ) := by congr 1; omega
    rw [this]; push_cast; ring
  · rw [response_weighted, response_weighted]
    rcases eq_or_ne (s % 4096) 0 with hf | hf
    · rw [hf, show (4096 * inc - s) % 4096 = 0 by omega, show (4096 * inc - s) / 4096 = inc - s / 4096 by omega]
      have := h (s / 4096) (by omega) (by omega)
      rw [split] at this
      simpa using this
    · rw [show (4096 * inc - s) % 4096 = 4096 - s % 4096 by omega, show (4096 * inc - s) / 4096 = inc - (s / 4096 + 1) by omega,
        show inc - (s / 4096 + 1) + 1 = inc - s / 4096 by omega]
      have a := h (s / 4096) (by omega) (by omega)
      have b := h (s / 4096 + 1) (by omega) (by omega)
      rw [split] at a b
      rw [show (((4096 - s % 4096 : ℤ)) : ℝ) / 4096 = 1 - ((s % 4096 : ℤ) : ℝ) / 4096 by push_cast; ring]
      generalize ((s % 4096 : ℤ) : ℝ) / 4096 = φ at *
      generalize ∑ m ∈ Finset.range K, (q (s / 4096 + m * inc) : ℝ) * u m = a1 at *
      generalize ∑ m ∈ Finset.range K, (q (s / 4096 + 1 + m * inc) : ℝ) * u m = a2 at *
      generalize ∑ m ∈ Finset.range K, (q (inc - s / 4096 + m * inc) : ℝ) * v m = b1 at *
      generalize ∑ m ∈ Finset.range K, (q (inc - (s / 4096 + 1) + m * inc) : ℝ) * v m = b2 at *
      generalize c (s / 4096) = c1 at *
      generalize c (s / 4096 + 1) = c2 at *
      have := sub_nonneg.2 q1
      rw [abs_le] at *
      constructor <;> nlinarith

/-- Taps that are cut off at the end of the table. -/
theorem tail_weighted {q : ℤ → ℚ} {N incr s : ℤ} (hz : ∀ j, N < j → q j = 0) (hi : 4096 ≤ incr) {n K : ℕ} (hn : 4096 * N < s + n * incr) (hK : n ≤ K) {u : ℕ → ℝ} {U : ℝ}
    (hu : ∀ m, |u m| ≤ U) :
    |∑ m ∈ Finset.range n, (response q (s + m * incr) : ℝ) * u m - ∑ m ∈ Finset.range K, (response q (s + m * incr) : ℝ) * u m| ≤ |(q N : ℝ)| * U := by
  obtain ⟨k, rfl⟩ := Nat.exists_eq_add_of_le hK
  rw [Finset.sum_range_add, sub_add_cancel_left, abs_neg]
  have U0 : 0 ≤ U := (abs_nonneg _).trans (hu 0)
  cases k with
  | zero => simp; positivity
  | succ k =>
    rw [Finset.sum_range_succ', Finset.sum_eq_zero, zero_add, abs_mul]
    · have := response_beyond hz (p := s + ((n + 0 : ℕ) : ℤ) * incr) (by push_cast; linarith)
      have t : |((response q (s + ((n + 0 : ℕ) : ℤ) * incr) : ℚ) : ℝ)| ≤ |(q N : ℝ)| := by exact_mod_cast this
      exact mul_le_mul t (hu _) (abs_nonneg _) (abs_nonneg _)
    · intro m _
      rw [response_zero hz]
      · simp
      · push_cast
        have : (0 : ℤ) ≤ m * incr := by positivity
        nlinarith

end Verif.Sine

namespace Verif.Coeffs
open Verif Spec Sine

section
variable {rows : List (List ℤ)} {inc cnt : ℕ} {lo hi top : ℤ} {S V d M z : ℕ} (C : Checked rows inc cnt lo hi top S V d M z)
include C

/-- The table in use, on the samples of a cosine at table phase `p`. -/
theorem Checked.mirrored_wave (hM : M ≤ 95 * 10 ^ 25) {A g ω θ γ : ℝ} (hA : 0 ≤ A)
    (hw : ∀ p ≤ inc, ∀ ψ, |wave (fun i => (rows.flatten.getD i 0 : ℝ) / 10 ^ 27) inc rows.length (ω / inc) ψ p - g * Real.cos ψ| ≤ γ) (p : ℤ) (p0 : 0 ≤ p) (p1 : p ≤ inc) :
    |mirrored (tabQ rows.flatten) inc rows.length (fun m => A * Real.cos (ω * (-m : ℤ) + θ)) (fun m => A * Real.cos (ω * (1 + m : ℤ) + θ)) p - A * g * Real.cos (ω / inc * p + θ)| ≤
      A * (γ + rows.length / 15000000) := by
  obtain ⟨p, rfl⟩ := Int.eq_ofNat_of_zero_le p0
  have hp : p ≤ inc := by exact_mod_cast p1
  have i0 : (inc : ℝ) ≠ 0 := by have := C.pos; positivity
  have h1 := hw p hp (ω / inc * p + θ)
  have h2 : A * wave (fun i => (rows.flatten.getD i 0 : ℝ) / 10 ^ 27) inc rows.length (ω / inc) (ω / inc * p + θ) p =
      ∑ m ∈ Finset.range rows.length, ((rows.flatten.getD (p + m * inc) 0 : ℝ) / 10 ^ 27 * (A * Real.cos (ω * (-m : ℤ) + θ)) +
        (rows.flatten.getD (inc - p + m * inc) 0 : ℝ) / 10 ^ 27 * (A * Real.cos (ω * (1 + m : ℤ) + θ))) := by
    unfold wave
    rw [Finset.mul_sum]
    refine Finset.sum_congr rfl (fun m _ => ?_)
    rw [show ω / inc * p + θ - ((p + m * inc : ℕ) : ℝ) * (ω / inc) = ω * (-m : ℤ) + θ by push_cast; field_simp; ring,
      show ω / inc * p + θ + ((inc - p + m * inc : ℕ) : ℝ) * (ω / inc) = ω * (1 + m : ℤ) + θ by push_cast [Nat.cast_sub hp]; field_simp; ring]
    ring
  have err : ∀ i : ℕ, |(tabQ rows.flatten i : ℝ) - (rows.flatten.getD i 0 : ℝ) / 10 ^ 27| ≤ 1 / 30000000 := by
    intro i
    have := C.err hM i
    unfold entry at this
    rw [Int.toNat_natCast] at this
    have h : |((tabQ rows.flatten i - (rows.flatten.getD i 0 : ℚ) / 10 ^ 27 : ℚ) : ℝ)| ≤ ((1 / 30000000 : ℚ) : ℝ) := by exact_mod_cast this
    push_cast at h
    exact h
  have h3 : |mirrored (tabQ rows.flatten) inc rows.length (fun m => A * Real.cos (ω * (-m : ℤ) + θ)) (fun m => A * Real.cos (ω * (1 + m : ℤ) + θ)) p -
      A * wave (fun i => (rows.flatten.getD i 0 : ℝ) / 10 ^ 27) inc rows.length (ω / inc) (ω / inc * p + θ) p| ≤ ∑ m ∈ Finset.range rows.length, A / 15000000 := by
    rw [h2]
    unfold mirrored
    rw [← Finset.sum_sub_distrib]
    refine (Finset.abs_sum_le_sum_abs _ _).trans (Finset.sum_le_sum (fun m _ => ?_))
    rw [show ((p : ℤ) + (m : ℤ) * (inc : ℤ)) = ((p + m * inc : ℕ) : ℤ) by push_cast; ring,
      show ((inc : ℤ) - (p : ℤ) + (m : ℤ) * (inc : ℤ)) = ((inc - p + m * inc : ℕ) : ℤ) by push_cast [Nat.cast_sub hp]; ring]
    have e1 := err (p + m * inc)
    have e2 := err (inc - p + m * inc)
    have c1 := Real.abs_cos_le_one (ω * (-m : ℤ) + θ)
    have c2 := Real.abs_cos_le_one (ω * (1 + m : ℤ) + θ)
    dsimp only
    generalize Real.cos (ω * (-m : ℤ) + θ) = x at *
    generalize Real.cos (ω * (1 + m : ℤ) + θ) = y at *
    rw [show ∀ a b c d : ℝ, a * (A * x) + b * (A * y) - (c * (A * x) + d * (A * y)) = A * ((a - c) * x + (b - d) * y) by intros; ring, abs_mul, abs_of_nonneg hA]
    have := abs_add_le (((tabQ rows.flatten ((p + m * inc : ℕ) : ℤ) : ℝ) - (rows.flatten.getD (p + m * inc) 0 : ℝ) / 10 ^ 27) * x)
      (((tabQ rows.flatten ((inc - p + m * inc : ℕ) : ℤ) : ℝ) - (rows.flatten.getD (inc - p + m * inc) 0 : ℝ) / 10 ^ 27) * y)
    rw [abs_mul, abs_mul] at this
    have f1 := mul_le_mul e1 c1 (abs_nonneg _) (by norm_num)
    have f2 := mul_le_mul e2 c2 (abs_nonneg _) (by norm_num)
    have := mul_le_mul_of_nonneg_left (this.trans (add_le_add f1 f2)) hA
    linarith
  rw [Finset.sum_const, Finset.card_range, nsmul_eq_mul] at h3
  have h4 : |A * wave (fun i => (rows.flatten.getD i 0 : ℝ) / 10 ^ 27) inc rows.length (ω / inc) (ω / inc * p + θ) p - A * g * Real.cos (ω / inc * p + θ)| ≤ A * γ := by
    rw [mul_assoc, ← mul_sub, abs_mul, abs_of_nonneg hA]
    exact mul_le_mul_of_nonneg_left h1 hA
  rw [show (((p : ℤ)) : ℝ) = (p : ℝ) by push_cast; rfl]
  rw [_root_.abs_le] at *
  constructor <;> nlinarith

variable {B : ℤ} (G : Geom ((cnt : ℤ) - 2) inc B)
include G

/-- The filter at a ratio from 1 on passes the samples of a sum of cosines. -/
theorem Checked.sine_up (hM : M ≤ 95 * 10 ^ 25) (hz : z ≤ 13 * 10 ^ 19) {b : ℚ} (hb : (top : ℚ) ≤ b * 10 ^ 27) {n : ℕ} {A g ω θ : ℕ → ℝ} {Ω γ η : ℝ}
    (hA : ∀ t < n, 0 ≤ A t) (hg : ∀ t < n, 0 ≤ g t ∧ g t ≤ 1) (hω : ∀ t < n, 0 ≤ ω t ∧ ω t ≤ Ω)
    (hw : ∀ t < n, ∀ p ≤ inc, ∀ ψ, |wave (fun i => (rows.flatten.getD i 0 : ℝ) / 10 ^ 27) inc rows.length (ω t / inc) ψ p - g t * Real.cos ψ| ≤ γ)
    {ρ i : ℚ} (hρ : 1 ≤ ρ) (i0 : 0 ≤ i) (i1 : i < 1) {D : ℤ} (hD : sincReach ((cnt : ℤ) - 2) inc 1 ≤ D)
    {ξ : ℤ → ℚ} (hx : ∀ k, UnderFilter ((cnt : ℤ) - 2) inc ρ i D k → |(ξ k : ℝ) - ∑ t ∈ Finset.range n, A t * Real.cos (ω t * k + θ t)| ≤ η) :
    |(exactAt (tabQ rows.flatten) ((cnt : ℤ) - 2) inc ρ i D ξ : ℝ) - ∑ t ∈ Finset.range n, A t * g t * Real.cos (ω t * i + θ t)| ≤
      (∑ t ∈ Finset.range n, A t) * (γ + rows.length / 15000000 + (Ω / inc) ^ 2 / 8 + Ω / inc / 8000 + 1 / 3000000) + ((b : ℝ) + rows.length / 15000000) * η := by
  have hρ' : 1 / 256 ≤ ρ := by linarith
  have hcnt : 2 ≤ cnt := by have := G.n1; have := G.inc1; omega
  have hD0 : 0 ≤ D := by have := G.reach_ge (r := 1) (by norm_num); omega
  have W := G.window hρ' i0 i1 hD0
  have hreach := G.incr_reach (r := 1) (ρ := ρ) (by norm_num) (by norm_num [p2]; linarith) hρ'
  obtain ⟨e1, e2⟩ := G.unity hρ
  unfold UnderFilter at hx
  unfold exactAt
  rw [e2] at W hx hreach ⊢
  rw [e1] at W hx ⊢
  have q1 : (1 : ℚ) ≤ inc := by exact_mod_cast G.inc1
  have r1 : (1 : ℝ) ≤ inc := by exact_mod_cast q1
  have z1 : (1 : ℤ) ≤ inc := G.inc1
  rw [show (((inc : ℕ) : ℤ) : ℚ) = (inc : ℚ) by push_cast; rfl] at *
  rw [div_self (by linarith), one_mul]
  -- the position in the table
  have time : |((rne (r64 (i * inc) * 4096) : ℤ) : ℝ) / 4096 - i * inc| ≤ 1 / 8000 := by
    have i2 : i * inc < 4096 := by
      have : (inc : ℚ) ≤ 4096 := by exact_mod_cast G.incM
      nlinarith
    have i3 : 0 ≤ i * inc := by positivity
    have n1 := abs_rne_sub_le (r64 (i * inc) * 4096)
    have n2 := abs_rq_sub_le_of_lt (f := f64) (q := i * inc) (k := 12) (by rw [abs_of_nonneg i3]; norm_num [p2]; exact i2) (by decide)
    have n3 : |r64 (i * inc) - i * inc| ≤ 1 / 1000000 := n2.trans (by norm_num [p2, f64])
    have : |((rne (r64 (i * inc) * 4096) : ℤ) : ℚ) / 4096 - i * inc| ≤ 1 / 8000 := by
      rw [_root_.abs_le] at *
      constructor <;> linarith
    have h : |(((((rne (r64 (i * inc) * 4096) : ℤ) : ℚ) / 4096 - i * inc : ℚ)) : ℝ)| ≤ ((1 / 8000 : ℚ) : ℝ) := by exact_mod_cast this
    push_cast at h
    exact h
  generalize rne (r64 (i * inc) * 4096) = s at *
  have s0 := W.s0
  have s1 := W.s1
  have hmin : min ((4096 * ((cnt : ℤ) - 2) - s) / (4096 * inc)) D = (4096 * ((cnt : ℤ) - 2) - s) / (4096 * inc) := by
    apply min_eq_left
    have : (4096 * ((cnt : ℤ) - 2) - s) / (4096 * inc) < sincReach ((cnt : ℤ) - 2) inc 1 := by
      rw [Int.ediv_lt_iff_lt_mul (by omega)]
      nlinarith
    omega
  rw [W.exact_eq, hmin]
  obtain ⟨a0, b0, b1⟩ := W.a_bounds
  rw [hmin] at a0
  have hη : 0 ≤ η := (abs_nonneg _).trans (hx 1 ⟨by omega, (W.mem (Finset.mem_Icc.2 ⟨by rw [hmin]; omega, by omega⟩)).2⟩)
  have hq := C.last_le hM hz hcnt
  have hqr : |(tabQ rows.flatten ((cnt : ℤ) - 2) : ℝ)| ≤ 1 / 6000000 := by
    have h : ((|tabQ rows.flatten ((cnt : ℤ) - 2)| : ℚ) : ℝ) ≤ ((1 / 6000000 : ℚ) : ℝ) := by exact_mod_cast hq
    push_cast at h
    exact h
  have past : ∀ t : ℤ, 0 ≤ t → t ≤ 4096 * inc → 4096 * ((cnt : ℤ) - 2) < t + ((((4096 * ((cnt : ℤ) - 2) - t) / (4096 * inc)).toNat + 1 : ℕ) : ℤ) * (4096 * inc) := by
    intro t t0 t1
    have g3 := G.n1
    have h1 : 0 ≤ (4096 * ((cnt : ℤ) - 2) - t) / (4096 * inc) := Int.ediv_nonneg (by omega) (by omega)
    have := Int.lt_ediv_add_one_mul_self (4096 * ((cnt : ℤ) - 2) - t) (show 0 < 4096 * (inc : ℤ) by omega)
    push_cast
    rw [Int.toNat_of_nonneg h1]
    linarith
  have hn : ∀ p, 0 ≤ response (fun j => |tabQ rows.flatten j|) p := response_nonneg (fun j => abs_nonneg _)
  -- the samples differ from the cosine
  have dl : |∑ m ∈ Finset.range (((4096 * ((cnt : ℤ) - 2) - s) / (4096 * inc)).toNat + 1), (response (tabQ rows.flatten) (s + m * (4096 * inc)) : ℝ) * (ξ (-m) : ℝ) -
      ∑ m ∈ Finset.range (((4096 * ((cnt : ℤ) - 2) - s) / (4096 * inc)).toNat + 1), (response (tabQ rows.flatten) (s + m * (4096 * inc)) : ℝ) * (∑ t ∈ Finset.range n, A t * Real.cos (ω t * (-m : ℤ) + θ t))| ≤
      (∑ m ∈ Finset.range rows.length, (response (fun j => |tabQ rows.flatten j|) (s + m * (4096 * inc)) : ℝ)) * η := by
    rw [← Finset.sum_sub_distrib, Finset.sum_mul]
    refine (Finset.abs_sum_le_sum_abs _ _).trans ((Finset.sum_le_sum (fun m hm => ?_)).trans
      (Finset.sum_le_sum_of_subset_of_nonneg (Finset.range_mono (C.taps G s0)) (fun m _ _ => mul_nonneg (by exact_mod_cast hn _) hη)))
    have := Finset.mem_range.1 hm
    obtain ⟨k1, k2⟩ := W.mem (k := -m) (Finset.mem_Icc.2 ⟨by rw [hmin]; omega, by omega⟩)
    rw [← mul_sub, abs_mul]
    refine mul_le_mul ?_ (hx _ ⟨k1, k2⟩) (abs_nonneg _) (by exact_mod_cast hn _)
    exact_mod_cast response_abs (tabQ rows.flatten) (s + m * (4096 * inc))
  have dr : |∑ m ∈ Finset.range (((4096 * ((cnt : ℤ) - 2) - (4096 * inc - s)) / (4096 * inc)).toNat + 1), (response (tabQ rows.flatten) (4096 * inc - s + m * (4096 * inc)) : ℝ) * (ξ (1 + m) : ℝ) -
      ∑ m ∈ Finset.range (((4096 * ((cnt : ℤ) - 2) - (4096 * inc - s)) / (4096 * inc)).toNat + 1), (response (tabQ rows.flatten) (4096 * inc - s + m * (4096 * inc)) : ℝ) * (∑ t ∈ Finset.range n, A t * Real.cos (ω t * (1 + m : ℤ) + θ t))| ≤
      (∑ m ∈ Finset.range rows.length, (response (fun j => |tabQ rows.flatten j|) (4096 * inc - s + m * (4096 * inc)) : ℝ)) * η := by
    rw [← Finset.sum_sub_distrib, Finset.sum_mul]
    refine (Finset.abs_sum_le_sum_abs _ _).trans ((Finset.sum_le_sum (fun m hm => ?_)).trans
      (Finset.sum_le_sum_of_subset_of_nonneg (Finset.range_mono (C.taps G (by omega))) (fun m _ _ => mul_nonneg (by exact_mod_cast hn _) hη)))
    have := Finset.mem_range.1 hm
    obtain ⟨k1, k2⟩ := W.mem (k := 1 + m) (Finset.mem_Icc.2 ⟨by rw [hmin]; omega, by omega⟩)
    rw [← mul_sub, abs_mul]
    refine mul_le_mul ?_ (hx _ ⟨k1, k2⟩) (abs_nonneg _) (by exact_mod_cast hn _)
    exact_mod_cast response_abs (tabQ rows.flatten) (4096 * inc - s + m * (4096 * inc))
  have gn := (mirror_sum (lo := 0) (fun p p0 p1 => ⟨by
    unfold phaseQ
    exact add_nonneg (Finset.sum_nonneg (fun _ _ => abs_nonneg _)) (Finset.sum_nonneg (fun _ _ => abs_nonneg _)), C.mirror_abs hM hb p p0 p1⟩) s0 s1).2
  have gr : (∑ m ∈ Finset.range rows.length, (response (fun j => |tabQ rows.flatten j|) (s + m * (4096 * inc)) : ℝ)) +
      ∑ m ∈ Finset.range rows.length, (response (fun j => |tabQ rows.flatten j|) (4096 * inc - s + m * (4096 * inc)) : ℝ) ≤ (b : ℝ) + rows.length / 15000000 := by
    have h : (((∑ m ∈ Finset.range rows.length, response (fun j => |tabQ rows.flatten j|) (s + m * (4096 * inc)) +
      ∑ m ∈ Finset.range rows.length, response (fun j => |tabQ rows.flatten j|) (4096 * inc - s + m * (4096 * inc)) : ℚ)) : ℝ) ≤ ((b + rows.length / 15000000 : ℚ) : ℝ) := by exact_mod_cast gn
    push_cast at h
    exact h
  have gη := mul_le_mul_of_nonneg_right gr hη
  -- the cosines themselves
  have one : ∀ t ∈ Finset.range n,
      |(∑ m ∈ Finset.range (((4096 * ((cnt : ℤ) - 2) - s) / (4096 * inc)).toNat + 1), (response (tabQ rows.flatten) (s + m * (4096 * inc)) : ℝ) * (A t * Real.cos (ω t * (-m : ℤ) + θ t)) +
        ∑ m ∈ Finset.range (((4096 * ((cnt : ℤ) - 2) - (4096 * inc - s)) / (4096 * inc)).toNat + 1), (response (tabQ rows.flatten) (4096 * inc - s + m * (4096 * inc)) : ℝ) * (A t * Real.cos (ω t * (1 + m : ℤ) + θ t))) -
        A t * g t * Real.cos (ω t * i + θ t)| ≤ A t * (γ + rows.length / 15000000 + (Ω / inc) ^ 2 / 8 + Ω / inc / 8000 + 1 / 3000000) := by
    intro t ht
    have ht := Finset.mem_range.1 ht
    obtain ⟨hω0, hω1⟩ := hω t ht
    replace hw := hw t ht
    replace hA := hA t ht
    obtain ⟨hg0, hg1⟩ := hg t ht
    clear hω dl dr hx hg
    generalize A t = A at *
    generalize g t = g at *
    generalize ω t = ω at *
    generalize θ t = θ at *
    have cosA : ∀ x : ℝ, |A * Real.cos x| ≤ A := fun x => by
      rw [abs_mul, abs_of_nonneg hA]
      exact mul_le_of_le_one_right hA (Real.abs_cos_le_one x)
    have tl := tail_weighted (q := tabQ rows.flatten) (N := (cnt : ℤ) - 2) (incr := 4096 * inc) (fun j hj => C.beyond j hj hcnt) (by omega) (past s s0 s1) (C.taps G s0)
      (u := fun m => A * Real.cos (ω * (-m : ℤ) + θ)) (fun m => cosA _)
    have tr := tail_weighted (q := tabQ rows.flatten) (N := (cnt : ℤ) - 2) (incr := 4096 * inc) (fun j hj => C.beyond j hj hcnt) (by omega)
      (past (4096 * inc - s) (by omega) (by omega)) (C.taps G (by omega)) (u := fun m => A * Real.cos (ω * (1 + m : ℤ) + θ)) (fun m => cosA _)
    obtain ⟨p, φ, φ0, φ1, hpφ, hm⟩ := mirror_weighted (tabQ rows.flatten) rows.length _ _ (C.mirrored_wave (θ := θ) hM hA hw) s0 s1
    have lerp := cos_lerp (ω / inc * p + θ) (ω / inc * ((p + 1 : ℤ) : ℝ) + θ) φ0 φ1
    rw [show (1 - φ) * (ω / inc * p + θ) + φ * (ω / inc * ((p + 1 : ℤ) : ℝ) + θ) = ω / inc * (p + φ) + θ by push_cast; ring,
      show ω / inc * ((p + 1 : ℤ) : ℝ) + θ - (ω / inc * p + θ) = ω / inc by push_cast; ring, ← hpφ] at lerp
    have lip := Real.abs_cos_sub_cos_le (ω / inc * (s / 4096) + θ) (ω * i + θ)
    have lip2 : |ω / inc * ((s : ℝ) / 4096) + θ - (ω * i + θ)| ≤ ω / inc / 8000 := by
      rw [show ω / inc * ((s : ℝ) / 4096) + θ - (ω * i + θ) = ω / inc * ((s : ℝ) / 4096 - i * inc) by field_simp; ring, abs_mul, abs_of_nonneg (by positivity)]
      have := mul_le_mul_of_nonneg_left time (show 0 ≤ ω / inc by positivity)
      linarith
    have wΩ : ω / inc ≤ Ω / inc := by gcongr
    have w0 : 0 ≤ ω / inc := by positivity
    have w2 : (ω / inc) ^ 2 ≤ (Ω / inc) ^ 2 := by gcongr
    have hAg : 0 ≤ A * g := mul_nonneg hA hg0
    have hAg1 : A * g ≤ A := mul_le_of_le_one_right hA hg1
    have lip3 := mul_le_mul_of_nonneg_left (lip.trans (lip2.trans (div_le_div_of_nonneg_right wΩ (by norm_num : (0 : ℝ) ≤ 8000)))) hAg
    have lerp3 := mul_le_mul_of_nonneg_left (lerp.trans (div_le_div_of_nonneg_right w2 (by norm_num : (0 : ℝ) ≤ 8))) hAg
    rw [← abs_of_nonneg hAg, ← abs_mul, abs_of_nonneg hAg] at lip3 lerp3
    have lip4 := mul_le_mul_of_nonneg_right hAg1 (show 0 ≤ Ω / inc / 8000 by linarith [div_nonneg (w0.trans wΩ) (show (0 : ℝ) ≤ 8000 by norm_num)])
    have lerp4 := mul_le_mul_of_nonneg_right hAg1 (show 0 ≤ (Ω / inc) ^ 2 / 8 by positivity)
    have tq := mul_le_mul_of_nonneg_right hqr hA
    generalize ∑ m ∈ Finset.range (((4096 * ((cnt : ℤ) - 2) - s) / (4096 * inc)).toNat + 1), (response (tabQ rows.flatten) (s + m * (4096 * inc)) : ℝ) * (A * Real.cos (ω * (-m : ℤ) + θ)) = x3 at *
    generalize ∑ m ∈ Finset.range (((4096 * ((cnt : ℤ) - 2) - (4096 * inc - s)) / (4096 * inc)).toNat + 1), (response (tabQ rows.flatten) (4096 * inc - s + m * (4096 * inc)) : ℝ) * (A * Real.cos (ω * (1 + m : ℤ) + θ)) = x4 at *
    generalize ∑ m ∈ Finset.range rows.length, (response (tabQ rows.flatten) (s + m * (4096 * inc)) : ℝ) * (A * Real.cos (ω * (-m : ℤ) + θ)) = x5 at *
    generalize ∑ m ∈ Finset.range rows.length, (response (tabQ rows.flatten) (4096 * inc - s + m * (4096 * inc)) : ℝ) * (A * Real.cos (ω * (1 + m : ℤ) + θ)) = x6 at *
    generalize Real.cos (ω / inc * p + θ) = c1 at *
    generalize Real.cos (ω / inc * ((p + 1 : ℤ) : ℝ) + θ) = c2 at *
    generalize Real.cos (ω / inc * (s / 4096) + θ) = c3 at *
    generalize Real.cos (ω * i + θ) = c4 at *
    generalize |(tabQ rows.flatten ((cnt : ℤ) - 2) : ℝ)| = tq0 at *
    generalize Ω / inc = w at *
    generalize A * g = Ag at *
    rw [_root_.abs_le] at tl tr hm lip3 lerp3 ⊢
    constructor <;> linarith
  have all := (Finset.abs_sum_le_sum_abs _ _).trans (Finset.sum_le_sum one)
  rw [Finset.sum_sub_distrib, Finset.sum_add_distrib, ← Finset.sum_mul, Finset.sum_comm, Finset.sum_comm (s := Finset.range n)
    (t := Finset.range (((4096 * ((cnt : ℤ) - 2) - (4096 * inc - s)) / (4096 * inc)).toNat + 1))] at all
  simp only [← Finset.mul_sum] at all
  rw [Rat.cast_add, Rat.cast_sum, Rat.cast_sum]
  simp only [Rat.cast_mul]
  generalize ∑ m ∈ Finset.range rows.length, (response (fun j => |tabQ rows.flatten j|) (s + m * (4096 * inc)) : ℝ) = y1 at *
  generalize ∑ m ∈ Finset.range rows.length, (response (fun j => |tabQ rows.flatten j|) (4096 * inc - s + m * (4096 * inc)) : ℝ) = y2 at *
  rw [_root_.abs_le] at dl dr all ⊢
  constructor <;> linarith

end

end Verif.Coeffs
