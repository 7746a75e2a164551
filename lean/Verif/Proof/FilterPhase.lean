import Mathlib.Algebra.Order.BigOperators.Ring.Finset
import Verif.Proof.FilterSum

/-! Sums of the filter response over a grid of positions. -/

namespace Verif
open Spec

/-- Sum of the table entries at `p`, `p + inc`, `p + 2 * inc`, ... -/
def phaseQ (g : ℤ → ℚ) (inc : ℤ) (K : ℕ) (p : ℤ) : ℚ := ∑ m ∈ Finset.range K, g (p + m * inc)

theorem response_grid (g : ℤ → ℚ) (inc : ℤ) (K : ℕ) (s : ℤ) :
    ∑ m ∈ Finset.range K, response g (s + m * (4096 * inc)) =
      phaseQ g inc K (s / 4096) + ((s % 4096 : ℤ) : ℚ) / 4096 * (phaseQ g inc K (s / 4096 + 1) - phaseQ g inc K (s / 4096)) := by
  unfold phaseQ
  rw [← Finset.sum_sub_distrib, Finset.mul_sum, ← Finset.sum_add_distrib]
  refine Finset.sum_congr rfl (fun m _ => ?_)
  unfold response
  rw [show s + (m : ℤ) * (4096 * inc) = s + (m * inc) * 4096 by ring, Int.add_mul_ediv_right _ _ (by norm_num), Int.add_mul_emod_self_right,
    show s / 4096 + m * inc + 1 = s / 4096 + 1 + m * inc by ring]

/-- A bound of the sums of mirrored phases bounds the sum over the grid through any position `s`. -/
theorem mirror_sum {g : ℤ → ℚ} {inc : ℤ} {K : ℕ} {lo hi : ℚ}
    (h : ∀ p, 0 ≤ p → p ≤ inc → lo ≤ phaseQ g inc K p + phaseQ g inc K (inc - p) ∧ phaseQ g inc K p + phaseQ g inc K (inc - p) ≤ hi)
    {s : ℤ} (s0 : 0 ≤ s) (s1 : s ≤ 4096 * inc) :
    lo ≤ ∑ m ∈ Finset.range K, response g (s + m * (4096 * inc)) + ∑ m ∈ Finset.range K, response g (4096 * inc - s + m * (4096 * inc)) ∧
      ∑ m ∈ Finset.range K, response g (s + m * (4096 * inc)) + ∑ m ∈ Finset.range K, response g (4096 * inc - s + m * (4096 * inc)) ≤ hi := by
  rw [response_grid, response_grid]
  rcases eq_or_ne (s % 4096) 0 with hf | hf
  · rw [hf, show (4096 * inc - s) % 4096 = 0 by omega, show (4096 * inc - s) / 4096 = inc - s / 4096 by omega]
    have := h (s / 4096) (by omega) (by omega)
    simpa using this
  · have m0 : 0 ≤ s % 4096 := Int.emod_nonneg _ (by norm_num)
    have m1 : s % 4096 < 4096 := Int.emod_lt_of_pos _ (by norm_num)
    rw [show (4096 * inc - s) % 4096 = 4096 - s % 4096 by omega, show (4096 * inc - s) / 4096 = inc - (s / 4096 + 1) by omega,
      show inc - (s / 4096 + 1) + 1 = inc - s / 4096 by omega]
    obtain ⟨a1, a2⟩ := h (s / 4096) (by omega) (by omega)
    obtain ⟨b1, b2⟩ := h (s / 4096 + 1) (by omega) (by omega)
    have q0 : (0 : ℚ) ≤ ((s % 4096 : ℤ) : ℚ) / 4096 := by
      have : (0 : ℚ) ≤ ((s % 4096 : ℤ) : ℚ) := by exact_mod_cast m0
      positivity
    have q1 : ((s % 4096 : ℤ) : ℚ) / 4096 ≤ 1 := by
      have : ((s % 4096 : ℤ) : ℚ) ≤ 4096 := by exact_mod_cast m1.le
      rw [div_le_one (by norm_num)]; exact this
    rw [show (((4096 - s % 4096 : ℤ)) : ℚ) / 4096 = 1 - ((s % 4096 : ℤ) : ℚ) / 4096 by push_cast; ring]
    generalize ((s % 4096 : ℤ) : ℚ) / 4096 = φ at *
    generalize phaseQ g inc K (s / 4096) = A at *
    generalize phaseQ g inc K (s / 4096 + 1) = A' at *
    generalize phaseQ g inc K (inc - s / 4096) = C at *
    generalize phaseQ g inc K (inc - (s / 4096 + 1)) = C' at *
    have e : A + φ * (A' - A) + (C' + (1 - φ) * (C - C')) = (1 - φ) * (A + C) + φ * (A' + C') := by ring
    rw [e]
    have := sub_nonneg.2 q1
    constructor <;> nlinarith

/-- Beyond the table the response vanishes. -/
theorem response_beyond {q : ℤ → ℚ} {N : ℤ} (hz : ∀ j, N < j → q j = 0) {p : ℤ} (hp : 4096 * N < p) : |response q p| ≤ |q N| := by
  unfold response
  have m0 : 0 ≤ p % 4096 := Int.emod_nonneg _ (by norm_num)
  have m1 : p % 4096 < 4096 := Int.emod_lt_of_pos _ (by norm_num)
  rw [hz (p / 4096 + 1) (by omega)]
  rcases eq_or_lt_of_le (show N ≤ p / 4096 by omega) with h | h
  · rw [← h]
    have q0 : (0 : ℚ) ≤ ((p % 4096 : ℤ) : ℚ) / 4096 := by
      have : (0 : ℚ) ≤ ((p % 4096 : ℤ) : ℚ) := by exact_mod_cast m0
      positivity
    have q1 : ((p % 4096 : ℤ) : ℚ) / 4096 ≤ 1 := by
      have : ((p % 4096 : ℤ) : ℚ) ≤ 4096 := by exact_mod_cast m1.le
      rw [div_le_one (by norm_num)]; exact this
    rw [show q N + ((p % 4096 : ℤ) : ℚ) / 4096 * (0 - q N) = (1 - ((p % 4096 : ℤ) : ℚ) / 4096) * q N by ring, abs_mul,
      abs_of_nonneg (by linarith)]
    exact mul_le_of_le_one_left (abs_nonneg _) (by linarith)
  · rw [hz _ h]; simp

theorem response_zero {q : ℤ → ℚ} {N : ℤ} (hz : ∀ j, N < j → q j = 0) {p : ℤ} (hp : 4096 * (N + 1) ≤ p) : response q p = 0 := by
  unfold response
  rw [hz (p / 4096 + 1) (by omega), hz (p / 4096) (by omega)]; simp

/-- Taps that are cut off at the end of the table make no more than its last entry. -/
theorem tail_sum {q : ℤ → ℚ} {N incr s : ℤ} (hz : ∀ j, N < j → q j = 0) (hi : 4096 ≤ incr) {n K : ℕ} (hn : 4096 * N < s + n * incr) (hK : n ≤ K) :
    |∑ m ∈ Finset.range n, response q (s + m * incr) - ∑ m ∈ Finset.range K, response q (s + m * incr)| ≤ |q N| := by
  obtain ⟨k, rfl⟩ := Nat.exists_eq_add_of_le hK
  rw [Finset.sum_range_add, sub_add_cancel_left, abs_neg]
  cases k with
  | zero => simp
  | succ k =>
    rw [Finset.sum_range_succ', Finset.sum_eq_zero, zero_add]
    · exact response_beyond hz (by push_cast; linarith)
    · intro m _
      refine response_zero hz ?_
      push_cast
      have : (0 : ℤ) ≤ m * incr := by positivity
      nlinarith

section
variable {N incr start D : ℤ} (W : Window N incr start D)
include W

theorem Window.mem {k : ℤ} (h : k ∈ Finset.Icc (-(min ((4096 * N - start) / incr) D)) (1 + (4096 * N - (incr - start)) / incr)) :
    -D ≤ k ∧ |k * incr - start| ≤ 4096 * N := by
  rw [Finset.mem_Icc] at h
  rcases le_or_gt k 0 with hk | hk
  · exact (W.left_iff hk).2 h.1
  · have := W.d0
    exact ⟨by omega, (W.right_iff (by omega)).2 h.2⟩

/-- `exactSum`, as a sum over the frames up to the current one and a sum over the frames after it. -/
theorem Window.exact_eq (q : ℤ → ℚ) (ξ : ℤ → ℚ) : exactSum q N incr start D ξ =
    ∑ m ∈ Finset.range ((min ((4096 * N - start) / incr) D).toNat + 1), response q (start + m * incr) * ξ (-m) +
      ∑ m ∈ Finset.range (((4096 * N - (incr - start)) / incr).toNat + 1), response q (incr - start + m * incr) * ξ (1 + m) := by
  obtain ⟨a0, b0, b1⟩ := W.a_bounds
  have i1 := W.i1; have s0 := W.s0; have s1 := W.s1
  unfold exactSum
  rw [W.filter_eq (fun k => response q |k * incr - start| * ξ k), W.split _ a0 b0 (Or.inl rfl)]
  generalize min ((4096 * N - start) / incr) D = a at *
  generalize (4096 * N - (incr - start)) / incr = b at *
  congr 1
  · have := sum_down (fun k => response q |k * incr - start| * ξ k) 0 (a.toNat + 1)
    rw [show (0 : ℤ) - ((a.toNat + 1 : ℕ) : ℤ) + 1 = -a by push_cast; omega] at this
    rw [← this]
    refine Finset.sum_congr rfl (fun m _ => ?_)
    have h0 : (0 - (m : ℤ)) * incr - start ≤ 0 := by
      have : (0 : ℤ) ≤ m * incr := by positivity
      nlinarith
    rw [abs_of_nonpos h0, show -((0 - (m : ℤ)) * incr - start) = start + m * incr by ring, zero_sub]
  · have := sum_up (fun k => response q |k * incr - start| * ξ k) 1 (b.toNat + 1)
    rw [show (1 : ℤ) + ((b.toNat + 1 : ℕ) : ℤ) - 1 = 1 + b by push_cast; omega] at this
    rw [zero_add, ← this]
    refine Finset.sum_congr rfl (fun m _ => ?_)
    have h0 : 0 ≤ ((m : ℤ) + 1) * incr - start := by
      have : (0 : ℤ) ≤ m * incr := by positivity
      nlinarith
    rw [abs_of_nonneg h0, show ((m : ℤ) + 1) * incr - start = incr - start + m * incr by ring, add_comm 1 (m : ℤ)]

end

theorem response_abs (q : ℤ → ℚ) (p : ℤ) : |response q p| ≤ response (fun j => |q j|) p := by
  unfold response
  have m0 : 0 ≤ p % 4096 := Int.emod_nonneg _ (by norm_num)
  have m1 : p % 4096 < 4096 := Int.emod_lt_of_pos _ (by norm_num)
  have q0 : (0 : ℚ) ≤ ((p % 4096 : ℤ) : ℚ) / 4096 := by
    have : (0 : ℚ) ≤ ((p % 4096 : ℤ) : ℚ) := by exact_mod_cast m0
    positivity
  have q1 : ((p % 4096 : ℤ) : ℚ) / 4096 ≤ 1 := by
    have : ((p % 4096 : ℤ) : ℚ) ≤ 4096 := by exact_mod_cast m1.le
    rw [div_le_one (by norm_num)]; exact this
  generalize ((p % 4096 : ℤ) : ℚ) / 4096 = φ at *
  rw [show q (p / 4096) + φ * (q (p / 4096 + 1) - q (p / 4096)) = (1 - φ) * q (p / 4096) + φ * q (p / 4096 + 1) by ring]
  refine (abs_add_le _ _).trans (le_of_eq ?_)
  rw [abs_mul, abs_mul, abs_of_nonneg q0, abs_of_nonneg (by linarith)]
  ring

theorem response_nonneg {g : ℤ → ℚ} (h : ∀ j, 0 ≤ g j) (p : ℤ) : 0 ≤ response g p := by
  have := response_abs g p
  simp only [abs_of_nonneg (h _)] at this
  exact (abs_nonneg _).trans this

end Verif
