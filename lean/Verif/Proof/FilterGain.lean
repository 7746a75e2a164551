import Verif.Proof.TableFilter

/-! Bounds of sums of the filter response by the sum and the variation of the table. -/

namespace Verif
open Spec

/-- Variation of `h` up to `n`. -/
def variation (h : ℕ → ℚ) (n : ℕ) : ℚ := ∑ y ∈ Finset.range n, |h (y + 1) - h y|

theorem variation_mono (h : ℕ → ℚ) {m n : ℕ} (hmn : m ≤ n) : variation h m ≤ variation h n :=
  Finset.sum_le_sum_of_subset_of_nonneg (Finset.range_mono hmn) (fun _ _ _ => abs_nonneg _)

theorem le_variation (h : ℕ → ℚ) (x j : ℕ) : h x ≤ h (x + j) + (variation h (x + j) - variation h x) := by
  induction j with
  | zero => simp
  | succ j ih =>
    have e : variation h (x + (j + 1)) = variation h (x + j) + |h (x + j + 1) - h (x + j)| := by
      unfold variation; rw [← add_assoc, Finset.sum_range_succ]
    rw [e, ← add_assoc]
    have := neg_abs_le (h (x + j + 1) - h (x + j))
    linarith

theorem block_le (h : ℕ → ℚ) (x c : ℕ) :
    c * h x ≤ ∑ j ∈ Finset.range c, h (x + j) + c * (variation h (x + c) - variation h x) := by
  have : ∑ j ∈ Finset.range c, h x ≤ ∑ j ∈ Finset.range c, (h (x + j) + (variation h (x + c) - variation h x)) := by
    refine Finset.sum_le_sum (fun j hj => (le_variation h x j).trans ?_)
    have := variation_mono h (show x + j ≤ x + c by have := Finset.mem_range.1 hj; omega)
    linarith
  rw [Finset.sum_add_distrib] at this
  simp only [Finset.sum_const, Finset.card_range, nsmul_eq_mul] at this
  exact this

/-- A sum over a grid of step `c` against the sum over all positions. -/
theorem grid_le (h : ℕ → ℚ) (s c n : ℕ) :
    c * ∑ m ∈ Finset.range n, h (s + m * c) ≤ ∑ y ∈ Finset.range (s + n * c), h y - ∑ y ∈ Finset.range s, h y +
      c * (variation h (s + n * c) - variation h s) := by
  induction n with
  | zero => simp
  | succ n ih =>
    have b := block_le h (s + n * c) c
    rw [Finset.sum_range_succ, show s + (n + 1) * c = s + n * c + c by ring, Finset.sum_range_add]
    linarith

section
variable (g : ℤ → ℚ)

/-- The response at natural positions. -/
def respN (y : ℕ) : ℚ := response g y

theorem respN_cell (p f : ℕ) (hf : f ≤ 4096) : respN g (4096 * p + f) = g p + (f : ℚ) / 4096 * (g (p + 1) - g p) := by
  unfold respN response
  rcases eq_or_lt_of_le hf with rfl | hf
  · rw [show (((4096 * p + 4096 : ℕ) : ℤ) / 4096) = p + 1 by omega, show (((4096 * p + 4096 : ℕ) : ℤ) % 4096) = 0 by omega]
    push_cast; ring
  · rw [show (((4096 * p + f : ℕ) : ℤ) / 4096) = p by omega, show (((4096 * p + f : ℕ) : ℤ) % 4096) = f by omega]
    push_cast; ring

theorem respN_sum (L : ℕ) : ∑ y ∈ Finset.range (4096 * L), respN g y = 4096 * ∑ p ∈ Finset.range L, g p + 4095 / 2 * (g L - g 0) := by
  induction L with
  | zero => simp
  | succ L ih =>
    rw [show 4096 * (L + 1) = 4096 * L + 4096 by ring, Finset.sum_range_add, ih, Finset.sum_range_succ (n := L),
      Finset.sum_congr rfl (fun f hf => respN_cell g L f (Finset.mem_range.1 hf).le), Finset.sum_add_distrib, ← Finset.sum_mul, ← Finset.sum_div]
    have e : ∑ f ∈ Finset.range 4096, (f : ℚ) = 4096 * 4095 / 2 := by
      have := Finset.sum_range_id_mul_two 4096
      have h2 : ((∑ f ∈ Finset.range 4096, f : ℕ) : ℚ) * 2 = 4096 * (4096 - 1 : ℕ) := by exact_mod_cast this
      push_cast at h2
      rw [eq_div_iff (by norm_num), h2]
    rw [e]
    simp only [Finset.sum_const, Finset.card_range, nsmul_eq_mul]
    push_cast
    ring

theorem respN_var (L : ℕ) : variation (respN g) (4096 * L) = ∑ p ∈ Finset.range L, |g (p + 1) - g p| := by
  unfold variation
  induction L with
  | zero => simp
  | succ L ih =>
    rw [show 4096 * (L + 1) = 4096 * L + 4096 by ring, Finset.sum_range_add, ih, Finset.sum_range_succ (n := L)]
    refine congrArg₂ (· + ·) rfl ?_
    have : ∀ f ∈ Finset.range 4096, |respN g (4096 * L + f + 1) - respN g (4096 * L + f)| = |g (L + 1) - g L| / 4096 := by
      intro f hf
      have := Finset.mem_range.1 hf
      rw [add_assoc, respN_cell g L f (by omega), respN_cell g L (f + 1) (by omega),
        show g L + ((f + 1 : ℕ) : ℚ) / 4096 * (g (L + 1) - g L) - (g L + (f : ℚ) / 4096 * (g (L + 1) - g L)) = (g (L + 1) - g L) / 4096 by push_cast; ring,
        abs_div, abs_of_pos (show (0 : ℚ) < 4096 by norm_num)]
    rw [Finset.sum_congr rfl this]
    simp only [Finset.sum_const, Finset.card_range, nsmul_eq_mul]
    push_cast
    ring

/-- Sum of a non-negative response over a grid of step `c`: at most `4096 / c` times the sum of the table, plus its variation. -/
theorem side_le (hg : ∀ j, 0 ≤ g j) {S V : ℚ} {M : ℕ} (hS : ∀ L, ∑ p ∈ Finset.range L, g p ≤ S) (hV : ∀ L, ∑ p ∈ Finset.range L, |g ((p : ℤ) + 1) - g p| ≤ V)
    (hz : ∀ L : ℕ, M ≤ L → g L = 0) (s c n : ℕ) :
    c * ∑ m ∈ Finset.range n, response g (s + m * c) ≤ 4096 * S + c * V := by
  have b := grid_le (respN g) s c n
  have hr : ∀ y, 0 ≤ respN g y := fun y => response_nonneg hg _
  have e1 : ∑ m ∈ Finset.range n, response g (s + m * c) = ∑ m ∈ Finset.range n, respN g (s + m * c) := by
    refine Finset.sum_congr rfl (fun m _ => ?_)
    unfold respN; push_cast; rfl
  rw [e1]
  have h1 : ∑ y ∈ Finset.range (s + n * c), respN g y ≤ ∑ y ∈ Finset.range (4096 * (s + n * c + M)), respN g y :=
    Finset.sum_le_sum_of_subset_of_nonneg (Finset.range_mono (by omega)) (fun _ _ _ => hr _)
  have h2 : 0 ≤ ∑ y ∈ Finset.range s, respN g y := Finset.sum_nonneg (fun _ _ => hr _)
  have h3 := variation_mono (respN g) (show s + n * c ≤ 4096 * (s + n * c + M) by omega)
  have h4 : 0 ≤ variation (respN g) s := Finset.sum_nonneg (fun _ _ => abs_nonneg _)
  rw [respN_sum, hz _ (by omega)] at h1
  rw [respN_var] at h3
  have h5 := hS (s + n * c + M)
  have h6 := hV (s + n * c + M)
  have h7 := hg 0
  have hc : (0 : ℚ) ≤ c := by positivity
  have h8 : (c : ℚ) * (variation (respN g) (s + n * c) - variation (respN g) s) ≤ c * V := mul_le_mul_of_nonneg_left (by linarith) hc
  linarith

end

end Verif

namespace Verif.Coeffs
open Verif Spec

section
variable {rows : List (List ℤ)} {inc cnt : ℕ} {lo hi top : ℤ} {S V d M z : ℕ} (C : Checked rows inc cnt lo hi top S V d M z)
include C

theorem Checked.err' (hM : M ≤ 95 * 10 ^ 25) (j : ℕ) :
    |tabQ rows.flatten j - (rows.flatten.getD j 0 : ℚ) / 10 ^ 27| ≤ if j < cnt then 1 / 30000000 else 0 := by
  split_ifs with h
  · have := C.err hM j
    unfold entry at this
    rwa [Int.toNat_natCast] at this
  · have : rows.flatten.getD j 0 = 0 := List.getD_eq_default _ _ (by have := C.length; omega)
    unfold tabQ entry
    rw [Int.toNat_natCast, this, litQ_zero]; simp

omit C in
theorem ite_sum (c : ℚ) (hc : 0 ≤ c) (cnt L : ℕ) : ∑ j ∈ Finset.range L, (if j < cnt then c else 0) ≤ cnt * c := by
  rw [← Finset.sum_filter, Finset.sum_const, nsmul_eq_mul]
  apply mul_le_mul_of_nonneg_right _ hc
  have : (Finset.filter (fun j => j < cnt) (Finset.range L)).card ≤ (Finset.range cnt).card :=
    Finset.card_le_card (fun j hj => by simp at *; omega)
  rw [Finset.card_range] at this
  exact_mod_cast this

theorem Checked.sum_le (hM : M ≤ 95 * 10 ^ 25) (L : ℕ) :
    ∑ j ∈ Finset.range L, |tabQ rows.flatten j| ≤ S / 10 ^ 27 + cnt * (1 / 30000000) := by
  have h1 : ∑ j ∈ Finset.range L, |tabQ rows.flatten j| ≤
      ∑ j ∈ Finset.range L, (|(rows.flatten.getD j 0 : ℚ)| / 10 ^ 27 + if j < cnt then 1 / 30000000 else 0) := by
    refine Finset.sum_le_sum (fun j _ => ?_)
    have := C.err' hM j
    have a := abs_sub_abs_le_abs_sub (tabQ rows.flatten j) ((rows.flatten.getD j 0 : ℚ) / 10 ^ 27)
    rw [abs_div, abs_of_pos (show (0 : ℚ) < 10 ^ 27 by norm_num)] at a
    linarith
  rw [Finset.sum_add_distrib, ← Finset.sum_div] at h1
  have h2 := ite_sum (1 / 30000000) (by norm_num) cnt L
  have h3 : (∑ j ∈ Finset.range L, |(rows.flatten.getD j 0 : ℚ)|) ≤ S := by
    have := absLe_sum _ _ C.sum L
    exact_mod_cast this
  have h4 : (∑ j ∈ Finset.range L, |(rows.flatten.getD j 0 : ℚ)|) / 10 ^ 27 ≤ S / 10 ^ 27 := div_le_div_of_nonneg_right h3 (by norm_num)
  linarith

theorem Checked.var_le (hM : M ≤ 95 * 10 ^ 25) (L : ℕ) :
    ∑ j ∈ Finset.range L, |tabQ rows.flatten ((j : ℤ) + 1) - tabQ rows.flatten j| ≤ V / 10 ^ 27 + cnt * (1 / 15000000) := by
  have h1 : ∑ j ∈ Finset.range L, |tabQ rows.flatten ((j : ℤ) + 1) - tabQ rows.flatten j| ≤
      ∑ j ∈ Finset.range L, (|(rows.flatten.getD (j + 1) 0 - rows.flatten.getD j 0 : ℚ)| / 10 ^ 27 + if j < cnt then 1 / 15000000 else 0) := by
    refine Finset.sum_le_sum (fun j _ => ?_)
    have a := C.err' hM j
    have b := C.err' hM (j + 1)
    push_cast at b
    rw [← abs_of_pos (show (0 : ℚ) < 10 ^ 27 by norm_num), ← abs_div, sub_div]
    have e : tabQ rows.flatten ((j : ℤ) + 1) - tabQ rows.flatten j = ((rows.flatten.getD (j + 1) 0 : ℚ) / 10 ^ 27 - (rows.flatten.getD j 0 : ℚ) / 10 ^ 27) +
        ((tabQ rows.flatten ((j : ℤ) + 1) - (rows.flatten.getD (j + 1) 0 : ℚ) / 10 ^ 27) - (tabQ rows.flatten j - (rows.flatten.getD j 0 : ℚ) / 10 ^ 27)) := by ring
    rw [e]
    refine (abs_add_le _ _).trans (add_le_add (le_refl _) ((abs_sub _ _).trans ?_))
    by_cases h : j < cnt
    · rw [if_pos h] at a ⊢
      have : (if j + 1 < cnt then (1 / 30000000 : ℚ) else 0) ≤ 1 / 30000000 := by split_ifs <;> norm_num
      linarith
    · rw [if_neg h] at a ⊢
      rw [if_neg (by omega)] at b
      linarith
  rw [Finset.sum_add_distrib, ← Finset.sum_div] at h1
  have h2 := ite_sum (1 / 15000000) (by norm_num) cnt L
  have h3 : (∑ j ∈ Finset.range L, |(rows.flatten.getD (j + 1) 0 - rows.flatten.getD j 0 : ℚ)|) ≤ V := by
    have := C.var_sum L
    exact_mod_cast this
  have h4 : (∑ j ∈ Finset.range L, |(rows.flatten.getD (j + 1) 0 - rows.flatten.getD j 0 : ℚ)|) / 10 ^ 27 ≤ V / 10 ^ 27 := div_le_div_of_nonneg_right h3 (by norm_num)
  linarith

end

end Verif.Coeffs
