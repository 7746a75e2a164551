import Verif.Spec.Filter
import Verif.Proof.SincNum

/-! Rounding error of the sinc filter sums. -/

namespace Verif
open Spec

theorem response_abs_le {q : ℤ → ℚ} {b : ℚ} (h : ∀ i, |q i| ≤ b) (p : ℤ) : |response q p| ≤ b := by
  unfold response
  have h0 : 0 ≤ p % 4096 := Int.emod_nonneg _ (by norm_num)
  have h1 : p % 4096 < 4096 := Int.emod_lt_of_pos _ (by norm_num)
  have f0 : (0 : ℚ) ≤ ((p % 4096 : ℤ) : ℚ) / 4096 := by have : (0 : ℚ) ≤ ((p % 4096 : ℤ) : ℚ) := by exact_mod_cast h0
                                                        positivity
  have f1 : ((p % 4096 : ℤ) : ℚ) / 4096 ≤ 1 := by
    have : ((p % 4096 : ℤ) : ℚ) ≤ 4096 := by exact_mod_cast h1.le
    rw [div_le_one (by norm_num)]; exact this
  generalize ((p % 4096 : ℤ) : ℚ) / 4096 = φ at *
  have a := h (p / 4096); have c := h (p / 4096 + 1)
  rw [abs_le] at *
  constructor <;> nlinarith

theorem frac_val (x : ℤ) : (Fl.mul (Fl.ofInt f64 (x % 4096)) (Fl.div (Fl.ofInt f64 1) (Fl.ofInt f64 4096))).val =
    some (((x % 4096 : ℤ) : ℚ) / 4096) := by
  have h0 : 0 ≤ x % 4096 := Int.emod_nonneg _ (by norm_num)
  have h1 : x % 4096 < 4096 := Int.emod_lt_of_pos _ (by norm_num)
  have e1 : (Fl.ofInt f64 (x % 4096)).val = some ((x % 4096 : ℤ) : ℚ) := dbl_val (by rw [abs_of_nonneg h0]; omega)
  have e2 : (Fl.ofInt f64 4096).val = some 4096 := by
    have := dbl_val (n := 4096) (by norm_num)
    exact this
  have e3 := div64 one64_val e2 (by norm_num) (by norm_num)
  have r3 : r64 (1 / 4096) = 1 / 4096 := rq_of_rep (by
    have := rep0_p2 (f := f64) (e := -12) (by decide)
    norm_num [p2] at this ⊢; exact this)
  rw [r3] at e3
  have b : ((x % 4096 : ℤ) : ℚ) ≤ 4096 := by exact_mod_cast h1.le
  have b0 : (0 : ℚ) ≤ ((x % 4096 : ℤ) : ℚ) := by exact_mod_cast h0
  have e4 := mul64 e1 e3 (by rw [abs_of_nonneg (by positivity)]; linarith)
  have r4 : r64 (((x % 4096 : ℤ) : ℚ) * (1 / 4096)) = ((x % 4096 : ℤ) : ℚ) / 4096 := by
    rw [mul_one_div]
    refine rq_of_rep (rep0_of_le (m := x % 4096) (e := -12) (by decide) ?_ (by norm_num [p2]; ring))
    rw [abs_of_nonneg h0]; exact h1.le.trans (by norm_num [f64])
  rw [r4] at e4
  exact e4

/-- The coefficient the converter computes, against the exact response.  `δ` bounds the steps between table entries. -/
theorem coeff_val {co : ℤ → F32} {q : ℤ → ℚ} (hq : ∀ i, (co i).val = some (q i)) (h1 : ∀ i, |q i| ≤ 1) {δ : ℤ} (hδ : -20 ≤ δ) (hδ' : δ ≤ 2)
    (hd : ∀ i, |q (i + 1) - q i| < p2 δ) (fi : ℤ) :
    ∃ h, (sincCoeff co fi).val = some h ∧ |h - response q fi| ≤ p2 (δ - 24) := by
  have hfr := frac_val fi
  have m0 : 0 ≤ fi % 4096 := Int.emod_nonneg _ (by norm_num)
  have m1 : fi % 4096 < 4096 := Int.emod_lt_of_pos _ (by norm_num)
  have f0 : (0 : ℚ) ≤ ((fi % 4096 : ℤ) : ℚ) / 4096 := by
    have : (0 : ℚ) ≤ ((fi % 4096 : ℤ) : ℚ) := by exact_mod_cast m0
    positivity
  have f1 : ((fi % 4096 : ℤ) : ℚ) / 4096 ≤ 1 := by
    have : ((fi % 4096 : ℤ) : ℚ) ≤ 4096 := by exact_mod_cast m1.le
    rw [div_le_one (by norm_num)]; exact this
  have hd' := hd (fi / 4096)
  have c0 := h1 (fi / 4096)
  unfold sincCoeff response
  simp only
  generalize ((fi % 4096 : ℤ) : ℚ) / 4096 = φ at *
  have hpδ : p2 δ ≤ 4 := (p2_le hδ').trans (by norm_num [p2])
  have hrep : Rep0 f32 (p2 δ) := rep0_p2 (by show (-149 : ℤ) ≤ δ; omega)
  have hsub : (Fl.sub (co (fi / 4096 + 1)) (co (fi / 4096))).val = some (rq f32 (q (fi / 4096 + 1) - q (fi / 4096))) :=
    Fl.val_sub (hq _) (hq _) (lt_of_le_of_lt ((Fl.abs_rq_le hrep hd'.le).trans hpδ) (by show (4 : ℚ) < p2 128; norm_num [p2]))
  have hDe := abs_rq_sub_le_of_lt (f := f32) hd' (by show (-149 + 24 : ℤ) ≤ δ; omega)
  have hDb := Fl.abs_rq_le (f := f32) hrep hd'.le
  have hconv := Fl.val_conv64 hsub
  generalize q (fi / 4096 + 1) - q (fi / 4096) = s at *
  generalize rq f32 s = D at *
  have hφD : |φ * D| ≤ p2 δ := by
    rw [abs_mul, abs_of_nonneg f0]
    calc φ * |D| ≤ 1 * p2 δ := mul_le_mul f1 hDb (abs_nonneg _) (by norm_num)
      _ = _ := one_mul _
  have hmul := mul64 hfr hconv (hφD.trans (hpδ.trans (by norm_num)))
  have hMe := abs_rq_sub_le_of_lt (f := f64) (q := φ * D) (k := δ + 1) (lt_of_le_of_lt hφD (p2_lt (by omega))) (by show (-1074 + 53 : ℤ) ≤ _; omega)
  have hMb := Fl.abs_rq_le (f := f64) (rep0_p2 (by show (-1074 : ℤ) ≤ δ; omega)) hφD
  generalize r64 (φ * D) = M at *
  have hs : |q (fi / 4096) + M| ≤ 5 := by rw [abs_le] at *; constructor <;> linarith
  have hadd := add64 (Fl.val_conv64 (hq (fi / 4096))) hmul (hs.trans (by norm_num))
  have hAe := abs_rq_sub_le_of_lt (f := f64) (q := q (fi / 4096) + M) (k := 3) (lt_of_le_of_lt hs (by norm_num [p2])) (by decide)
  refine ⟨_, hadd, ?_⟩
  generalize r64 (q (fi / 4096) + M) = A at *
  have e1 : p2 (δ - (f32.prec : ℤ) - 1) = p2 (δ - 24) / 2 := by
    rw [show δ - (f32.prec : ℤ) - 1 = δ - 24 - 1 by show δ - 24 - 1 = _; rfl, p2_sub (δ - 24) 1]; norm_num [p2]
  have e2 : p2 (δ + 1 - (f64.prec : ℤ) - 1) ≤ p2 (δ - 24) / 8 := by
    rw [show p2 (δ - 24) / 8 = p2 (δ - 24 - 3) by rw [p2_sub (δ - 24) 3]; norm_num [p2]]
    apply p2_le; show δ + 1 - 53 - 1 ≤ _; omega
  have e3 : p2 (3 - (f64.prec : ℤ) - 1) ≤ p2 (δ - 24) / 8 := by
    rw [show p2 (δ - 24) / 8 = p2 (δ - 24 - 3) by rw [p2_sub (δ - 24) 3]; norm_num [p2]]
    apply p2_le; show (3 - 53 - 1 : ℤ) ≤ _; omega
  have hφe : |φ * D - φ * s| ≤ p2 (δ - 24) / 2 := by
    rw [← mul_sub, abs_mul, abs_of_nonneg f0]
    rw [e1] at hDe
    calc φ * |D - s| ≤ 1 * (p2 (δ - 24) / 2) := mul_le_mul f1 hDe (abs_nonneg _) (by norm_num)
      _ = _ := one_mul _
  have hp := p2_pos (δ - 24)
  have hMe' := hMe.trans e2
  have hAe' := hAe.trans e3
  rw [abs_le] at hφe hMe' hAe' ⊢
  constructor <;> linarith

/-- Rounding error of a sum of taps. -/
theorem tapSum_val {h X : ℕ → F64} {η H ξ : ℕ → ℚ} {ε : ℚ} {e : ℤ} (ε0 : 0 ≤ ε) (ε1 : ε ≤ 1) (he : -900 ≤ e) (he' : e ≤ 64) :
    ∀ n : ℕ, n ≤ 2 ^ 16 → (∀ j < n, (h j).val = some (η j) ∧ |η j - H j| ≤ ε ∧ |H j| ≤ 1) →
      (∀ j < n, (X j).val = some (ξ j) ∧ |ξ j| ≤ p2 e) →
      ∃ y, (tapSum n h X).val = some y ∧ |y - ∑ j ∈ Finset.range n, H j * ξ j| ≤ n * ((ε + p2 (-34)) * p2 e) ∧
        |∑ j ∈ Finset.range n, H j * ξ j| ≤ n * p2 e := by
  intro n
  induction n with
  | zero =>
    intro _ _ _
    exact ⟨0, zero64_val, by simp, by simp⟩
  | succ n ih =>
    intro hn hh hX
    obtain ⟨y, hy, e1, e2⟩ := ih (by omega) (fun j hj => hh j (by omega)) (fun j hj => hX j (by omega))
    obtain ⟨a1, a2, a3⟩ := hh n (by omega)
    obtain ⟨b1, b2⟩ := hX n (by omega)
    rw [Finset.sum_range_succ]
    generalize ∑ j ∈ Finset.range n, H j * ξ j = S at *
    have hV := p2_pos e
    have hV64 : p2 e ≤ 2 ^ 64 := (p2_le he').trans (by norm_num [p2])
    have hnq : (n : ℚ) ≤ 65536 := by exact_mod_cast (by omega : n ≤ 65536)
    have hn0 : (0 : ℚ) ≤ n := by positivity
    have p34 : p2 (-34) ≤ 1 := by norm_num [p2]
    have p34' := p2_pos (-34)
    generalize hVd : p2 e = V at *
    have hη : |η n| ≤ 2 := by rw [abs_le] at *; constructor <;> linarith
    have hηξ : |η n * ξ n| ≤ 2 * V := by
      rw [abs_mul]; exact mul_le_mul hη b2 (abs_nonneg _) (by norm_num)
    have hmul := mul64 a1 b1 (hηξ.trans (by linarith))
    have two : 2 * V < p2 (e + 2) := by rw [p2_add, hVd]; norm_num [p2]; linarith
    have hMe := abs_rq_sub_le_of_lt (f := f64) (lt_of_le_of_lt hηξ two) (by show (-1074 + 53 : ℤ) ≤ _; omega)
    have eM : p2 (e + 2 - (f64.prec : ℤ) - 1) = V * p2 (-52) := by
      rw [show e + 2 - (f64.prec : ℤ) - 1 = e + (-52) by show e + 2 - 53 - 1 = _; ring, p2_add, hVd]
    rw [eM] at hMe
    generalize hMd : r64 (η n * ξ n) = M at *
    have p52 : p2 (-52) = 1 / 4503599627370496 := by norm_num [p2]
    rw [p52] at hMe
    have hM3 : |M| ≤ 3 * V := by rw [abs_le] at *; constructor <;> linarith
    have hy3 : |y| ≤ 3 * 65536 * V := by
      have : (n : ℚ) * ((ε + p2 (-34)) * V) ≤ 65536 * (2 * V) := by
        apply mul_le_mul hnq _ (by positivity) (by norm_num)
        apply mul_le_mul_of_nonneg_right _ hV.le; linarith
      have : (n : ℚ) * V ≤ 65536 * V := mul_le_mul_of_nonneg_right hnq hV.le
      rw [abs_le] at *
      constructor <;> linarith
    have hs : |y + M| ≤ 200000 * V := by rw [abs_le] at *; constructor <;> linarith
    have hadd := add64 hy hmul (hs.trans (by linarith))
    have big : 200000 * V < p2 (e + 18) := by rw [p2_add, hVd]; norm_num [p2]; linarith
    have hAe := abs_rq_sub_le_of_lt (f := f64) (lt_of_le_of_lt hs big) (by show (-1074 + 53 : ℤ) ≤ _; omega)
    have eA : p2 (e + 18 - (f64.prec : ℤ) - 1) = V * p2 (-36) := by
      rw [show e + 18 - (f64.prec : ℤ) - 1 = e + (-36) by show e + 18 - 53 - 1 = _; ring, p2_add, hVd]
    rw [eA] at hAe
    have e34 : p2 (-34) = 1 / 17179869184 := by norm_num [p2]
    have e36 : p2 (-36) = 1 / 68719476736 := by norm_num [p2]
    rw [e36] at hAe
    have hηe : |η n * ξ n - H n * ξ n| ≤ ε * V := by
      rw [← sub_mul, abs_mul]; exact mul_le_mul a2 b2 (abs_nonneg _) ε0
    have hHx : |H n * ξ n| ≤ V := by
      rw [abs_mul]
      calc |H n| * |ξ n| ≤ 1 * V := mul_le_mul a3 b2 (abs_nonneg _) (by norm_num)
        _ = V := one_mul V
    refine ⟨_, hadd, ?_, ?_⟩
    · rw [e34] at e1 ⊢
      push_cast
      rw [add_mul (n : ℚ) 1, one_mul]
      generalize (n : ℚ) * ((ε + 1 / 17179869184) * V) = W at *
      rw [abs_le] at *
      constructor <;> linarith
    · push_cast
      rw [add_mul (n : ℚ) 1, one_mul]
      exact (abs_add_le _ _).trans (add_le_add e2 hHx)

end Verif
