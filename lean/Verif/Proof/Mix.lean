import Verif.Proof.Glide
import Verif.Proof.LinearSample
import Verif.Proof.FilterFloat
import Verif.Spec.Mix

/-! Exact values of the linear converter, and histories that differ only in sample values. -/

namespace Verif
open Spec

/-- Rounding to double: relative error `2^-53`, or absolute error `2^-1075` below the normal range. -/
theorem r64_err' (z : ℚ) : |r64 z - z| ≤ |z| / 2 ^ 53 + p2 (-1075) := by
  rcases le_or_gt (p2 (-1022)) |z| with h | h
  · have := rel_err h
    have e : p2 (-53) = 1 / 2 ^ 53 := by norm_num [p2]
    rw [e] at this
    have := p2_pos (-1075)
    linarith
  · have := abs_rq_sub_le_of_lt (f := f64) (k := -1021) (h.trans (p2_lt (by norm_num))) (by decide)
    rw [show (-1021 : ℤ) - (f64.prec : ℤ) - 1 = -1075 by decide] at this
    have h0 : 0 ≤ |z| / 2 ^ 53 := by positivity
    linarith

/-- The interpolated sample is the exact one up to rounding. -/
theorem lin_near {p q s u : ℚ} (hp : |p| ≤ u) (hq : |q| ≤ u) (h0 : 0 ≤ s) (h1 : s < 1) :
    |rq f32 (r64 (p + r64 (s * r64 (q - p)))) - (p + s * (q - p))| ≤ u / 2 ^ 23 + 1 / 2 ^ 149 := by
  have htiny : p2 (-1075) ≤ p2 (-153) := p2_le (by norm_num)
  have h149 : p2 (-150) + 8 * p2 (-153) = 1 / 2 ^ 149 := by norm_num [p2]
  have hu : 0 ≤ u := (abs_nonneg _).trans hp
  have e1 := r64_err' (q - p)
  set A := r64 (q - p) with hA
  have e2 := r64_err' (s * A)
  set B := r64 (s * A) with hB
  have e3 := r64_err' (p + B)
  set D := r64 (p + B) with hD
  have e4 := rq32_err D
  generalize rq f32 D = Y at *
  have h53 : p2 (-153) ≤ 1 := by norm_num [p2]
  have hε := p2_pos (-153)
  generalize p2 (-1075) = η at *
  generalize p2 (-153) = ε at *
  generalize p2 (-150) = δ at *
  have a0 : |q - p| ≤ 2 * u := (abs_sub _ _).trans (by linarith)
  have a1 : |A - (q - p)| ≤ 2 * u / 2 ^ 53 + ε := by
    have : |q - p| / 2 ^ 53 ≤ 2 * u / 2 ^ 53 := by gcongr
    linarith
  have hA1 : |A| ≤ 3 * u + ε := by
    have := abs_add_le (A - (q - p)) (q - p)
    rw [sub_add_cancel] at this
    have : 2 * u / 2 ^ 53 ≤ u := by linarith
    linarith
  have hsA : |s * A| ≤ 3 * u + ε := by
    rw [abs_mul, abs_of_nonneg h0]
    calc s * |A| ≤ 1 * |A| := mul_le_mul_of_nonneg_right h1.le (abs_nonneg _)
      _ ≤ _ := by linarith
  have a2 : |B - s * A| ≤ (3 * u + ε) / 2 ^ 53 + ε := by
    have : |s * A| / 2 ^ 53 ≤ (3 * u + ε) / 2 ^ 53 := by gcongr
    linarith
  have a2' : |s * A - s * (q - p)| ≤ 2 * u / 2 ^ 53 + ε := by
    rw [← mul_sub, abs_mul, abs_of_nonneg h0]
    calc s * |A - (q - p)| ≤ 1 * |A - (q - p)| := mul_le_mul_of_nonneg_right h1.le (abs_nonneg _)
      _ ≤ _ := by linarith
  have hex : |p + s * (q - p)| ≤ u := by
    rw [_root_.abs_le] at hp hq ⊢
    constructor <;> nlinarith
  have a3 : |p + B - (p + s * (q - p))| ≤ (5 * u + ε) / 2 ^ 53 + 2 * ε := by
    have := abs_add_le (B - s * A) (s * A - s * (q - p))
    rw [show B - s * A + (s * A - s * (q - p)) = p + B - (p + s * (q - p)) by ring] at this
    refine this.trans ((add_le_add a2 a2').trans (by linarith))
  have hpB : |p + B| ≤ 2 * u + 3 * ε := by
    have := abs_add_le (p + B - (p + s * (q - p))) (p + s * (q - p))
    rw [sub_add_cancel] at this
    linarith
  have a4 : |D - (p + B)| ≤ (2 * u + 3 * ε) / 2 ^ 53 + ε := by
    have : |p + B| / 2 ^ 53 ≤ (2 * u + 3 * ε) / 2 ^ 53 := by gcongr
    linarith
  have a5 : |D - (p + s * (q - p))| ≤ (7 * u + 4 * ε) / 2 ^ 53 + 3 * ε := by
    have := abs_add_le (D - (p + B)) (p + B - (p + s * (q - p)))
    rw [sub_add_sub_cancel] at this
    refine this.trans ((add_le_add a4 a3).trans (by linarith))
  have hDb : |D| ≤ u + ((7 * u + 4 * ε) / 2 ^ 53 + 3 * ε) := by
    have := abs_add_le (D - (p + s * (q - p))) (p + s * (q - p))
    rw [sub_add_cancel] at this
    linarith
  have := abs_add_le (Y - D) (D - (p + s * (q - p)))
  rw [sub_add_sub_cancel] at this
  have b1 : |D| / 16777216 ≤ (u + ((7 * u + 4 * ε) / 2 ^ 53 + 3 * ε)) / 16777216 := by gcongr
  rw [← h149]
  linarith

theorem ratiosFrom_congr {rat : ℚ → ℚ → ℕ → ℕ → ℕ → ℚ} {ch : ℕ} {ops ops' : List Op} {os os' : List Obs} (h : List.Forall₂ SameCall ops ops')
    (ho : List.Forall₂ SameTiming os os') : ∀ l, ratiosFrom rat ch l ops os = ratiosFrom rat ch l ops' os' := by
  induction h generalizing os os' with
  | nil => intro l; cases ho <;> rfl
  | @cons a b as bs hab _ ih =>
    intro l
    cases ho with
    | nil => cases a <;> cases b <;> simp only [ratiosFrom]
    | @cons o o' os os' hoo hos =>
      cases hab with
      | process m m' d =>
        cases d with
        | none => simp only [ratiosFrom]; exact ih hos l
        | some d =>
          simp only [ratiosFrom, hoo.ret, hoo.data, ih hos]
      | setRatio r => simp only [ratiosFrom, hoo.ret]; rw [ih hos]
      | reset => simp only [ratiosFrom]; rw [ih hos]

/-- Two histories that differ only in sample values have the same number of output frames, at the same times. -/
theorem schedule_congr {rat : ℚ → ℚ → ℕ → ℕ → ℕ → ℚ} {ch n n' : ℕ} {ρ ρ' : ℕ → ℚ} {ops ops' : List Op} {os os' : List Obs} (h : List.Forall₂ SameCall ops ops')
    (ho : List.Forall₂ SameTiming os os') (e : ratiosFrom rat ch 0 ops os = (List.range n).map ρ) (e' : ratiosFrom rat ch 0 ops' os' = (List.range n').map ρ') :
    n = n' ∧ ∀ j < n, ρ j = ρ' j ∧ timeAt ρ j = timeAt ρ' j := by
  rw [ratiosFrom_congr h ho, e'] at e
  have hn : n' = n := by simpa using congrArg List.length e
  subst hn
  have hk : ∀ j < n', ρ j = ρ' j := by
    intro j hj
    have := congrArg (fun l => l[j]?) e
    simpa [hj] using this.symm
  refine ⟨rfl, fun j hj => ⟨hk j hj, ?_⟩⟩
  unfold timeAt
  rw [posAt_congr (ρ := ρ) (ρ' := ρ') (fun i hi => hk i (by omega))]

theorem exactIdeal_mix {t : CoeffTable} {a b : ℚ} {x y z : ℕ → ℕ → F32} (h : Mixed a b x y z) (D : ℤ) (ρ τ : ℚ) (c : ℕ) :
    exactIdeal t z D ρ τ c = a * exactIdeal t x D ρ τ c + b * exactIdeal t y D ρ τ c := by
  have hs : ∀ w : ℤ, valOf (signal z w c) = a * valOf (signal x w c) + b * valOf (signal y w c) := by
    intro w
    unfold signal
    split_ifs
    · have : valOf zero32 = 0 := by unfold valOf; rw [show zero32.val = some 0 by simpa [zero32] using Fl.val_ofInt (f := f32) (n := 0) (by norm_num [f32])]; rfl
      rw [this]; ring
    · exact h _ _
  unfold exactIdeal exactAt exactSum
  simp only [hs]
  rw [mul_left_comm a, mul_left_comm b, ← mul_add]
  congr 1
  rw [Finset.mul_sum, Finset.mul_sum, ← Finset.sum_add_distrib]
  refine Finset.sum_congr rfl (fun k _ => ?_)
  split_ifs
  · ring
  · ring

end Verif
