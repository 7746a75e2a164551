import Mathlib.Analysis.Complex.Trigonometric
import Verif.Proof.SineWave
import Verif.Proof.TableSums

/-! Second moments of a table, evaluated by the kernel, and the frequencies in between those of the check. -/

namespace Verif.Sine
open Verif.Coeffs

/-- Magnitudes times the square of the index (which begins at `i`). -/
def bend (i : ℕ) : List ℤ → List ℤ
  | [] => []
  | a :: t => ((a.natAbs * (i * i) : ℕ) : ℤ) :: bend (i + 1) t

/-- The same, row by row. -/
def bendRows (i : ℕ) : List (List ℤ) → List (List ℤ)
  | [] => []
  | r :: t => bend i r :: bendRows (i + r.length) t

theorem bend_append : ∀ (s t : List ℤ) (i : ℕ), bend i (s ++ t) = bend i s ++ bend (i + s.length) t
  | [], t, i => rfl
  | a :: s, t, i => by
    rw [List.cons_append, bend, bend, bend_append s t (i + 1), List.cons_append, List.length_cons, show i + 1 + s.length = i + (s.length + 1) by omega]

theorem bendRows_flatten : ∀ (rows : List (List ℤ)) (i : ℕ), (bendRows i rows).flatten = bend i rows.flatten
  | [], i => rfl
  | r :: t, i => by rw [bendRows, List.flatten_cons, bendRows_flatten t, List.flatten_cons, bend_append]

theorem bendRows_length : ∀ (rows : List (List ℤ)) (i : ℕ), (bendRows i rows).length = rows.length
  | [], i => rfl
  | r :: t, i => by rw [bendRows, List.length_cons, bendRows_length t, List.length_cons]

theorem bend_getD : ∀ (l : List ℤ) (i j : ℕ), (bend i l).getD j 0 = |l.getD j 0| * ((i + j : ℕ) : ℤ) ^ 2
  | [], i, j => by simp [bend]
  | a :: t, i, j => by
    cases j with
    | zero =>
      rw [bend, List.getD_cons_zero, List.getD_cons_zero, Nat.add_zero]
      push_cast
      ring
    | succ j =>
      rw [bend, List.getD_cons_succ, List.getD_cons_succ, bend_getD t (i + 1) j, show i + 1 + j = i + (j + 1) by omega]

/-- Check of the second moments: they are at most `top`. -/
structure Bent (rows : List (List ℤ)) (inc : ℕ) (top : ℤ) : Prop where
  pos : 0 < inc
  ok : rowsOk inc (bendRows 0 rows) = true
  len : (colSum (bendRows 0 rows)).length = inc
  bound : phasesIn 0 top (phases (colSum (bendRows 0 rows)) ((bendRows 0 rows).flatten.getD 0 0)) = true

theorem Bent.moment_le {rows : List (List ℤ)} {inc : ℕ} {top : ℤ} (C : Bent rows inc top) {A : ℕ} (p : ℕ) (hp : p ≤ inc) :
    moment (fun i => (rows.flatten.getD i 0 : ℝ) / A) inc rows.length p ≤ top / A := by
  have h := (phasesIn_sum C.ok C.len C.pos C.bound p hp).2
  rw [bendRows_flatten, bendRows_length] at h
  have e : moment (fun i => (rows.flatten.getD i 0 : ℝ) / A) inc rows.length p =
      ((phase (bend 0 rows.flatten) inc rows.length p + phase (bend 0 rows.flatten) inc rows.length (inc - p) : ℤ) : ℝ) / A := by
    unfold moment phase
    rw [← Finset.sum_add_distrib]
    push_cast
    rw [Finset.sum_div]
    refine Finset.sum_congr rfl (fun m _ => ?_)
    rw [bend_getD, bend_getD, abs_div, abs_div, abs_of_nonneg (Nat.cast_nonneg A : (0 : ℝ) ≤ A)]
    push_cast
    simp only [zero_add]
    ring
  rw [e]
  apply div_le_div_of_nonneg_right _ (Nat.cast_nonneg A)
  exact_mod_cast h

/-- Point on the unit circle at the small angle `x`. -/
theorem near_small {x : ℝ} (x1 : |x| ≤ 1) {a b : ℕ} {e : ℝ} (h1 : |coord a - (1 - x ^ 2 / 2)| + |x| ^ 4 * (5 / 96) ≤ e / 2) (h2 : |coord b - (x - x ^ 3 / 6)| + |x| ^ 5 / 100 ≤ e / 2) :
    Near e x a b := by
  have c := Real.cos_bound x1
  have s := Real.sin_bound x1
  refine near_of (le_trans ?_ h1) (le_trans ?_ h2)
  · have := abs_sub_le (coord a) (1 - x ^ 2 / 2) (Real.cos x)
    rw [abs_sub_comm (1 - x ^ 2 / 2)] at this
    linarith
  · have := abs_sub_le (coord b) (x - x ^ 3 / 6) (Real.sin x)
    rw [abs_sub_comm (x - x ^ 3 / 6)] at this
    linarith

/-- Parameters of the checks of this repository: entries in units of `10^-27`, and digits of 161 bits of which 136 vary. -/
def scale : Scale := ⟨1000000000000000000000000000, 2305843009213693952, 161, 136⟩

end Verif.Sine
