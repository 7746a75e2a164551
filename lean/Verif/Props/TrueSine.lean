import Mathlib.Analysis.Real.Pi.Bounds
import Mathlib.Analysis.SpecialFunctions.Trigonometric.Bounds
import Verif.Proof.Glide
import Verif.Props.Speed

/-!
# C61: the speed of `varispeed-play.c` against the sine of the reals
-/

namespace Verif
open Spec

/-- A function that computes the sine of the reals with an error of at most `1/10^12`. -/
def AccurateSine (sin : F64 → F64) : Prop :=
  ∀ (a : F64) (v : ℚ), a.val = some v → ∃ q : ℚ, (sin a).val = some q ∧ |(q : ℝ) - Real.sin v| ≤ 1 / 10 ^ 12

theorem piDouble_val : piDouble.val = some (884279719003555 / 281474976710656) := by decide +kernel

/-- The constant the program uses for `pi` is `pi` to within `2^-52`. -/
theorem C61_pi : ∃ q : ℚ, PI64.val = some q ∧ |(q : ℝ) - Real.pi| ≤ 1 / 2 ^ 52 := by
  refine ⟨_, by rw [← pi_double]; exact piDouble_val, ?_⟩
  have h1 := Real.pi_gt_d20
  have h2 := Real.pi_lt_d20
  rw [abs_le]
  push_cast
  constructor <;> norm_num at * <;> linarith

theorem abs_real {a e : ℚ} (h : |a| ≤ e) : |(a : ℝ)| ≤ e := by
  rw [abs_le] at *
  constructor
  · have : ((-e : ℚ) : ℝ) ≤ a := Rat.cast_le.2 h.1
    rwa [Rat.cast_neg] at this
  · exact Rat.cast_le.2 h.2

theorem big64 {q : ℚ} (h : |q| ≤ 2 ^ 40) : |rq f64 q| < p2 f64.emax := by
  have e : (2 : ℚ) ^ 40 = p2 40 := by norm_num [p2]
  rw [e] at h
  exact Fl.abs_rq_lt_emax (by decide) (by decide) h

/-- C61, the sine: with an accurate sine the ratio `speedAt sin k` that the program asks for in block `k` is `1 - 0.5 * sin (2 * pi * k / 20000)` of the reals to within `10^-9`, for every block the
program can reach. -/
theorem C61_sine (sin : F64 → F64) (hs : SineLike sin) (ha : AccurateSine sin) (k : ℕ) (hk : k < 2 ^ 30) :
    ∃ q, vsRatio sin k = .ok (speedAt sin k) ∧ (speedAt sin k).val = some q ∧ |(q : ℝ) - (1 - Real.sin (2 * Real.pi * k / 20000) / 2)| ≤ 1 / 10 ^ 9 := by
  obtain ⟨p, hp, hpi⟩ := C61_pi
  have hp4 : |(p : ℝ)| ≤ 4 := by
    have := Real.pi_lt_d20
    have := Real.pi_gt_d20
    rw [abs_le] at *
    norm_num at *
    constructor <;> linarith
  have hp4q : |p| ≤ 4 := by exact_mod_cast hp4
  have hkq : (k : ℚ) ≤ 2 ^ 30 := by exact_mod_cast hk.le
  have hk0 : (0 : ℚ) ≤ k := by positivity
  have v1 : (dbl ((k : ℤ) * 2)).val = some (((k : ℤ) * 2 : ℤ) : ℚ) := dbl_val (by rw [abs_of_nonneg (by positivity)]; omega)
  push_cast at v1
  have b1 : |(k : ℚ) * 2 * p| ≤ 2 ^ 33 := by
    rw [abs_mul, abs_of_nonneg (by positivity : (0 : ℚ) ≤ k * 2)]
    nlinarith [abs_nonneg p]
  have v2 := Fl.val_mul v1 hp (big64 (b1.trans (by norm_num)))
  have w2 := r64_err ((k : ℚ) * 2 * p)
  set y := rq f64 ((k : ℚ) * 2 * p) with hy
  have w2' : |y - k * 2 * p| ≤ 1 / 10 ^ 6 := by
    refine w2.trans ?_
    norm_num at b1 ⊢
    linarith
  have by2 : |y| ≤ 2 ^ 34 := by
    have := abs_sub_abs_le_abs_sub y (k * 2 * p)
    norm_num at *
    linarith
  have b2 : |y / 20000| ≤ 2 ^ 20 := by
    rw [abs_div, abs_of_pos (by norm_num : (0 : ℚ) < 20000)]
    rw [div_le_iff₀ (by norm_num)]
    norm_num at *
    linarith
  have v3 := Fl.val_div v2 (dbl_ofInt_small (n := 20000) (by norm_num) (by norm_num)) (by norm_num) (big64 (by push_cast; exact b2.trans (by norm_num)))
  push_cast at v3
  have w3 := r64_err (y / 20000)
  set z := rq f64 (y / 20000) with hz
  have w3' : |z - y / 20000| ≤ 1 / 10 ^ 9 / 4 := by
    refine w3.trans ?_
    norm_num at b2 ⊢
    linarith
  obtain ⟨q, q1, q2⟩ := ha _ z v3
  obtain ⟨q', q1', q3, q4⟩ := hs (Fl.div (Fl.mul (dbl ((k : ℤ) * 2)) PI64) (dbl 20000))
  rw [q1] at q1'
  cases q1'
  have hhalf : (Fl.round f64 (1 / 2)).val = some (1 / 2) := Fl.val_round_of_rep rep_half
  have bq : |1 / 2 * q| ≤ 1 := by rw [abs_le]; constructor <;> linarith
  have v4 := Fl.val_mul hhalf q1 (big64 (bq.trans (by norm_num)))
  have w4 := r64_err (1 / 2 * q)
  set s := rq f64 (1 / 2 * q) with hsd
  have w4' : |s - 1 / 2 * q| ≤ 1 / 10 ^ 12 := by
    refine w4.trans ?_
    norm_num at bq ⊢
    linarith
  have bs : |1 - s| ≤ 3 := by
    rw [abs_le] at *
    norm_num at *
    constructor <;> linarith
  have v5 := Fl.val_sub one64_val v4 (big64 (bs.trans (by norm_num)))
  have w5 := r64_err (1 - s)
  set t := rq f64 (1 - s) with ht
  have w5' : |t - (1 - s)| ≤ 1 / 10 ^ 12 := by
    refine w5.trans ?_
    norm_num at bs ⊢
    linarith
  refine ⟨t, ?_, by unfold speedAt; rw [pi_double]; exact v5, ?_⟩
  · unfold vsRatio speedAt
    rw [chkI32_ok (by omega) (by norm_num at hk; omega), pi_double]
    rfl
  -- the argument of the sine
  have hkr : (k : ℝ) ≤ 2 ^ 30 := by exact_mod_cast hk.le
  have hkr0 : (0 : ℝ) ≤ k := by positivity
  have harg : |(z : ℝ) - 2 * Real.pi * k / 20000| ≤ 1 / 10 ^ 9 / 2 := by
    have a1 : |(z : ℝ) - y / 20000| ≤ 1 / 10 ^ 9 / 4 := by have := abs_real w3'; push_cast at this; exact this
    have a2 : |(y : ℝ) - k * 2 * p| ≤ 1 / 2 ^ 19 := by
      have : |y - k * 2 * p| ≤ 1 / 2 ^ 19 := by
        refine w2.trans ?_
        norm_num at b1 ⊢
        linarith
      have := abs_real this
      push_cast at this
      exact this
    have a3 : |(k : ℝ) * 2 * p - k * 2 * Real.pi| ≤ 2 ^ 31 * (1 / 2 ^ 52) := by
      rw [← mul_sub, abs_mul, abs_of_nonneg (by positivity : (0 : ℝ) ≤ k * 2)]
      exact mul_le_mul (by linarith) hpi (abs_nonneg _) (by norm_num)
    have e : 2 * Real.pi * k / 20000 = (k : ℝ) * 2 * Real.pi / 20000 := by ring
    rw [e]
    generalize (k : ℝ) * 2 * Real.pi = A at *
    generalize (k : ℝ) * 2 * p = B at *
    rw [abs_le] at *
    norm_num at *
    constructor <;> linarith
  have hsin := (Real.abs_sin_sub_sin_le (z : ℝ) (2 * Real.pi * k / 20000)).trans harg
  have a4 : |(s : ℝ) - 1 / 2 * q| ≤ 1 / 10 ^ 12 := by have := abs_real w4'; push_cast at this; exact this
  have a5 : |(t : ℝ) - (1 - s)| ≤ 1 / 10 ^ 12 := by have := abs_real w5'; push_cast at this; exact this
  generalize Real.sin (2 * Real.pi * k / 20000) = A at *
  generalize Real.sin z = B at *
  rw [abs_le] at *
  norm_num at *
  constructor <;> linarith

/-- The sine of a double, rounded. -/
theorem sine_exists (v : ℚ) : ∃ y : F64, ∃ q, y.val = some q ∧ -1 ≤ q ∧ q ≤ 1 ∧ |(q : ℝ) - Real.sin v| ≤ 1 / 10 ^ 12 := by
  have s1 := Real.neg_one_le_sin v
  have s2 := Real.sin_le_one v
  obtain ⟨u, u1, u2⟩ := exists_rat_btwn (show Real.sin v - 1 / 10 ^ 13 < Real.sin v by norm_num)
  have r1 : Rep0 f64 1 := rep64_int (n := 1) (by norm_num)
  set w := max u (-1) with hw
  have hw1 : w ≤ 1 := by
    have : (u : ℝ) ≤ 1 := (u2.trans_le s2).le
    exact max_le (by exact_mod_cast this) (by norm_num)
  have hw0 : -1 ≤ w := le_max_right _ _
  have hws : |(w : ℝ) - Real.sin v| ≤ 1 / 10 ^ 13 := by
    rw [abs_le, hw]
    push_cast
    constructor
    · linarith [le_max_left (u : ℝ) (-1)]
    · have : max (u : ℝ) (-1) ≤ Real.sin v := max_le u2.le s1
      have : (0 : ℝ) ≤ 1 / 10 ^ 13 := by norm_num
      linarith
  have hb : |w| ≤ 1 := abs_le.2 ⟨hw0, hw1⟩
  refine ⟨Fl.round f64 w, rq f64 w, Fl.val_round (big64 (hb.trans (by norm_num))), le_rq (rep0_neg r1) hw0, rq_le r1 hw1, ?_⟩
  have e : |rq f64 w - w| ≤ 1 / 10 ^ 13 := (r64_err w).trans (by norm_num at hb ⊢; linarith)
  have e' := abs_real e
  push_cast at e'
  have := abs_sub_le (rq f64 w : ℝ) w (Real.sin v)
  norm_num at *
  linarith

open Classical in
/-- Non-vacuity of C61_sine: there is such a sine. -/
example : ∃ sin : F64 → F64, SineLike sin ∧ AccurateSine sin := by
  have h : ∀ a : F64, ∃ y : F64, ∃ q, y.val = some q ∧ -1 ≤ q ∧ q ≤ 1 ∧ ∀ v, a.val = some v → |(q : ℝ) - Real.sin v| ≤ 1 / 10 ^ 12 := by
    intro a
    cases hv : a.val with
    | none => exact ⟨one64, 1, one64_val, by norm_num, le_refl _, fun v h => by cases h⟩
    | some v =>
      obtain ⟨y, q, h1, h2, h3, h4⟩ := sine_exists v
      exact ⟨y, q, h1, h2, h3, fun v' h => by cases h; exact h4⟩
  choose sin q h1 h2 h3 h4 using h
  exact ⟨sin, fun a => ⟨q a, h1 a, h2 a, h3 a⟩, fun a v hv => ⟨q a, h1 a, h4 a v hv⟩⟩

end Verif
