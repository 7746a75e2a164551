import Mathlib.Algebra.BigOperators.Field
import Verif.Proof.FilterPhase
import Verif.Proof.TableSums

/-! The checked tables as filters. -/

namespace Verif.Coeffs
open Verif Spec

/-- Value of a table entry. -/
def litQ (n : ℤ) : ℚ := rq f32 (rq f64 ((n : ℚ) / 10 ^ 27))

/-- Value of entry `i`. -/
def tabQ (l : List ℤ) (i : ℤ) : ℚ := litQ (entry l i)

theorem litQ_zero : litQ 0 = 0 := by simp [litQ]

theorem literal_val {n : ℤ} (h : |n| ≤ 95 * 10 ^ 25) :
    (literal n).val = some (litQ n) ∧ |litQ n - n / 10 ^ 27| ≤ 1 / 30000000 ∧ |litQ n| ≤ 1 := by
  have hq : |(n : ℚ) / 10 ^ 27| ≤ 95 / 100 := by
    rw [abs_div, abs_of_pos (show (0 : ℚ) < 10 ^ 27 by norm_num), div_le_iff₀ (by norm_num)]
    have : |(n : ℚ)| ≤ ((95 * 10 ^ 25 : ℤ) : ℚ) := by exact_mod_cast h
    refine this.trans ?_
    norm_num
  unfold literal litQ
  generalize (n : ℚ) / 10 ^ 27 = a at *
  have v1 := Fl.val_round (f := f64) (q := a) (fin64 (hq.trans (by norm_num)))
  have e1 := abs_rq_sub_le_of_lt (f := f64) (q := a) (k := 0) (lt_of_le_of_lt hq (by norm_num)) (by decide)
  have e1' : |r64 a - a| ≤ 1 / 10 ^ 15 := e1.trans (by norm_num [p2, f64])
  generalize r64 a = b at *
  have hb : |b| ≤ 96 / 100 := by rw [abs_le] at *; constructor <;> linarith
  have e2 := abs_rq_sub_le_of_lt (f := f32) (q := b) (k := 0) (lt_of_le_of_lt hb (by norm_num)) (by decide)
  have e2' : |rq f32 b - b| ≤ 1 / 33554432 := e2.trans (by norm_num [p2, f32])
  have hc : |rq f32 b| ≤ 1 := by rw [abs_le] at *; constructor <;> linarith
  refine ⟨Fl.val_conv v1 (lt_of_le_of_lt hc (by show (1 : ℚ) < p2 128; norm_num [p2])), ?_, hc⟩
  rw [abs_le] at *
  constructor <;> linarith

section
variable {rows : List (List ℤ)} {inc cnt : ℕ} {lo hi top : ℤ} {S V d M z : ℕ} (C : Checked rows inc cnt lo hi top S V d M z)
include C

theorem Checked.split : rows.flatten = [] ∨ rows.flatten = rows.flatten.headD 0 :: rows.flatten.tail := by
  cases h : rows.flatten with
  | nil => exact Or.inl rfl
  | cons a t => right; simp

theorem Checked.bound (hM : M ≤ 95 * 10 ^ 25) (j : ℕ) : |rows.flatten.getD j 0| ≤ 95 * 10 ^ 25 := by
  have h1 := C.smooth
  have h2 := C.head
  rw [Nat.ble_eq] at h2
  have hMz : (M : ℤ) ≤ 95 * 10 ^ 25 := by exact_mod_cast hM
  rcases C.split with h | h
  · rw [h]; simp
  · have e : (((rows.flatten.headD 0).natAbs : ℕ) : ℤ) = |rows.flatten.headD 0| := Int.natCast_natAbs _
    have h3 := fun j => (smooth_step d M _ _ h1 j).2
    rw [h]
    cases j with
    | zero => rw [List.getD_cons_zero]; omega
    | succ j => rw [List.getD_cons_succ]; exact (h3 j).trans hMz

theorem Checked.step (j : ℕ) : |rows.flatten.getD (j + 1) 0 - rows.flatten.getD j 0| ≤ (d : ℤ) := by
  rcases C.split with h | h
  · rw [h]; simp
  · have := (smooth_step d M _ _ C.smooth j).1
    rwa [← h] at this

theorem Checked.var_sum (K : ℕ) : ∑ j ∈ Finset.range K, |rows.flatten.getD (j + 1) 0 - rows.flatten.getD j 0| ≤ (V : ℤ) := by
  rcases C.split with h | h
  · rw [h]; simp
  · have := varLe_sum _ _ _ C.var K
    rwa [← h] at this

theorem Checked.val (hM : M ≤ 95 * 10 ^ 25) (i : ℤ) : (literal (entry rows.flatten i)).val = some (tabQ rows.flatten i) :=
  (literal_val (C.bound hM _)).1

theorem Checked.mag (hM : M ≤ 95 * 10 ^ 25) (i : ℤ) : |tabQ rows.flatten i| ≤ 1 := (literal_val (C.bound hM _)).2.2

theorem Checked.err (hM : M ≤ 95 * 10 ^ 25) (i : ℤ) : |tabQ rows.flatten i - entry rows.flatten i / 10 ^ 27| ≤ 1 / 30000000 :=
  (literal_val (C.bound hM _)).2.1

theorem Checked.diff (hM : M ≤ 95 * 10 ^ 25) (hd : d ≤ 10 ^ 25) (i : ℤ) : |tabQ rows.flatten (i + 1) - tabQ rows.flatten i| < p2 (-6) := by
  have a := C.err hM i
  have b := C.err hM (i + 1)
  have c : |entry rows.flatten (i + 1) - entry rows.flatten i| ≤ 10 ^ 25 := by
    rcases le_or_gt 0 i with h | h
    · have := C.step i.toNat
      unfold entry
      rw [show (i + 1).toNat = i.toNat + 1 by omega]
      exact this.trans (by exact_mod_cast hd)
    · unfold entry
      rw [show (i + 1).toNat = i.toNat by omega]; simp
  have c' : |(entry rows.flatten (i + 1) : ℚ) / 10 ^ 27 - entry rows.flatten i / 10 ^ 27| ≤ 1 / 100 := by
    rw [← sub_div, abs_div, abs_of_pos (show (0 : ℚ) < 10 ^ 27 by norm_num), div_le_iff₀ (by norm_num)]
    have : |((entry rows.flatten (i + 1) - entry rows.flatten i : ℤ) : ℚ)| ≤ ((10 ^ 25 : ℤ) : ℚ) := by exact_mod_cast c
    push_cast at this
    refine this.trans ?_
    norm_num
  have e : p2 (-6) = 1 / 64 := by norm_num [p2]
  rw [e]
  rw [abs_le] at *
  rw [abs_lt]
  constructor <;> linarith

theorem Checked.coeff (hM : M ≤ 95 * 10 ^ 25) (hd : d ≤ 10 ^ 25) (fi : ℤ) :
    ∃ h, (sincCoeff (ofRows inc cnt rows).coeffs fi).val = some h ∧ |h - response (tabQ rows.flatten) fi| ≤ p2 (-30) := by
  have := coeff_val (co := (ofRows inc cnt rows).coeffs) (q := tabQ rows.flatten) (C.val hM) (C.mag hM) (δ := -6) (by norm_num) (by norm_num)
    (C.diff hM hd) fi
  simpa using this

theorem Checked.beyond (j : ℤ) (h : ((cnt : ℤ) - 2) < j) (h2 : 2 ≤ cnt) : tabQ rows.flatten j = 0 := by
  unfold tabQ entry
  rcases eq_or_lt_of_le (show (cnt : ℤ) - 1 ≤ j by omega) with h | h
  · rw [show j.toNat = cnt - 1 by omega, C.zero, litQ_zero]
  · rw [List.getD_eq_default _ _ (by have := C.length; omega), litQ_zero]

theorem Checked.last_le (hM : M ≤ 95 * 10 ^ 25) (hz : z ≤ 13 * 10 ^ 19) (h2 : 2 ≤ cnt) : |tabQ rows.flatten ((cnt : ℤ) - 2)| ≤ 1 / 6000000 := by
  have a := C.err hM ((cnt : ℤ) - 2)
  have b := C.last
  rw [Nat.ble_eq] at b
  have e : (((rows.flatten.getD (cnt - 2) 0).natAbs : ℕ) : ℤ) = |rows.flatten.getD (cnt - 2) 0| := Int.natCast_natAbs _
  have c : |entry rows.flatten ((cnt : ℤ) - 2)| ≤ 13 * 10 ^ 19 := by
    unfold entry
    rw [show ((cnt : ℤ) - 2).toNat = cnt - 2 by omega]
    omega
  have c' : |(entry rows.flatten ((cnt : ℤ) - 2) : ℚ) / 10 ^ 27| ≤ 13 / 100000000 := by
    rw [abs_div, abs_of_pos (show (0 : ℚ) < 10 ^ 27 by norm_num), div_le_iff₀ (by norm_num)]
    have : |(entry rows.flatten ((cnt : ℤ) - 2) : ℚ)| ≤ ((13 * 10 ^ 19 : ℤ) : ℚ) := by exact_mod_cast c
    refine this.trans ?_
    norm_num
  rw [_root_.abs_le] at *
  constructor <;> linarith

/-- The phases in rational arithmetic. -/
theorem Checked.phase_err (hM : M ≤ 95 * 10 ^ 25) (K : ℕ) (p : ℤ) (hp : 0 ≤ p) :
    |phaseQ (tabQ rows.flatten) inc K p - (phase rows.flatten inc K p.toNat : ℚ) / 10 ^ 27| ≤ (K : ℚ) * (1 / 30000000) := by
  unfold phaseQ phase
  push_cast
  rw [Finset.sum_div, ← Finset.sum_sub_distrib]
  refine (Finset.abs_sum_le_sum_abs _ _).trans ?_
  refine (Finset.sum_le_card_nsmul _ _ (1 / 30000000) (fun m _ => ?_)).trans (le_of_eq (by simp))
  have := C.err hM (p + m * inc)
  unfold entry at this
  rwa [show (p + (m : ℤ) * inc).toNat = p.toNat + m * inc by
    rw [show p + (m : ℤ) * inc = ((p.toNat + m * inc : ℕ) : ℤ) by push_cast; omega, Int.toNat_natCast]] at this

theorem Checked.phase_abs_err (hM : M ≤ 95 * 10 ^ 25) (K : ℕ) (p : ℤ) (hp : 0 ≤ p) :
    |phaseQ (fun j => |tabQ rows.flatten j|) inc K p - (phase (mags rows.flatten) inc K p.toNat : ℚ) / 10 ^ 27| ≤ (K : ℚ) * (1 / 30000000) := by
  unfold phaseQ phase
  push_cast
  rw [Finset.sum_div, ← Finset.sum_sub_distrib]
  refine (Finset.abs_sum_le_sum_abs _ _).trans ?_
  refine (Finset.sum_le_card_nsmul _ _ (1 / 30000000) (fun m _ => ?_)).trans (le_of_eq (by simp))
  have := C.err hM (p + m * inc)
  unfold entry at this
  rw [show (p + (m : ℤ) * inc).toNat = p.toNat + m * inc by
    rw [show p + (m : ℤ) * inc = ((p.toNat + m * inc : ℕ) : ℤ) by push_cast; omega, Int.toNat_natCast]] at this
  rw [mags_getD, Int.cast_abs, show |(rows.flatten.getD (p.toNat + m * inc) 0 : ℚ)| / 10 ^ 27 = |(rows.flatten.getD (p.toNat + m * inc) 0 : ℚ) / 10 ^ 27| by
    rw [abs_div, abs_of_pos (show (0 : ℚ) < 10 ^ 27 by norm_num)]]
  exact (abs_abs_sub_abs_le _ _).trans this

theorem Checked.mirror (hM : M ≤ 95 * 10 ^ 25) {b : ℚ} (hlo : (1 - b) * 10 ^ 27 ≤ lo) (hhi : (hi : ℚ) ≤ (1 + b) * 10 ^ 27) (p : ℤ) (p0 : 0 ≤ p) (p1 : p ≤ inc) :
    1 - b - rows.length / 15000000 ≤ phaseQ (tabQ rows.flatten) inc rows.length p + phaseQ (tabQ rows.flatten) inc rows.length (inc - p) ∧
      phaseQ (tabQ rows.flatten) inc rows.length p + phaseQ (tabQ rows.flatten) inc rows.length (inc - p) ≤ 1 + b + rows.length / 15000000 := by
  obtain ⟨a1, a2⟩ := phasesIn_sum C.ok C.len C.pos C.dc p.toNat (by omega)
  have e1 := C.phase_err hM rows.length p p0
  have e2 := C.phase_err hM rows.length (inc - p) (by omega)
  rw [show (inc : ℤ) - p = ((inc - p.toNat : ℕ) : ℤ) by omega, Int.toNat_natCast] at e2
  rw [show (inc : ℤ) - p = ((inc - p.toNat : ℕ) : ℤ) by omega]
  have b1 : (lo : ℚ) / 10 ^ 27 ≤ phase rows.flatten inc rows.length p.toNat / 10 ^ 27 + phase rows.flatten inc rows.length (inc - p.toNat) / 10 ^ 27 := by
    rw [← add_div]
    apply div_le_div_of_nonneg_right _ (by norm_num)
    exact_mod_cast a1
  have b2 : (phase rows.flatten inc rows.length p.toNat : ℚ) / 10 ^ 27 + phase rows.flatten inc rows.length (inc - p.toNat) / 10 ^ 27 ≤ hi / 10 ^ 27 := by
    rw [← add_div]
    apply div_le_div_of_nonneg_right _ (by norm_num)
    exact_mod_cast a2
  have c1 : 1 - b ≤ (lo : ℚ) / 10 ^ 27 := by rw [le_div_iff₀ (by norm_num)]; exact hlo
  have c2 : (hi : ℚ) / 10 ^ 27 ≤ 1 + b := by rw [div_le_iff₀ (by norm_num)]; exact hhi
  rw [_root_.abs_le] at e1 e2
  constructor <;> linarith

theorem Checked.mirror_abs (hM : M ≤ 95 * 10 ^ 25) {b : ℚ} (hhi : (top : ℚ) ≤ b * 10 ^ 27) (p : ℤ) (p0 : 0 ≤ p) (p1 : p ≤ inc) :
    phaseQ (fun j => |tabQ rows.flatten j|) inc rows.length p + phaseQ (fun j => |tabQ rows.flatten j|) inc rows.length (inc - p) ≤ b + rows.length / 15000000 := by
  obtain ⟨a1, a2⟩ := phasesIn_sum C.okA C.lenA C.pos C.gain p.toNat (by omega)
  rw [mags_flatten, List.length_map] at a2
  have e1 := C.phase_abs_err hM rows.length p p0
  have e2 := C.phase_abs_err hM rows.length (inc - p) (by omega)
  rw [show (inc : ℤ) - p = ((inc - p.toNat : ℕ) : ℤ) by omega, Int.toNat_natCast] at e2
  rw [show (inc : ℤ) - p = ((inc - p.toNat : ℕ) : ℤ) by omega]
  have b2 : (phase (mags rows.flatten) inc rows.length p.toNat : ℚ) / 10 ^ 27 + phase (mags rows.flatten) inc rows.length (inc - p.toNat) / 10 ^ 27 ≤ top / 10 ^ 27 := by
    rw [← add_div]
    apply div_le_div_of_nonneg_right _ (by norm_num)
    exact_mod_cast a2
  have c2 : (top : ℚ) / 10 ^ 27 ≤ b := by rw [div_le_iff₀ (by norm_num)]; exact hhi
  rw [_root_.abs_le] at e1 e2
  linarith

end

end Verif.Coeffs
