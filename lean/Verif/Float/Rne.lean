import Mathlib.Data.Rat.Floor
import Mathlib.Data.Int.Log
import Mathlib.Algebra.Order.Floor.Ring
import Mathlib.Tactic.Linarith
import Mathlib.Tactic.Ring
import Mathlib.Tactic.Positivity
import Mathlib.Tactic.NormNum
import Mathlib.Tactic.FieldSimp
import Mathlib.Tactic.Push

/-! Round a rational to the nearest integer, ties to even.  This is the IEEE-754 default rounding attribute
`roundTiesToEven`; it is not a model of repository code but of the arithmetic the C code runs on. -/

namespace Verif

/-- Nearest integer, ties to the even one. -/
def rne (x : ℚ) : ℤ :=
  let f := ⌊x⌋
  let d := x - f
  if d < 1 / 2 then f else if 1 / 2 < d then f + 1 else if f % 2 = 0 then f else f + 1

theorem rne_cases (x : ℚ) :
    (rne x = ⌊x⌋ ∧ x - ⌊x⌋ ≤ 1 / 2) ∨ (rne x = ⌊x⌋ + 1 ∧ 1 / 2 ≤ x - ⌊x⌋) := by
  unfold rne
  simp only
  split_ifs with h1 h2 h3
  · exact Or.inl ⟨rfl, h1.le⟩
  · exact Or.inr ⟨rfl, h2.le⟩
  · exact Or.inl ⟨rfl, not_lt.1 h2⟩
  · exact Or.inr ⟨rfl, not_lt.1 h1⟩

theorem floor_le_rne (x : ℚ) : ⌊x⌋ ≤ rne x := by
  rcases rne_cases x with h | h <;> omega

theorem rne_le_floor_add_one (x : ℚ) : rne x ≤ ⌊x⌋ + 1 := by
  rcases rne_cases x with h | h <;> omega

theorem abs_rne_sub_le (x : ℚ) : |(rne x : ℚ) - x| ≤ 1 / 2 := by
  have h0 := Int.floor_le x
  have h1 := Int.lt_floor_add_one x
  rcases rne_cases x with ⟨h, h2⟩ | ⟨h, h2⟩ <;> rw [h, abs_le] <;> push_cast <;> constructor <;> linarith

theorem le_rne_of_le {n : ℤ} {x : ℚ} (h : (n : ℚ) ≤ x) : n ≤ rne x :=
  (Int.le_floor.2 h).trans (floor_le_rne x)

@[simp] theorem rne_intCast (n : ℤ) : rne (n : ℚ) = n := by
  simp [rne]

theorem rne_natCast (n : ℕ) : rne (n : ℚ) = n := by
  exact_mod_cast rne_intCast n

theorem rne_ofNat (n : ℕ) [n.AtLeastTwo] : rne (OfNat.ofNat n : ℚ) = OfNat.ofNat n :=
  rne_natCast n

@[simp] theorem rne_zero : rne 0 = 0 := by simpa using rne_intCast 0
@[simp] theorem rne_one : rne 1 = 1 := by simpa using rne_intCast 1

theorem rne_le_of_le {n : ℤ} {x : ℚ} (h : x ≤ (n : ℚ)) : rne x ≤ n := by
  rcases rne_cases x with ⟨e, h2⟩ | ⟨e, h2⟩
  · rw [e]; exact_mod_cast (Int.floor_le x).trans h
  · rw [e]
    have : ⌊x⌋ < n := by
      have : (⌊x⌋ : ℚ) < n := by linarith
      exact_mod_cast this
    omega

theorem rne_neg (x : ℚ) : rne (-x) = - rne x := by
  by_cases hx : ((⌊x⌋ : ℤ) : ℚ) = x
  · rw [← hx]
    rw [← Int.cast_neg, rne_intCast, rne_intCast]
  · have h0 : (⌊x⌋ : ℚ) < x := lt_of_le_of_ne (Int.floor_le x) hx
    have h1 := Int.lt_floor_add_one x
    have hf : ⌊-x⌋ = -⌊x⌋ - 1 := by
      rw [Int.floor_eq_iff]; push_cast; constructor <;> linarith
    unfold rne
    simp only [hf]
    push_cast
    split_ifs <;> first | (exfalso; linarith) | (exfalso; omega) | omega

theorem rne_mono {x y : ℚ} (h : x ≤ y) : rne x ≤ rne y := by
  by_cases hf : ⌊x⌋ = ⌊y⌋
  · unfold rne
    simp only [hf]
    split_ifs <;> first | omega | (exfalso; linarith)
  · have : ⌊x⌋ < ⌊y⌋ := lt_of_le_of_ne (Int.floor_le_floor h) hf
    have a := rne_le_floor_add_one x
    have b := floor_le_rne y
    omega

theorem rne_nonneg {x : ℚ} (h : 0 ≤ x) : 0 ≤ rne x := by
  have := le_rne_of_le (n := 0) (x := x) (by simpa using h)
  exact this

/-- `rne` is a nearest integer: no other integer is closer. -/
theorem rne_nearest (x : ℚ) (n : ℤ) : |(rne x : ℚ) - x| ≤ |(n : ℚ) - x| := by
  have h := abs_rne_sub_le x
  by_cases hn : n = rne x
  · rw [hn]
  · have h1 : (1 : ℚ) ≤ |(n : ℚ) - rne x| := by
      have : n - rne x ≠ 0 := by omega
      have := Int.one_le_abs this
      exact_mod_cast this
    have h2 : |(n : ℚ) - rne x| ≤ |(n : ℚ) - x| + |(rne x : ℚ) - x| := by
      have := abs_sub_le (n : ℚ) x (rne x)
      rw [abs_sub_comm x] at this
      exact this
    linarith

end Verif
