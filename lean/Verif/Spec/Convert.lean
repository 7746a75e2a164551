import Verif.Float.Fl

/-! What the array conversion functions are expected to compute. -/

namespace Verif

/-- `n` is the integer nearest to `q`, the even one if two are equally near. -/
def NearestEven (q : ℚ) (n : ℤ) : Prop :=
  ∀ m : ℤ, m ≠ n → |(n : ℚ) - q| < |(m : ℚ) - q| ∨ (|(n : ℚ) - q| = |(m : ℚ) - q| ∧ Even n)

/-- `n` is the nearest integer to `scale * x`, limited to `lo .. hi`; infinities give the limits.  Nothing is said
about NaN. -/
def Quantised (scale : ℚ) (lo hi : ℤ) (x : F32) (n : ℤ) : Prop :=
  match x with
  | .nan => True
  | .inf neg => n = if neg then lo else hi
  | .fin q _ => ∃ k, NearestEven (scale * q) k ∧ n = max lo (min hi k)

end Verif
