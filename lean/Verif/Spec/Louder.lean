import Verif.Spec.Stream

/-! Specification: changing the volume, or the polarity, before the conversion. -/

namespace Verif.Spec
open Verif

/-- A factor that floats can be multiplied with exactly (unless they overflow): a power of two, or minus a power of two. -/
def Gain (g : ℚ) : Prop := ∃ n : ℕ, g = 2 ^ n ∨ g = -2 ^ n

/-- The samples of `y` are those of `x`, `g` times as loud; all of them are finite. -/
def LouderBy (g : ℚ) (x y : ℕ → ℕ → F32) : Prop := ∀ k c, ∃ p, (x k c).val = some p ∧ (y k c).val = some (g * p)

/-- The sample `v` is the sample `u`, `g` times as loud, unless it has overflowed: exactly, if `u` is above the range in which floats lose precision (subnormal numbers)
or `g` is 1 or -1, and up to `g` units of this range if not. -/
def LouderSample (g : ℚ) (u v : F32) : Prop :=
  ∀ q, v.val = some q → ∃ p, u.val = some p ∧ |q - g * p| ≤ |g| / 2 ^ 149 ∧ (1 / 2 ^ 126 < |p| ∨ |g| = 1 → q = g * p)

/-- The frames of `y` have the shape of those of `x`, and every sample is `g` times as loud. -/
def LouderOut (g : ℚ) (x y : List (List F32)) : Prop :=
  x.length = y.length ∧ ∀ (j : ℕ) (f f' : List F32), x[j]? = some f → y[j]? = some f' → f.length = f'.length ∧
    ∀ (c : ℕ) (u v : F32), f[c]? = some u → f'[c]? = some v → LouderSample g u v

/-- Channel `c2` of the stream carries what its channel `c1` carries, `g` times as loud. -/
def LouderCh (g : ℚ) (x : ℕ → ℕ → F32) (c1 c2 : ℕ) : Prop := ∀ k, ∃ p, (x k c1).val = some p ∧ (x k c2).val = some (g * p)

end Verif.Spec
