import Verif.Spec.Local

/-! Specification: streams that are the same at different times. -/

namespace Verif.Spec
open Verif

/-- The ratios that are powers of two, from 1/256 to 256. -/
def PowerOfTwo (r : ℚ) : Prop := ∃ a : ℕ, a ≤ 8 ∧ (r = 2 ^ a ∨ r = 1 / 2 ^ a)

/-- The frames of `x` not more than `R` frames from the time `τ` are those of `x'`, in channel `c`, `N` frames later (before the first frame there is silence). -/
def AgreeShifted (x x' : ℕ → ℕ → F32) (N c : ℕ) (τ R : ℚ) : Prop := ∀ k : ℤ, |(k : ℚ) - τ| ≤ R → signal x k c = signal x' (k + N) c

/-- The stream `x` after `N` frames of silence. -/
def delayed (N : ℕ) (x : ℕ → ℕ → F32) (k c : ℕ) : F32 := if k < N then zero32 else x (k - N) c

end Verif.Spec
