import Mathlib.Analysis.Calculus.Deriv.Basic
import Verif.Spec.Sine

/-! Specification: smooth signals. -/

namespace Verif.Spec

/-- The signal never changes by more than `M` per frame. -/
def SlopeAtMost (g : ℝ → ℝ) (M : ℝ) : Prop := ∀ s t, |g s - g t| ≤ M * |s - t|

/-- The slope of the signal never changes by more than `M` per frame. -/
def BendAtMost (g : ℝ → ℝ) (M : ℝ) : Prop := Differentiable ℝ g ∧ SlopeAtMost (deriv g) M

/-- The point of the input that an interpolating converter puts out at time `τ`, in frames: one frame behind, and the first frame during the first frame. -/
def behind (τ : ℚ) : ℚ := max 0 (τ - 1)

end Verif.Spec
