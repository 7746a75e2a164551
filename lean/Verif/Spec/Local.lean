import Verif.Spec.SincHistory
import Verif.Spec.Stream

/-! Specification: two histories compared frame by frame. -/

namespace Verif.Spec
open Verif

/-- Ratio in force for output frame `j` of a history on a new handle. -/
def scheduled (rat : ℚ → ℚ → ℕ → ℕ → ℕ → ℚ) (ch : ℕ) (ops : List Op) (os : List Obs) (j : ℕ) : ℚ := (ratiosFrom rat ch 0 ops os).getD j 0

/-- The streams agree in channel `c` on all frames not more than `R` frames from the time `τ`. -/
def AgreeAround (x x' : ℕ → ℕ → F32) (c : ℕ) (τ R : ℚ) : Prop := ∀ k : ℕ, |(k : ℚ) - τ| ≤ R → x k c = x' k c

end Verif.Spec
