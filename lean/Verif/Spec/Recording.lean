import Verif.Spec.Simple
import Verif.Spec.Sine
import Verif.Spec.Timewarp

/-! Specification: a recording of a signal in a buffer. -/

namespace Verif.Spec
open Verif

/-- Channel `c` of the input buffer of `d`, of `ch` channels, is a recording of `s`: its samples are finite and differ from the values of `s` at the times 0, 1, 2, ... by at most `η`. -/
def RecordingOf (ch : ℕ) (m : Mem) (d : SrcData) (c : ℕ) (s : ℝ → ℝ) (η : ℝ) : Prop :=
  ∀ k : ℕ, (k : ℤ) < d.inputFrames → ∃ q : ℚ, (m (d.dataIn + ((ch * k + c : ℕ) : ℤ))).val = some q ∧ |(q : ℝ) - s k| ≤ η

/-- The frames of the buffer less than `R` frames from the time `T` are a recording of `s`. -/
def RecordedNear (ch : ℕ) (m : Mem) (d : SrcData) (c : ℕ) (T R : ℚ) (s : ℝ → ℝ) (η : ℝ) : Prop :=
  ∀ k : ℕ, (k : ℤ) < d.inputFrames → |(k : ℚ) - T| < R → ∃ q : ℚ, (m (d.dataIn + ((ch * k + c : ℕ) : ℤ))).val = some q ∧ |(q : ℝ) - s k| ≤ η

/-- Channel `c` of a file is a recording of `s`. -/
def FileOf (f : SndFile) (c : ℕ) (s : ℝ → ℝ) (η : ℝ) : Prop := ∀ k : ℕ, k < f.len → ∃ q : ℚ, (f.x k c).val = some q ∧ |(q : ℝ) - s k| ≤ η

end Verif.Spec
