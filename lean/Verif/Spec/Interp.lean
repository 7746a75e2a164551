import Verif.Spec.Position

/-! Specification of the output of the two interpolating converters.

The input is a sequence of frames `x k c` (frame `k`, channel `c`), preceded by one frame `before`.  An output frame at read
position `P` lies between input frame `P.k - 1` and input frame `P.k`, at the fraction `P.i` of the way. -/

namespace Verif.Spec
open Verif

/-- Frame number `k - 1`; `before` if `k = 0`. -/
def prevFrame (before : ℕ → F32) (x : ℕ → ℕ → F32) : ℕ → ℕ → F32
  | 0 => before
  | k + 1 => x k

/-- Zero order hold: repeat the last input frame not after the position. -/
def zohOut (before : ℕ → F32) (x : ℕ → ℕ → F32) (P : Pos) (c : ℕ) : F32 := prevFrame before x P.k c

/-- `a + i * (b - a)`, computed in double and rounded to float. -/
def between (a b : F32) (i : F64) : F32 :=
  Fl.conv f32 (Fl.add (Fl.conv f64 a) (Fl.mul i (Fl.sub (Fl.conv f64 b) (Fl.conv f64 a))))

/-- Linear interpolation between the two neighbouring frames. -/
def linearOut (before : ℕ → F32) (x : ℕ → ℕ → F32) (P : Pos) (c : ℕ) : F32 :=
  between (prevFrame before x P.k c) (x P.k c) (Fl.round f64 P.i)

end Verif.Spec
