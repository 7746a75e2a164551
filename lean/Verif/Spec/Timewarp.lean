import Verif.Spec.SincHistory
import Verif.Model.Timewarp

/-! Specification of the example program `examples/timewarp-file.c`. -/

namespace Verif.Spec
open Verif

/-- The ratio that the program uses after `c` frames have been read from the file.  It is the one of the program's table, except that the last entry of the table (back to 1.00000001
from frame 81000 on) is never used. -/
def warpAt (c : ℕ) : F64 :=
  if c < 20000 then Fl.round f64 (100000001 / 100000000)
  else if c < 20200 then Fl.round f64 (101 / 100)
  else if c < 40000 then Fl.round f64 (100000001 / 100000000)
  else if c < 40300 then Fl.round f64 (12 / 10)
  else if c < 60000 then Fl.round f64 (100000001 / 100000000)
  else if c < 60400 then Fl.round f64 (11 / 10)
  else if c < 80000 then Fl.round f64 (100000001 / 100000000)
  else Fl.round f64 (15 / 10)

/-- The range of `n` samples at `a` lies in the array of `len` samples at `b`. -/
def Inside (a n b len : ℤ) : Prop := b ≤ a ∧ a + n ≤ b + len

/-- A call of the program after `U` frames of a file of `n` frames were consumed: both buffers lie in the program's arrays, and the ratio is the one for a number of frames read
that is between `U` and `U + 8`. -/
def WarpCall (inp out : ℤ) (ch n U : ℕ) (d : SrcData) : Prop :=
  0 ≤ d.inputFrames ∧ Inside d.dataIn (d.inputFrames * ch) inp 1024 ∧ 0 ≤ d.outputFrames ∧ Inside d.dataOut (d.outputFrames * ch) out 1024 ∧
    ∃ c, U ≤ c ∧ c ≤ U + 8 ∧ c ≤ n ∧ d.srcRatio = warpAt c

/-- A history of `src_process` calls all of which satisfy `P U` when `U` frames were consumed before. -/
inductive CallsOk (P : ℕ → SrcData → Prop) : ℕ → List Op → List Obs → Prop
  | nil (U : ℕ) : CallsOk P U [] []
  | call (U : ℕ) (m : Mem) (d d' : SrcData) (o : Obs) (ops : List Op) (os : List Obs) : P U d → o.data = some d' →
      CallsOk P (U + d'.inputFramesUsed.toNat) ops os → CallsOk P U (.process m (some d) :: ops) (o :: os)

/-- The frames of a file, continued by silence. -/
def streamOf (f : SndFile) (k c : ℕ) : F32 := if k < f.len then f.x k c else zero32

end Verif.Spec
