import Verif.Spec.History
import Verif.Spec.Args

/-! Specification: calls within the documented ranges, frame accounting and write footprint. -/

namespace Verif.Spec
open Verif

/-- The arguments of a `src_process` call are in the ranges for which the properties are claimed: the ratio is not NaN, no buffer has
more than `2^52` samples, and the call brings no input at all or at least `lo` frames.  Everything else (missing or overlapping
buffers, ratios out of range, negative counts) is allowed. -/
structure Ordinary (lo ch : ℤ) (d : SrcData) : Prop where
  ratio : d.srcRatio ≠ .nan
  inSize : samples ch d.inputFrames ≤ 2 ^ 52
  outSize : samples ch d.outputFrames ≤ 2 ^ 52
  few : d.inputFrames ≤ 0 ∨ lo ≤ d.inputFrames

/-- An API call with arguments in these ranges (`NULL` for the `SRC_DATA` is allowed). -/
inductive OrdinaryOp (lo ch : ℤ) : Op → Prop
  | process (m : Mem) (d : Option SrcData) : (∀ x, d = some x → Ordinary lo ch x) → OrdinaryOp lo ch (.process m d)
  | setRatio (r : F64) : r ≠ .nan → OrdinaryOp lo ch (.setRatio r)
  | reset : OrdinaryOp lo ch .reset

/-- Frame counts after a call with arguments `d`: between zero and what was offered. -/
structure Accounted (d d' : SrcData) : Prop where
  used0 : 0 ≤ d'.inputFramesUsed
  used1 : d'.inputFramesUsed ≤ max d.inputFrames 0
  gen0 : 0 ≤ d'.outputFramesGen
  gen1 : d'.outputFramesGen ≤ max d.outputFrames 0

/-- Only the generated samples at the start of the output buffer may differ between the memory `m` before and `m'` after the
call. -/
def Footprint (ch : ℤ) (d d' : SrcData) (m m' : Mem) : Prop :=
  ∀ a, ¬ (d.dataOut ≤ a ∧ a < d.dataOut + d'.outputFramesGen * ch) → m' a = m a

/-- The caller's fields of `SRC_DATA` survive a call (negative frame counts are replaced by 0). -/
structure KeepsArgs (d d' : SrcData) : Prop where
  dataIn : d'.dataIn = d.dataIn
  dataOut : d'.dataOut = d.dataOut
  inputFrames : d'.inputFrames = max d.inputFrames 0
  outputFrames : d'.outputFrames = max d.outputFrames 0
  endOfInput : d'.endOfInput = d.endOfInput
  srcRatio : d'.srcRatio = d.srcRatio

/-- Argument errors of `src_process` on a live handle: wrong mode, no data, no buffer, bad ratio, overlap. -/
def ArgError (e : ℤ) : Prop := e = 18 ∨ e = 3 ∨ e = 4 ∨ e = 6 ∨ e = 16

/-- Observation `o` of a call `op`: a `src_process` call either reports an argument error and leaves memory alone, or succeeds with
frame counts in range and writes nothing but its output. -/
def WellBehaved (ch : ℤ) : Op → Obs → Prop
  | .process m d, o =>
    (ArgError o.ret ∧ o.mem = some m) ∨
    (o.ret = 0 ∧ ∃ x x' m', d = some x ∧ o.data = some x' ∧ o.mem = some m' ∧ Accounted x x' ∧ Footprint ch x x' m m' ∧
      KeepsArgs x x')
  | .setRatio _, o => o.ret = 0 ∨ o.ret = 6
  | .reset, o => o.ret = 0
  | .read .., _ => True

end Verif.Spec
