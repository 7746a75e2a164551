import Verif.Model.Basic

/-! Specification of the argument checks of `src_process` (documentation: `docs/api_full.md`, `docs/api_misc.md`): which
argument errors exist and in which order they are reported. -/

namespace Verif.Spec
open Verif

/-- The ratio is not NaN and lies outside `[1/256, 256]`. -/
def BadRatio : F64 → Prop
  | .nan => False
  | .inf _ => True
  | .fin q _ => q < 1 / 256 ∨ 256 < q

/-- The ratio is a number in `[1/256, 256]`. -/
def GoodRatio (r : F64) : Prop := ∃ q, r.val = some q ∧ 1 / 256 ≤ q ∧ q ≤ 256

/-- A buffer that must hold frames is missing. -/
def MissingBuffer (d : SrcData) : Prop := (d.dataIn = 0 ∧ d.inputFrames > 0) ∨ (d.dataOut = 0 ∧ d.outputFrames > 0)

/-- The input range `[a, a + n)` and the output range `[b, b + k)` are rejected as overlapping. -/
def Clash (a n b k : ℤ) : Prop := (a < b ∧ b < a + n) ∨ (b ≤ a ∧ a < b + k)

/-- Number of samples in `frames` frames; a negative count means none. -/
def samples (channels frames : ℤ) : ℤ := max frames 0 * channels

/-- `FirstFailing st d e`: `e` is the error of the first argument check that fails. -/
inductive FirstFailing (st : Option SrcState) (d : Option SrcData) : ℤ → Prop
  | state : st = none → FirstFailing st d 2
  | mode (s : SrcState) : st = some s → s.mode ≠ .process → FirstFailing st d 18
  | data (s : SrcState) : st = some s → s.mode = .process → d = none → FirstFailing st d 3
  | buffer (s : SrcState) (x : SrcData) : st = some s → s.mode = .process → d = some x → MissingBuffer x →
      FirstFailing st d 4
  | ratio (s : SrcState) (x : SrcData) : st = some s → s.mode = .process → d = some x → ¬ MissingBuffer x →
      BadRatio x.srcRatio → FirstFailing st d 6
  | overlap (s : SrcState) (x : SrcData) : st = some s → s.mode = .process → d = some x → ¬ MissingBuffer x →
      ¬ BadRatio x.srcRatio →
      Clash x.dataIn (samples s.channels x.inputFrames) x.dataOut (samples s.channels x.outputFrames) →
      FirstFailing st d 16

/-- The documented converter kinds (`include/samplerate.h:163-170`, `docs/api_misc.md`) by converter type: the first word of the
name, and the first word of the description with the quality it promises. -/
def converterKind : Fin 5 → String × String
  | 0 => ("Best", "Band limited sinc interpolation, best quality")
  | 1 => ("Medium", "Band limited sinc interpolation, medium quality")
  | 2 => ("Fastest", "Band limited sinc interpolation, fastest")
  | 3 => ("ZOH", "Zero order hold")
  | 4 => ("Linear", "Linear")

end Verif.Spec
