import Verif.Spec.SincHistory

/-! Specification: conversion of a whole signal with one call of `src_simple`. -/

namespace Verif.Spec
open Verif

/-- The signal in the input buffer, followed by silence. -/
def inputOf (ch : ℕ) (m : Mem) (d : SrcData) (k c : ℕ) : F32 := if (k : ℤ) < d.inputFrames then m (d.dataIn + ((ch * k + c : ℕ) : ℤ)) else zero32

/-- Proper arguments: some input, buffers that are not `NULL` and do not overlap, the valid ratio `r`; the input has fewer than `2^31` samples, the room
for the output at most `2^50`. -/
structure ProperArgs (ch : ℕ) (r : ℚ) (d : SrcData) : Prop where
  input : 1 ≤ d.inputFrames
  room : 0 ≤ d.outputFrames
  ratio : d.srcRatio.val = some r
  low : 1 / 256 ≤ r
  high : r ≤ 256
  dataIn : d.dataIn ≠ 0
  dataOut : d.dataOut ≠ 0
  apart : d.dataIn + d.inputFrames * ch ≤ d.dataOut ∨ d.dataOut + d.outputFrames * ch ≤ d.dataIn
  inSize : d.inputFrames * ch < 2 ^ 31
  outSize : d.outputFrames * ch ≤ 2 ^ 50

/-- What a conversion at ratio `r` did: output frame `j` has the value `out` for the input time of frame `j`, which is `j / r` up to rounding; nothing else
was written. -/
structure Converted (ch : ℕ) (r : ℚ) (out : ℚ → ℕ → F32) (m : Mem) (d : SrcData) (m' : Mem) (d' : SrcData) : Prop where
  used0 : 0 ≤ d'.inputFramesUsed
  used1 : d'.inputFramesUsed ≤ d.inputFrames
  gen0 : 0 ≤ d'.outputFramesGen
  gen1 : d'.outputFramesGen ≤ d.outputFrames
  frames : ∀ j c : ℕ, (j : ℤ) < d'.outputFramesGen → c < ch →
    ∃ τ : ℚ, |τ - j / r| ≤ j / 2 ^ 44 ∧ τ = timeAt (fun _ => r) j ∧ m' (d.dataOut + ((ch * j + c : ℕ) : ℤ)) = out τ c
  rest : ∀ a, ¬ (d.dataOut ≤ a ∧ a < d.dataOut + d'.outputFramesGen * ch) → m' a = m a

end Verif.Spec
