import Verif.Model.Convert
import Verif.Model.Api
import Verif.Spec.Recording

/-! Specification: a program that converts 16 bit audio. -/

namespace Verif.Spec
open Verif

/-- The memory after the samples `l` were stored from address `a` on. -/
def stored (m : Mem) (a : ℤ) (l : List F32) : Mem := fun b => if a ≤ b then (l[(b - a).toNat]?).getD (m b) else m b

/-- The `n` samples from address `a` on. -/
def loaded (m : Mem) (a : ℤ) (n : ℕ) : List F32 := (List.range n).map fun i : ℕ => m (a + (i : ℤ))

/-- A program that converts the shorts `x`: `src_short_to_float_array` to the input buffer of `d`, `src_simple`, and `src_float_to_short_array` of the frames `src_simple` generated.  The result is the
return value of `src_simple`, its arguments after the call and the shorts. -/
def shortProgram (cfg : Config) (m : Mem) (x : List ℤ) (d : SrcData) (type ch : ℤ) : M (ℤ × Option SrcData × List ℤ) := do
  let y ← srcShortToFloatArray x (List.replicate x.length zero32) x.length
  let (e, m', d') ← srcSimple cfg (stored m d.dataIn y) (some d) type ch
  let n : ℕ := ((d'.getD d).outputFramesGen * ch).toNat
  let w ← srcFloatToShortArray (loaded m' d.dataOut n) (List.replicate n 0) n
  pure (e, d', w)

/-- Channel `c` of the `n` frames of `ch` shorts in `x` is the recording of `s` with 16 bits: each short is within half a unit of 32768 times the value of `s`. -/
def ShortRecording (ch : ℕ) (x : List ℤ) (n : ℤ) (c : ℕ) (s : ℝ → ℝ) : Prop :=
  ∀ k : ℕ, (k : ℤ) < n → ∃ v : ℤ, x[ch * k + c]? = some v ∧ |(v : ℝ) - 32768 * s k| ≤ 1 / 2

/-- The same with 32 bit samples: `src_int_to_float_array`, `src_simple`, `src_float_to_int_array`, in a build whose CPU does not clip positive overflow by itself (`clipsPos` is `false`; `clipsNeg` is arbitrary). -/
def intProgram (cfg : Config) (clipsNeg : Bool) (m : Mem) (x : List ℤ) (d : SrcData) (type ch : ℤ) : M (ℤ × Option SrcData × List ℤ) := do
  let y ← srcIntToFloatArray x (List.replicate x.length zero32) x.length
  let (e, m', d') ← srcSimple cfg (stored m d.dataIn y) (some d) type ch
  let n : ℕ := ((d'.getD d).outputFramesGen * ch).toNat
  let w ← srcFloatToIntArray false clipsNeg (loaded m' d.dataOut n) (List.replicate n 0) n
  pure (e, d', w)

/-- Channel `c` of the `n` frames of `ch` ints in `x` is the recording of `s` with 32 bits. -/
def IntRecording (ch : ℕ) (x : List ℤ) (n : ℤ) (c : ℕ) (s : ℝ → ℝ) : Prop :=
  ∀ k : ℕ, (k : ℤ) < n → ∃ v : ℤ, x[ch * k + c]? = some v ∧ |(v : ℝ) - 2 ^ 31 * s k| ≤ 1 / 2

end Verif.Spec
