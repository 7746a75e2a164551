import Verif.Model.Basic

/-! The array conversion helpers, `src/samplerate.c:427-483`.

A buffer is a list; reading or writing past its end is a fault.  Simplification: the input and the output array are
separate objects (they have different element types, so the C effective type rules forbid overlapping them here). -/

namespace Verif

/-- read `in [i]` -/
def rd {α : Type} (b : List α) (i : ℕ) : M α :=
  match b[i]? with
  | some v => pure v
  | none => throw .oobRead

/-- write `out [i] = v` -/
def wr {α : Type} (b : List α) (i : ℕ) (v : α) : M (List α) :=
  if i < b.length then pure (b.set i v) else throw .oobWrite

/-- `for (int i = 0 ; i < len ; i++) out [i] = f (in [i])`: the loop shared by the four functions. -/
def convLoop {α β : Type} (f : α → β) (inp : List α) (out : List β) (len : ℤ) : M (List β) :=
  forM' len.toNat (fun i o => do
    let v ← rd inp i
    wr o i (f v)) out

/-- conversion of an `int` to `short` (implementation defined; modulo 2^16 on every supported compiler) -/
def toShort (n : ℤ) : ℤ := (n + 32768) % 65536 - 32768

/-- one element of `src_short_to_float_array`, samplerate.c:431: `(float) (in [i] / (1.0 * 0x8000))` -/
def shortToFloat (s : ℤ) : F32 := Fl.conv f32 (Fl.div (dbl s) (Fl.mul one64 (dbl 0x8000)))

/-- one element of `src_float_to_short_array`, samplerate.c:441-448 -/
def floatToShort (x : F32) : ℤ :=
  let scaled := Fl.mul x (Fl.ofInt f32 32768)
  if Fl.ge scaled (Fl.ofInt f32 32767) then 32767
  else if Fl.le scaled (Fl.ofInt f32 (-32768)) then -32768
  else toShort (lrintf scaled)

/-- one element of `src_int_to_float_array`, samplerate.c:456: `(float) (in [i] / (8.0 * 0x10000000))` -/
def intToFloat (n : ℤ) : F32 := Fl.conv f32 (Fl.div (dbl n) (Fl.mul (dbl 8) (dbl 0x10000000)))

/-- one element of `src_float_to_int_array`, samplerate.c:467-480.  `clipsPos` and `clipsNeg` are the build-time
constants `CPU_CLIPS_POSITIVE` and `CPU_CLIPS_NEGATIVE` of `config.h` (cmake/ClipMode.cmake). -/
def floatToInt (clipsPos clipsNeg : Bool) (x : F32) : ℤ :=
  let scaled := Fl.mul (Fl.conv f64 x) (Fl.mul (dbl 8) (dbl 0x10000000))
  if !clipsPos && Fl.ge scaled (Fl.mul one64 (dbl 0x7FFFFFFF)) then 0x7fffffff
  else if !clipsNeg && Fl.le scaled (Fl.mul (dbl (-8)) (dbl 0x10000000)) then -1 - 0x7fffffff
  else lrint scaled

/-- `src_short_to_float_array`, samplerate.c:427-435 -/
def srcShortToFloatArray (inp : List ℤ) (out : List F32) (len : ℤ) : M (List F32) := convLoop shortToFloat inp out len
/-- `src_float_to_short_array`, samplerate.c:437-450 -/
def srcFloatToShortArray (inp : List F32) (out : List ℤ) (len : ℤ) : M (List ℤ) := convLoop floatToShort inp out len
/-- `src_int_to_float_array`, samplerate.c:452-460 -/
def srcIntToFloatArray (inp : List ℤ) (out : List F32) (len : ℤ) : M (List F32) := convLoop intToFloat inp out len
/-- `src_float_to_int_array`, samplerate.c:462-483 -/
def srcFloatToIntArray (clipsPos clipsNeg : Bool) (inp : List F32) (out : List ℤ) (len : ℤ) : M (List ℤ) :=
  convLoop (floatToInt clipsPos clipsNeg) inp out len

end Verif
