import Verif.Float.Fl

/-! Basic vocabulary of the model: undefined behaviour, loops, memory, error numbers, and the inline functions of
`src/common.h`. -/

namespace Verif

/-- Undefined behaviour or abnormal termination.  Every such event of the C code is a distinct outcome of the model. -/
inductive Fault where
  | oobRead        -- read outside the buffer the API contract grants
  | oobWrite       -- write outside the buffer the API contract grants
  | nullDeref
  | intOverflow    -- signed overflow of `int` or `long`
  | divByZero
  | assertFailed   -- `assert (...)` aborts the process
  | uninitRead     -- read of indeterminate memory
  | useAfterFree
  | doubleFree
  | typeConfusion  -- private data of another converter kind
  | outOfFuel      -- the loop did not finish within its fuel (model of non-termination)
  deriving DecidableEq, Repr

/-- Result of a C function in the model: a value, or a fault. -/
abbrev M (α : Type) := Except Fault α

/-- `while` loop: `step` returns `(true, s)` to go round again and `(false, s)` to leave the loop. -/
def whileM {σ : Type} (step : σ → M (Bool × σ)) : ℕ → σ → M σ
  | 0, _ => .error .outOfFuel
  | n + 1, s => do
    let (again, s') ← step s
    if again then whileM step n s' else pure s'

/-- `for (int i = 0 ; i < n ; i++) s = body (i, s)` -/
def forM' {σ : Type} (n : ℕ) (body : ℕ → σ → M σ) (s : σ) : M σ :=
  (List.range n).foldlM (fun s i => body i s) s

/-- Signed 32-bit multiplication / addition of C `int` operands: overflow is undefined. -/
def chkI32 (n : ℤ) : M ℤ := if -2147483648 ≤ n ∧ n ≤ 2147483647 then pure n else throw .intOverflow
/-- Signed 64-bit arithmetic of C `long` operands (LP64): overflow is undefined. -/
def chkI64 (n : ℤ) : M ℤ :=
  if -9223372036854775808 ≤ n ∧ n ≤ 9223372036854775807 then pure n else throw .intOverflow

/-- Sample memory of the caller; addresses count `float`s.  Address 0 is `NULL`. -/
abbrev Mem := ℤ → F32

/-- Update of one sample. -/
def Mem.set (m : Mem) (a : ℤ) (v : F32) : Mem := fun b => if b = a then v else m b

/-! ### `SRC_ERROR` (common.h:106-135) -/
namespace Err
def NO_ERROR : ℤ := 0
def MALLOC_FAILED : ℤ := 1
def BAD_STATE : ℤ := 2
def BAD_DATA : ℤ := 3
def BAD_DATA_PTR : ℤ := 4
def NO_PRIVATE : ℤ := 5
def BAD_SRC_RATIO : ℤ := 6
def BAD_PROC_PTR : ℤ := 7
def SHIFT_BITS : ℤ := 8
def FILTER_LEN : ℤ := 9
def BAD_CONVERTER : ℤ := 10
def BAD_CHANNEL_COUNT : ℤ := 11
def SINC_BAD_BUFFER_LEN : ℤ := 12
def SIZE_INCOMPATIBILITY : ℤ := 13
def BAD_PRIV_PTR : ℤ := 14
def BAD_SINC_STATE : ℤ := 15
def DATA_OVERLAP : ℤ := 16
def BAD_CALLBACK : ℤ := 17
def BAD_MODE : ℤ := 18
def NULL_CALLBACK : ℤ := 19
def NO_VARIABLE_RATIO : ℤ := 20
def SINC_PREPARE_DATA_BAD_LEN : ℤ := 21
def BAD_INTERNAL_STATE : ℤ := 22
def MAX_ERROR : ℤ := 23
end Err

/-! ### numeric constants -/

/-- integer constant as a double -/
def dbl (n : ℤ) : F64 := Fl.ofInt f64 n
/-- `1.0` -/
def one64 : F64 := dbl 1
/-- `0.0` -/
def zero64 : F64 := dbl 0
/-- `0.0f` -/
def zero32 : F32 := Fl.ofInt f32 0
/-- `SRC_MIN_RATIO_DIFF` = `1e-20` (common.h:60) -/
def SRC_MIN_RATIO_DIFF : F64 := Fl.round f64 (1 / 10 ^ 20)
/-- `1e-15` (samplerate.c:137) -/
def RATIO_EQ_EPS : F64 := Fl.round f64 (1 / 10 ^ 15)
/-- `1e-10` (src_sinc.c:492 and copies) -/
def SINC_RATIO_EPS : F64 := Fl.round f64 (1 / 10 ^ 10)
/-- `1.0 / SRC_MAX_RATIO` with `SRC_MAX_RATIO` = 256 (common.h:57, 247) -/
def MIN_RATIO : F64 := Fl.div one64 (dbl 256)
/-- `1.0 * SRC_MAX_RATIO` -/
def MAX_RATIO : F64 := Fl.mul one64 (dbl 256)

/-- `is_bad_src_ratio`, common.h:245-248. -/
def isBadSrcRatio (ratio : F64) : Bool := Fl.lt ratio MIN_RATIO || Fl.gt ratio MAX_RATIO

/-- `psf_lrint`, common.h:208-215: SSE2 `cvtsd2si`, round to nearest even, "integer indefinite" `INT_MIN` for NaN,
infinities and out-of-range values. -/
def lrint (x : F64) : ℤ :=
  match x with
  | .fin q _ => if -2147483648 ≤ rne q ∧ rne q ≤ 2147483647 then rne q else -2147483648
  | _ => -2147483648

/-- `psf_lrintf`, common.h:200-207: SSE2 `cvtss2si`. -/
def lrintf (x : F32) : ℤ :=
  match x with
  | .fin q _ => if -2147483648 ≤ rne q ∧ rne q ≤ 2147483647 then rne q else -2147483648
  | _ => -2147483648

/-- `fmod_one`, common.h:234-243. -/
def fmodOne (x : F64) : F64 :=
  let res := Fl.sub x (dbl (lrint x))
  if Fl.lt res zero64 then Fl.add res one64 else res

/-- `SRC_MODE_*` (common.h:100-104) -/
inductive Mode where
  | process
  | callback
  deriving DecidableEq, Repr

/-- `SRC_DATA`, include/samplerate.h:26-36.  Pointers are addresses in units of `float`, 0 = `NULL`. -/
structure SrcData where
  dataIn : ℤ
  dataOut : ℤ
  inputFrames : ℤ
  outputFrames : ℤ
  inputFramesUsed : ℤ
  outputFramesGen : ℤ
  endOfInput : ℤ
  srcRatio : F64

/-- Read `data->data_in [i]`.  The API contract grants `input_frames * channels` samples starting at `data_in`. -/
def rdIn (m : Mem) (d : SrcData) (channels : ℤ) (i : ℤ) : M F32 :=
  if d.dataIn = 0 then throw .nullDeref
  else if 0 ≤ i ∧ i < d.inputFrames * channels then pure (m (d.dataIn + i)) else throw .oobRead

/-- Write `data->data_out [i] = v`.  The API contract grants `output_frames * channels` samples at `data_out`. -/
def wrOut (m : Mem) (d : SrcData) (channels : ℤ) (i : ℤ) (v : F32) : M Mem :=
  if d.dataOut = 0 then throw .nullDeref
  else if 0 ≤ i ∧ i < d.outputFrames * channels then pure (m.set (d.dataOut + i) v) else throw .oobWrite

/-- Read of `last_value [ch]` (allocated with `channels` elements). -/
def rdLast (lv : List F32) (ch : ℕ) : M F32 :=
  match lv[ch]? with
  | some v => pure v
  | none => throw .oobRead

/-- Write of `last_value [ch]`. -/
def wrLast (lv : List F32) (ch : ℕ) (v : F32) : M (List F32) :=
  if ch < lv.length then pure (lv.set ch v) else throw .oobWrite

/-- `last_value [ch] = data_in [base + ch]` for all channels (src_zoh.c:67-68, 132-133; src_linear.c:69-70, 143-144). -/
def loadLast (m : Mem) (d : SrcData) (channels base : ℤ) (lv : List F32) : M (List F32) :=
  forM' channels.toNat (fun ch lv => do
    let v ← rdIn m d channels (base + ch)
    wrLast lv ch v) lv

/-- `ZOH_DATA` (src_zoh.c:31-37) and `LINEAR_DATA` (src_linear.c:33-39), which have the same fields.  The magic marker is
never read and is left out. -/
structure InterpData where
  dirty : Bool
  inCount : ℤ
  inUsed : ℤ
  outCount : ℤ
  outGen : ℤ
  lastValue : List F32

/-- "If we have just been reset, set the last_value data", src_zoh.c:65-70, src_linear.c:67-72. -/
def initLast (m : Mem) (d : SrcData) (channels : ℤ) (z : InterpData) : M (List F32) :=
  if z.dirty then pure z.lastValue else loadLast m d channels 0 z.lastValue

/-- src_zoh.c:131-133, src_linear.c:142-144. -/
def saveLast (m : Mem) (d : SrcData) (channels inUsed : ℤ) (lv : List F32) : M (List F32) :=
  if inUsed > 0 then loadLast m d channels (inUsed - channels) lv else pure lv

/-- Geometry and contents of one coefficient table (`fastest_coeffs.h:23-31`, `mid_qual_coeffs.h:23-31`,
`high_qual_coeffs.h`): `increment` and `coeffs [count]`.  The model is parametric in the table; the contents of
the first two are in `Verif.Model.CoeffsFastest` and `Verif.Model.CoeffsMid`, the third is not in the checkout. -/
structure CoeffTable where
  increment : ℤ
  count : ℤ
  coeffs : ℤ → F32

/-- `SINC_FILTER` (src_sinc.c:56-74).  `left_calc`/`right_calc` are scratch arrays, cleared before every use, and are
modelled as locals of `calcOutput`; the magic marker is never read.  `buffer` has the allocated length `bLen + channels`
and `coeffs` the length `coeffHalfLen + 2`; accesses are checked in `rdBuf`, `wrBuf` and `rdCoeff`. -/
structure SincFilter where
  inCount : ℤ
  inUsed : ℤ
  outCount : ℤ
  outGen : ℤ
  coeffHalfLen : ℤ
  indexInc : ℤ
  srcRatio : F64
  inputIndex : F64
  coeffs : ℤ → F32
  bCurrent : ℤ
  bEnd : ℤ
  bRealEnd : ℤ
  bLen : ℤ
  buffer : ℤ → F32

/-- Which virtual table a handle carries (`zoh_state_vt`, `linear_state_vt`, `sinc_*_state_vt`). -/
inductive Vt where
  | zoh
  | linear
  | sincMono
  | sincStereo
  | sincQuad
  | sincHex
  | sincMulti
  deriving DecidableEq, Repr

/-- `state->private_data`. -/
inductive Priv where
  | null
  | zoh (z : InterpData)
  | linear (l : InterpData)
  | sinc (s : SincFilter)

/-- `SRC_STATE` (common.h:155-175).  `callbackFunc`: `none` is `NULL`, otherwise an identification of the function;
`userData` identifies the user pointer. -/
structure SrcState where
  vt : Vt
  lastRatio : F64
  lastPosition : F64
  error : ℤ
  channels : ℤ
  mode : Mode
  callbackFunc : Option ℕ
  userData : ℕ
  savedFrames : ℤ
  savedData : ℤ
  priv : Priv

/-- What a `*_vari_process` function returns and changes. -/
structure ProcRes where
  err : ℤ
  mem : Mem
  st : SrcState
  data : SrcData

/-- Local variables of the two interpolating `*_vari_process` functions that live across loop iterations. -/
structure LoopSt where
  mem : Mem
  inUsed : ℤ
  outGen : ℤ
  idx : F64
  ratio : F64

/-- src_zoh.c:124-127, src_linear.c:135-138: input past the end of the array is carried over in the index. -/
def carryIdx (channels inCount : ℤ) (s : LoopSt) : ℤ × F64 :=
  if s.inUsed > inCount then (inCount, Fl.add s.idx (dbl ((s.inUsed - inCount).tdiv channels)))
  else (s.inUsed, s.idx)

end Verif
