import Verif.Model.Api

/-! Model of `src_callback_read` (samplerate.c:145-235).

The user callback is an arbitrary function: it gets the user pointer of the handle, the number of callbacks made before in
this history (so that its answers may depend on everything that happened earlier) and the memory; it returns a frame
count, the address it stores in `*data` (`none`: it leaves the pointer alone) and the memory as it leaves it.  A callback that
itself calls the library on the same handle is not modelled. -/

namespace Verif

/-- The user callback, see above. -/
abbrev Callback := ℕ → ℕ → Mem → ℤ × Option ℤ × Mem

/-- Locals of `src_callback_read` that live across iterations, with the handle, the memory and the number of callbacks so far. -/
structure CbSt where
  st : SrcState
  mem : Mem
  d : SrcData
  gen : ℤ
  calls : ℕ
  err : ℤ

/-- Fetch new input if there is none, samplerate.c:195-203.  `dummy` is the address of the local array `dummy`. -/
def cbFetch (cb : Callback) (dummy : ℤ) (s : CbSt) : CbSt :=
  if s.d.inputFrames = 0 then
    let r := cb s.st.userData s.calls s.mem
    { s with
      mem := r.2.2, calls := s.calls + 1,
      d := { s.d with inputFrames := r.1, dataIn := r.2.1.getD dummy,
                      endOfInput := if r.1 = 0 then 1 else s.d.endOfInput } }
  else s

/-- Body of the loop, samplerate.c:188-226. -/
def cbStep (cb : Callback) (dummy frames : ℤ) (s : CbSt) : M (Bool × CbSt) := do
  if ¬ (s.gen < frames) then return (false, s)
  let s := cbFetch cb dummy s
  let (e, mem, st, d) ← srcProcess s.mem (some { s.st with mode := .process }) (some s.d)
  let st := { st.getD s.st with mode := .callback }
  let d := d.getD s.d
  if e ≠ 0 then return (false, { s with mem, st, d, err := e })
  let a ← chkI64 (d.inputFramesUsed * st.channels)
  let b ← chkI64 (d.outputFramesGen * st.channels)
  let d := { d with dataIn := d.dataIn + a, inputFrames := d.inputFrames - d.inputFramesUsed,
                    dataOut := d.dataOut + b, outputFrames := d.outputFrames - d.outputFramesGen }
  let s := { s with mem, st, d, gen := s.gen + d.outputFramesGen }
  return (decide (¬ (d.endOfInput = 1 ∧ d.outputFramesGen = 0)), s)

/-- `src_data` before the loop, samplerate.c:170-185. -/
def cbData (st : SrcState) (ratio : F64) (frames data : ℤ) : SrcData :=
  { dataIn := st.savedData, dataOut := data, inputFrames := st.savedFrames, outputFrames := frames,
    inputFramesUsed := 0, outputFramesGen := 0, endOfInput := 0, srcRatio := ratio }

/-- `src_callback_read`, samplerate.c:145-235.  Result: return value, memory, handle, number of callbacks so far.  `fuel` bounds
the number of iterations of the `while` loop; `outOfFuel` stands for "still running". -/
def srcCallbackRead (cb : Callback) (dummy : ℤ) (fuel calls : ℕ) (m : Mem) (st : Option SrcState) (ratio : F64)
    (frames data : ℤ) : M (ℤ × Mem × Option SrcState × ℕ) :=
  match st with
  | none => pure (0, m, none, calls)
  | some s =>
    if frames ≤ 0 then pure (0, m, some s, calls)
    else if s.mode ≠ .callback then pure (0, m, some { s with error := Err.BAD_MODE }, calls)
    else if s.callbackFunc = none then pure (0, m, some { s with error := Err.NULL_CALLBACK }, calls)
    else if isBadSrcRatio ratio then pure (0, m, some { s with error := Err.BAD_SRC_RATIO }, calls)
    else do
      let r ← whileM (cbStep cb dummy frames) fuel
        { st := s, mem := m, d := cbData s ratio frames data, gen := 0, calls, err := 0 }
      let st := { r.st with savedData := r.d.dataIn, savedFrames := r.d.inputFrames }
      if r.err ≠ 0 then pure (0, r.mem, some { st with error := r.err }, r.calls)
      else pure (r.gen, r.mem, some st, r.calls)

end Verif
