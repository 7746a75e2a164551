import Verif.Model.Callback

/-! The library as built with `NDEBUG`, when `assert (...)` (`<assert.h>`, src_sinc.c:13) expands to nothing.

The assertions reached by calls on an existing handle are those of the filter evaluation (src_sinc.c:160, 388, 396-399, 416-419 and
copies).  This file repeats the functions that contain them, without them, and the functions that lead there.  Everything
else is shared with the model of the asserting build: the zero order hold and linear processing functions, `prepare_data`, the
arithmetic and the checks of the caller's arguments.  An access outside an array is still a fault here. -/

namespace Verif.Release

/-- `int_div_ceil`, src_sinc.c:158-162, without the assertion. -/
def intDivCeil (a b : ℤ) : M ℤ := do
  let n ← chkI32 (a + (b - 1))
  divM n b

/-- Left half loop, src_sinc.c:393-404, 546-558, 701-713, 857-869, 1019-1032, without the assertions. -/
def leftStep (v : SincVariant) (f : SincFilter) (channels increment : ℤ) (s : TapSt) : M (Bool × TapSt) := do
  if ¬ (s.filterIndex ≥ 0) then return (false, s)
  let w := v.w channels
  let ic ← icoeff f s.filterIndex
  let acc ← accumulate f channels w v.cap ic s.dataIndex s.acc
  let fi ← chkI32 (s.filterIndex - increment)
  let di ← chkI32 (s.dataIndex + w)
  return (true, ⟨fi, di, acc⟩)

/-- Right half loop (`do ... while`), src_sinc.c:413-425, 567-580, 722-736, 878-891, 1041-1054, without the assertions. -/
def rightStep (v : SincVariant) (f : SincFilter) (channels increment : ℤ) (s : TapSt) : M (Bool × TapSt) := do
  let w := v.w channels
  let ic ← icoeff f s.filterIndex
  let acc ← accumulate f channels w v.cap ic s.dataIndex s.acc
  let fi ← chkI32 (s.filterIndex - increment)
  let di ← chkI32 (s.dataIndex - w)
  return (decide (fi > 0), ⟨fi, di, acc⟩)

/-- Skips the taps that lie before the start of the buffer, src_sinc.c:385-391, 538-544, 693-699, 849-855, 1009-1015, without the
assertion; the second `int_div_ceil` (src_sinc.c:388) is an argument of `assert` and not evaluated. -/
def leftSkip (w increment fi di : ℤ) : M (ℤ × ℤ) :=
  if di < 0 then do
    let steps ← intDivCeil (-di) w
    let p ← chkI32 (increment * steps)
    let fi' ← chkI32 (fi - p)
    let q ← chkI32 (steps * w)
    let di' ← chkI32 (di + q)
    pure (fi', di')
  else pure (fi, di)

/-- `calc_output_*`, src_sinc.c:370-428, 523-584, 678-740, 834-895, 989-1060. -/
def calcOutput (v : SincVariant) (f : SincFilter) (channels increment start : ℤ) : M (ℕ → F64) := do
  let w := v.w channels
  let maxFi ← intToFp f.coeffHalfLen
  -- left half
  let d ← chkI32 (maxFi - start)
  let coeffCount ← divM d increment
  let prod ← chkI32 (coeffCount * increment)
  let fi ← chkI32 (start + prod)
  let off ← chkI32 (channels * coeffCount)
  let di ← chkI32 (f.bCurrent - off)
  let (fi, di) ← leftSkip w increment fi di
  let l ← whileM (leftStep v f channels increment) (fi.toNat + 2) ⟨fi, di, fun _ => zero64⟩
  -- right half
  let fi ← chkI32 (increment - start)
  let d ← chkI32 (maxFi - fi)
  let coeffCount ← divM d increment
  let prod ← chkI32 (coeffCount * increment)
  let fi ← chkI32 (fi + prod)
  let off ← chkI32 (channels * (1 + coeffCount))
  let di ← chkI32 (f.bCurrent + off)
  let r ← whileM (rightStep v f channels increment) (fi.toNat + 2) ⟨fi, di, fun _ => zero64⟩
  pure (fun ch => Fl.add (l.acc ch) (r.acc ch))

/-- Body of the main processing loop, src_sinc.c:472-510 and copies. -/
def sincStep (v : SincVariant) (st : SrcState) (d : SrcData) (half : ℤ) (terminate : F64) (s : SincLoop) :
    M (Bool × SincLoop) := do
  if ¬ (s.f.outGen < s.f.outCount) then return (false, s)
  let (brk, s) ← sincReload st d half s
  if brk then return (false, s)
  if sincDone v s.f s.idx terminate then return (false, s)
  let ratio := sincRatio st.lastRatio d.srcRatio s.f.outGen s.f.outCount s.ratio
  let floatInc := Fl.mul (dbl s.f.indexInc) (if Fl.lt ratio one64 then ratio else one64)
  let increment := doubleToFp floatInc
  let start := doubleToFp (Fl.mul s.idx floatInc)
  let sum ← calcOutput v s.f st.channels increment start
  let mem ← writeOutputs s.mem d st.channels (v.w st.channels) s.f.outGen (Fl.div floatInc (dbl s.f.indexInc)) sum
  let f := { s.f with outGen := s.f.outGen + v.w st.channels }
  let (f, idx) ← sincNorm st.channels f (Fl.add s.idx (Fl.div one64 ratio))
  return (true, { s with mem, f, idx, ratio })

/-- `sinc_*_vari_process`, src_sinc.c:430-521, 586-676, 742-832, 897-987, 1062-1152. -/
def sincVariProcess (v : SincVariant) (m : Mem) (st : SrcState) (d : SrcData) : M ProcRes := do
  match st.priv with
  | .null => return { err := Err.NO_PRIVATE, mem := m, st, data := d }
  | .sinc f =>
    let inCount ← chkI64 (d.inputFrames * st.channels)
    let outCount ← chkI64 (d.outputFrames * st.channels)
    let f := { f with inCount, outCount, inUsed := 0, outGen := 0 }
    if isBadSrcRatio st.lastRatio then
      return { err := Err.BAD_INTERNAL_STATE, mem := m, st := { st with priv := .sinc f }, data := d }
    let half ← halfFilterChanLen f st.channels st.lastRatio d.srcRatio
    let (f, idx) ← sincNorm st.channels f st.lastPosition
    let terminate := Fl.add (Fl.div one64 st.lastRatio) SRC_MIN_RATIO_DIFF
    let s ← whileM (sincStep v st d half terminate) (d.outputFrames.toNat + 1)
      { mem := m, f, idx, ratio := st.lastRatio, error := st.error, stop := 0 }
    if s.stop ≠ 0 then
      return { err := s.stop, mem := s.mem, st := { st with priv := .sinc s.f, error := s.error }, data := d }
    let used ← divM s.f.inUsed st.channels
    let gen ← divM s.f.outGen st.channels
    return { err := Err.NO_ERROR, mem := s.mem,
             st := { st with priv := .sinc s.f, error := s.error, lastPosition := s.idx, lastRatio := s.ratio },
             data := { d with inputFramesUsed := used, outputFramesGen := gen } }
  | _ => throw .typeConfusion

/-- `state->vt->const_process` and `state->vt->vari_process` (src_zoh.c:39-46, src_linear.c:41-48, src_sinc.c:88-131). -/
def variProcess (m : Mem) (st : SrcState) (d : SrcData) : M ProcRes :=
  match st.vt with
  | .zoh => zohVariProcess m st d
  | .linear => linearVariProcess m st d
  | .sincMono => sincVariProcess vMono m st d
  | .sincStereo => sincVariProcess vStereo m st d
  | .sincQuad => sincVariProcess vQuad m st d
  | .sincHex => sincVariProcess vHex m st d
  | .sincMulti => sincVariProcess vMulti m st d

/-- `src_process` from the test of the data pointers on, samplerate.c:99-142; the two branches of the last test call the same
function (see `constProcess`). -/
def srcProcessData (m : Mem) (st : SrcState) (d : SrcData) : M ProcRes := do
  if (d.dataIn = 0 ∧ d.inputFrames > 0) ∨ (d.dataOut = 0 ∧ d.outputFrames > 0) then
    return { err := Err.BAD_DATA_PTR, mem := m, st, data := d }
  if isBadSrcRatio d.srcRatio then return { err := Err.BAD_SRC_RATIO, mem := m, st, data := d }
  let d := clampFrames d
  let overlap ← overlapTest st.channels d
  if overlap then return { err := Err.DATA_OVERLAP, mem := m, st, data := d }
  let d := { d with inputFramesUsed := 0, outputFramesGen := 0 }
  let st := if Fl.lt st.lastRatio MIN_RATIO then { st with lastRatio := d.srcRatio } else st
  variProcess m st d

/-- `src_process`, samplerate.c:84-143. -/
def srcProcess (m : Mem) (st : Option SrcState) (d : Option SrcData) :
    M (ℤ × Mem × Option SrcState × Option SrcData) :=
  match st with
  | none => pure (Err.BAD_STATE, m, st, d)
  | some s =>
    if s.mode ≠ .process then pure (Err.BAD_MODE, m, st, d)
    else match d with
    | none => pure (Err.BAD_DATA, m, st, d)
    | some d => do
      let r ← srcProcessData m s d
      pure (r.err, r.mem, some r.st, some r.data)

/-- Body of the loop of `src_callback_read`, samplerate.c:188-226. -/
def cbStep (cb : Callback) (dummy frames : ℤ) (s : CbSt) : M (Bool × CbSt) := do
  if ¬ (s.gen < frames) then return (false, s)
  let s := cbFetch cb dummy s
  let (e, mem, st, d) ← srcProcess s.mem (some { s.st with mode := .process }) (some s.d)
  let st := { st.getD s.st with mode := .callback }
  let d := d.getD s.d
  if e ≠ 0 then return (false, { s with mem, st, d, err := e })
  let a ← chkI64 (d.inputFramesUsed * st.channels)
  let b ← chkI64 (d.outputFramesGen * st.channels)
  let d := { d with dataIn := d.dataIn + a, inputFrames := d.inputFrames - d.inputFramesUsed,
                    dataOut := d.dataOut + b, outputFrames := d.outputFrames - d.outputFramesGen }
  let s := { s with mem, st, d, gen := s.gen + d.outputFramesGen }
  return (decide (¬ (d.endOfInput = 1 ∧ d.outputFramesGen = 0)), s)

/-- `src_callback_read`, samplerate.c:145-235. -/
def srcCallbackRead (cb : Callback) (dummy : ℤ) (fuel calls : ℕ) (m : Mem) (st : Option SrcState) (ratio : F64)
    (frames data : ℤ) : M (ℤ × Mem × Option SrcState × ℕ) :=
  match st with
  | none => pure (0, m, none, calls)
  | some s =>
    if frames ≤ 0 then pure (0, m, some s, calls)
    else if s.mode ≠ .callback then pure (0, m, some { s with error := Err.BAD_MODE }, calls)
    else if s.callbackFunc = none then pure (0, m, some { s with error := Err.NULL_CALLBACK }, calls)
    else if isBadSrcRatio ratio then pure (0, m, some { s with error := Err.BAD_SRC_RATIO }, calls)
    else do
      let r ← whileM (cbStep cb dummy frames) fuel
        { st := s, mem := m, d := cbData s ratio frames data, gen := 0, calls, err := 0 }
      let st := { r.st with savedData := r.d.dataIn, savedFrames := r.d.inputFrames }
      if r.err ≠ 0 then pure (0, r.mem, some { st with error := r.err }, r.calls)
      else pure (r.gen, r.mem, some st, r.calls)

end Verif.Release
