import Verif.Model.Zoh

/-! Model of `src/src_sinc.c`.

The C file contains five textual copies of the process function and of the filter evaluation (mono, stereo, quad, hex,
multichannel).  They differ only in a literal channel count, in the size of the local accumulator arrays, in the comparison
of the termination test (`>` for mono, `>=` for the others) and in one weaker assertion of the mono version.  The model is
one template instantiated five times (`SincVariant`). -/

namespace Verif

/-- What distinguishes the five copies. `width`: `none` means the run-time channel count. -/
structure SincVariant where
  width : Option ℤ
  cap : ℕ
  strict : Bool
  weakAssert : Bool

/-- `calc_output_single`/`sinc_mono_vari_process`, src_sinc.c:370-521 -/
def vMono : SincVariant := ⟨some 1, 1, true, true⟩
/-- `calc_output_stereo`/`sinc_stereo_vari_process`, src_sinc.c:523-676 -/
def vStereo : SincVariant := ⟨some 2, 2, false, false⟩
/-- `calc_output_quad`/`sinc_quad_vari_process`, src_sinc.c:678-832 -/
def vQuad : SincVariant := ⟨some 4, 4, false, false⟩
/-- `calc_output_hex`/`sinc_hex_vari_process`, src_sinc.c:834-987 -/
def vHex : SincVariant := ⟨some 6, 6, false, false⟩
/-- `calc_output_multi`/`sinc_multichan_vari_process`, src_sinc.c:989-1152; `MAX_CHANNELS` = 128 -/
def vMulti : SincVariant := ⟨none, 128, false, false⟩

/-- The literal channel count of a variant. -/
def SincVariant.w (v : SincVariant) (channels : ℤ) : ℤ := v.width.getD channels

/-- `double_to_fp`, src_sinc.c:133-136 (`FP_ONE` = 4096.0). -/
def doubleToFp (x : F64) : ℤ := lrint (Fl.mul x (dbl 4096))
/-- `int_to_fp`, src_sinc.c:138-141; a left shift that overflows is undefined. -/
def intToFp (x : ℤ) : M ℤ := chkI32 (x * 4096)
/-- `fp_to_int`, src_sinc.c:143-146 (arithmetic shift). -/
def fpToInt (x : ℤ) : ℤ := x / 4096
/-- `fp_to_double`, src_sinc.c:148-156: fraction part times `INV_FP_ONE` = 1/4096. -/
def fpToDouble (x : ℤ) : F64 := Fl.mul (dbl (x % 4096)) (Fl.div one64 (dbl 4096))

/-- `assert (b)` -/
def assertM (b : Bool) : M Unit := if b then pure () else throw .assertFailed

/-- C integer division and remainder (truncating; division by zero is undefined). -/
def divM (a b : ℤ) : M ℤ := if b = 0 then throw .divByZero else pure (a.tdiv b)
def modM (a b : ℤ) : M ℤ := if b = 0 then throw .divByZero else pure (a.tmod b)

/-- `int_div_ceil`, src_sinc.c:158-162. -/
def intDivCeil (a b : ℤ) : M ℤ := do
  assertM (a ≥ 0 && b > 0)
  let n ← chkI32 (a + (b - 1))
  divM n b

/-- `filter->coeffs [i]`; the table has `coeff_half_len + 2` entries (src_sinc.c:222-238). -/
def rdCoeff (f : SincFilter) (i : ℤ) : M F32 :=
  if 0 ≤ i ∧ i < f.coeffHalfLen + 2 then pure (f.coeffs i) else throw .oobRead

/-- `filter->buffer [i]`; the buffer has `b_len + channels` entries (src_sinc.c:249). -/
def rdBuf (f : SincFilter) (channels : ℤ) (i : ℤ) : M F32 :=
  if 0 ≤ i ∧ i < f.bLen + channels then pure (f.buffer i) else throw .oobRead

/-- Interpolated filter coefficient: `coeffs [indx] + fraction * (coeffs [indx + 1] - coeffs [indx])`; the difference is
computed in `float`, the rest in `double` (src_sinc.c:394-397, 414-417 and copies). -/
def icoeff (f : SincFilter) (filterIndex : ℤ) : M F64 := do
  let indx := fpToInt filterIndex
  let c0 ← rdCoeff f indx
  let c1 ← rdCoeff f (indx + 1)
  pure (Fl.add (Fl.conv f64 c0) (Fl.mul (fpToDouble filterIndex) (Fl.conv f64 (Fl.sub c1 c0))))

/-- Accumulation `acc [ch] += icoeff * buffer [data_index + ch]` over the channels (src_sinc.c:400, 553-554, ...).
`cap` is the size of the accumulator array. -/
def accumulate (f : SincFilter) (channels w : ℤ) (cap : ℕ) (ic : F64) (dataIndex : ℤ) (acc : ℕ → F64) :
    M (ℕ → F64) :=
  forM' w.toNat (fun ch acc => do
    let x ← rdBuf f channels (dataIndex + ch)
    if ch < cap then
      pure (Function.update acc ch (Fl.add (acc ch) (Fl.mul ic (Fl.conv f64 x))))
    else throw .oobWrite) acc

/-- State of the two filter loops. -/
structure TapSt where
  filterIndex : ℤ
  dataIndex : ℤ
  acc : ℕ → F64

/-- Left half loop, src_sinc.c:393-404, 546-558, 701-713, 857-869, 1019-1032. -/
def leftStep (v : SincVariant) (f : SincFilter) (channels increment : ℤ) (s : TapSt) : M (Bool × TapSt) := do
  if ¬ (s.filterIndex ≥ 0) then return (false, s)
  let w := v.w channels
  let indx := fpToInt s.filterIndex
  assertM (indx ≥ 0 && indx + 1 < f.coeffHalfLen + 2)
  let ic ← icoeff f s.filterIndex
  assertM (s.dataIndex ≥ 0 && s.dataIndex + w - 1 < f.bLen)
  assertM (s.dataIndex + w - 1 < f.bEnd)
  let acc ← accumulate f channels w v.cap ic s.dataIndex s.acc
  let fi ← chkI32 (s.filterIndex - increment)
  let di ← chkI32 (s.dataIndex + w)
  return (true, ⟨fi, di, acc⟩)

/-- Assertion on the filter index in the right half loop: mono src_sinc.c:416, others 570, 725, 881, 1044. -/
def rightAssert (v : SincVariant) (f : SincFilter) (indx : ℤ) : M Unit :=
  if v.weakAssert then assertM (indx < f.coeffHalfLen + 2)
  else assertM (indx ≥ 0 && indx + 1 < f.coeffHalfLen + 2)

/-- Right half loop (`do ... while`), src_sinc.c:413-425, 567-580, 722-736, 878-891, 1041-1054. -/
def rightStep (v : SincVariant) (f : SincFilter) (channels increment : ℤ) (s : TapSt) : M (Bool × TapSt) := do
  let w := v.w channels
  let indx := fpToInt s.filterIndex
  rightAssert v f indx
  let ic ← icoeff f s.filterIndex
  assertM (s.dataIndex ≥ 0 && s.dataIndex + w - 1 < f.bLen)
  assertM (s.dataIndex + w - 1 < f.bEnd)
  let acc ← accumulate f channels w v.cap ic s.dataIndex s.acc
  let fi ← chkI32 (s.filterIndex - increment)
  let di ← chkI32 (s.dataIndex - w)
  return (decide (fi > 0), ⟨fi, di, acc⟩)

/-- Skips the taps that lie before the start of the buffer, src_sinc.c:385-391, 538-544, 693-699, 849-855, 1009-1015. -/
def leftSkip (w increment fi di : ℤ) : M (ℤ × ℤ) :=
  if di < 0 then do
    let steps ← intDivCeil (-di) w
    let lim ← intDivCeil fi increment
    assertM (steps ≤ lim)
    let p ← chkI32 (increment * steps)
    let fi' ← chkI32 (fi - p)
    let q ← chkI32 (steps * w)
    let di' ← chkI32 (di + q)
    pure (fi', di')
  else pure (fi, di)

/-- `calc_output_*`, src_sinc.c:370-428, 523-584, 678-740, 834-895, 989-1060: returns `left [ch] + right [ch]`. -/
def calcOutput (v : SincVariant) (f : SincFilter) (channels increment start : ℤ) : M (ℕ → F64) := do
  let w := v.w channels
  let maxFi ← intToFp f.coeffHalfLen
  -- left half
  let d ← chkI32 (maxFi - start)
  let coeffCount ← divM d increment
  let prod ← chkI32 (coeffCount * increment)
  let fi ← chkI32 (start + prod)
  let off ← chkI32 (channels * coeffCount)
  let di ← chkI32 (f.bCurrent - off)
  let (fi, di) ← leftSkip w increment fi di
  let l ← whileM (leftStep v f channels increment) (fi.toNat + 2) ⟨fi, di, fun _ => zero64⟩
  -- right half
  let fi ← chkI32 (increment - start)
  let d ← chkI32 (maxFi - fi)
  let coeffCount ← divM d increment
  let prod ← chkI32 (coeffCount * increment)
  let fi ← chkI32 (fi + prod)
  let off ← chkI32 (channels * (1 + coeffCount))
  let di ← chkI32 (f.bCurrent + off)
  let r ← whileM (rightStep v f channels increment) (fi.toNat + 2) ⟨fi, di, fun _ => zero64⟩
  pure (fun ch => Fl.add (l.acc ch) (r.acc ch))

/-- `(int) x` for a `long` x: two's complement truncation. -/
def truncI32 (n : ℤ) : ℤ := (n + 2147483648) % 4294967296 - 2147483648

/-- `memmove (buffer, buffer + src, len)` inside the filter buffer; a negative length is a huge `size_t`. -/
def bufMove (f : SincFilter) (channels src len : ℤ) : M SincFilter :=
  if len < 0 then throw .oobRead
  else if 0 ≤ src ∧ src + len ≤ f.bLen + channels then
    pure { f with buffer := fun i => if 0 ≤ i ∧ i < len then f.buffer (src + i) else f.buffer i }
  else throw .oobRead

/-- `memcpy (buffer + dst, data_in + src, len)`. -/
def bufLoad (m : Mem) (d : SrcData) (f : SincFilter) (channels dst src len : ℤ) : M SincFilter :=
  if len < 0 then throw .oobRead
  else if ¬ (0 ≤ dst ∧ dst + len ≤ f.bLen + channels) then throw .oobWrite
  else if ¬ (0 ≤ src ∧ src + len ≤ d.inputFrames * channels) then throw .oobRead
  else pure { f with buffer := fun i => if dst ≤ i ∧ i < dst + len then m (d.dataIn + src + (i - dst)) else f.buffer i }

/-- `memset (buffer + dst, 0, len)`. -/
def bufZero (f : SincFilter) (channels dst len : ℤ) : M SincFilter :=
  if len < 0 then throw .oobWrite
  else if 0 ≤ dst ∧ dst + len ≤ f.bLen + channels then
    pure { f with buffer := fun i => if dst ≤ i ∧ i < dst + len then zero32 else f.buffer i }
  else throw .oobWrite

/-- First part of `prepare_data` (src_sinc.c:1167-1190): makes room and computes how much may be loaded. -/
def prepRoom (f : SincFilter) (channels half : ℤ) : M (SincFilter × ℤ) := do
  if f.bCurrent = 0 then do
    let len ← chkI32 (f.bLen - 2 * half)
    pure ({ f with bCurrent := half, bEnd := half }, len)
  else do
    let e ← chkI32 (f.bEnd + half + channels)
    if e < f.bLen then do
      let len ← chkI32 (f.bLen - f.bCurrent - half)
      pure (f, max len 0)
    else do
      let len ← chkI32 (f.bEnd - f.bCurrent)
      let n ← chkI32 (half + len)
      let f ← bufMove f channels (f.bCurrent - half) n
      let f := { f with bCurrent := half, bEnd := half + len }
      let len ← chkI32 (f.bLen - f.bCurrent - half)
      pure (f, max len 0)

/-- "If necessary, move data down to the start of the buffer" before silence is appended (src_sinc.c:1210-1218). -/
def tailMove (f : SincFilter) (channels half : ℤ) : M SincFilter :=
  if f.bLen - f.bEnd < half + 5 then do
    let len ← chkI32 (f.bEnd - f.bCurrent)
    let n ← chkI32 (half + len)
    let f ← bufMove f channels (f.bCurrent - half) n
    pure { f with bCurrent := half, bEnd := half + len }
  else pure f

/-- Last part of `prepare_data` (src_sinc.c:1204-1228): end of input, append silence. -/
def prepTail (f : SincFilter) (channels half : ℤ) (d : SrcData) : M SincFilter := do
  if f.inUsed = f.inCount ∧ f.bEnd - f.bCurrent < 2 * half ∧ d.endOfInput ≠ 0 then do
    let f ← tailMove f channels half
    let f := { f with bRealEnd := f.bEnd }
    let len ← chkI32 (half + 5)
    let e ← chkI32 (f.bEnd + len)
    let len := if len < 0 ∨ e > f.bLen then f.bLen - f.bEnd else len
    let f ← bufZero f channels f.bEnd len
    pure { f with bEnd := f.bEnd + len }
  else pure f

/-- `prepare_data`, src_sinc.c:1157-1231. -/
def prepareData (m : Mem) (f : SincFilter) (channels : ℤ) (d : SrcData) (half : ℤ) : M (ℤ × SincFilter) := do
  if f.bRealEnd ≥ 0 then return (Err.NO_ERROR, f)
  if d.dataIn = 0 then return (Err.NO_ERROR, f)
  let (f, len) ← prepRoom f channels half
  let len := min (truncI32 (f.inCount - f.inUsed)) len
  let r ← modM len channels
  let len := len - r
  let e ← chkI32 (f.bEnd + len)
  if len < 0 ∨ e > f.bLen then return (Err.SINC_PREPARE_DATA_BAD_LEN, f)
  let f ← bufLoad m d f channels f.bEnd f.inUsed len
  let f := { f with bEnd := f.bEnd + len, inUsed := f.inUsed + len }
  let f ← prepTail f channels half d
  return (Err.NO_ERROR, f)

/-- Locals of the process function that live across iterations. `stop ≠ 0` is the early `return state->error`. -/
structure SincLoop where
  mem : Mem
  f : SincFilter
  idx : F64
  ratio : F64
  error : ℤ
  stop : ℤ

/-- `(b_end - b_current + b_len) % b_len`, src_sinc.c:475, 481 and copies. -/
def samplesInHand (f : SincFilter) : M ℤ := do
  let a ← chkI32 (f.bEnd - f.bCurrent)
  let b ← chkI32 (a + f.bLen)
  modM b f.bLen

/-- `rem = fmod_one (idx) ; b_current = (b_current + channels * psf_lrint (idx - rem)) % b_len ; idx = rem`,
src_sinc.c:465-467, 506-509 and copies. -/
def sincNorm (channels : ℤ) (f : SincFilter) (idx : F64) : M (SincFilter × F64) := do
  let rem := fmodOne idx
  let p ← chkI32 (channels * lrint (Fl.sub idx rem))
  let b ← chkI32 (f.bCurrent + p)
  let c ← modM b f.bLen
  pure ({ f with bCurrent := c }, rem)

/-- Termination test, src_sinc.c:487-490 (`>`), 643-646, 799-802, 954-957, 1119-1122 (`>=`):
the sum is evaluated left to right in double. -/
def sincDone (v : SincVariant) (f : SincFilter) (idx terminate : F64) : Bool :=
  if f.bRealEnd ≥ 0 then
    let x := Fl.add (Fl.add (dbl f.bCurrent) idx) terminate
    if v.strict then Fl.gt x (dbl f.bRealEnd) else Fl.ge x (dbl f.bRealEnd)
  else false

/-- Instantaneous ratio, src_sinc.c:492-493 and copies. -/
def sincRatio (last target : F64) (outGen outCount : ℤ) (cur : F64) : F64 :=
  if outCount > 0 ∧ Fl.gt (Fl.abs (Fl.sub last target)) SINC_RATIO_EPS = true then
    Fl.add last (Fl.div (Fl.mul (dbl outGen) (Fl.sub target last)) (dbl outCount))
  else cur

/-- `output [ch] = (float) (scale * (left [ch] + right [ch]))` (src_sinc.c:500-501, 582-583, ...). -/
def writeOutputs (mem : Mem) (d : SrcData) (channels w base : ℤ) (scale : F64) (sum : ℕ → F64) : M Mem :=
  forM' w.toNat (fun ch mem => wrOut mem d channels (base + ch) (Fl.conv f32 (Fl.mul scale (sum ch)))) mem

/-- Reload of the buffer at the start of an iteration, src_sinc.c:474-484 and copies.  First component: leave the loop. -/
def sincReload (st : SrcState) (d : SrcData) (half : ℤ) (s : SincLoop) : M (Bool × SincLoop) := do
  let n ← samplesInHand s.f
  if n ≤ half then do
    let (e, f) ← prepareData s.mem s.f st.channels d half
    let s := { s with f, error := e }
    if e ≠ 0 then return (true, { s with stop := e })
    let n ← samplesInHand f
    return (decide (n ≤ half), s)
  else return (false, s)

/-- Body of the main processing loop, src_sinc.c:472-510 and copies. -/
def sincStep (v : SincVariant) (st : SrcState) (d : SrcData) (half : ℤ) (terminate : F64) (s : SincLoop) :
    M (Bool × SincLoop) := do
  if ¬ (s.f.outGen < s.f.outCount) then return (false, s)
  let (brk, s) ← sincReload st d half s
  if brk then return (false, s)
  if sincDone v s.f s.idx terminate then return (false, s)
  let ratio := sincRatio st.lastRatio d.srcRatio s.f.outGen s.f.outCount s.ratio
  let floatInc := Fl.mul (dbl s.f.indexInc) (if Fl.lt ratio one64 then ratio else one64)
  let increment := doubleToFp floatInc
  let start := doubleToFp (Fl.mul s.idx floatInc)
  let sum ← calcOutput v s.f st.channels increment start
  let mem ← writeOutputs s.mem d st.channels (v.w st.channels) s.f.outGen (Fl.div floatInc (dbl s.f.indexInc)) sum
  let f := { s.f with outGen := s.f.outGen + v.w st.channels }
  let (f, idx) ← sincNorm st.channels f (Fl.add s.idx (Fl.div one64 ratio))
  return (true, { s with mem, f, idx, ratio })

/-- C `MIN (a, b)` on doubles. -/
def minF (a b : F64) : F64 := if Fl.lt a b then a else b

/-- Filter half length in samples: src_sinc.c:455-461 and copies. -/
def halfFilterChanLen (f : SincFilter) (channels : ℤ) (last target : F64) : M ℤ := do
  let count := Fl.div (Fl.add (dbl f.coeffHalfLen) (dbl 2)) (dbl f.indexInc)
  let r := minF last target
  let count := if Fl.lt r one64 then Fl.div count r else count
  let n ← chkI32 (lrint count + 1)
  chkI32 (channels * n)

/-- `sinc_*_vari_process`, src_sinc.c:430-521, 586-676, 742-832, 897-987, 1062-1152. -/
def sincVariProcess (v : SincVariant) (m : Mem) (st : SrcState) (d : SrcData) : M ProcRes := do
  match st.priv with
  | .null => return { err := Err.NO_PRIVATE, mem := m, st, data := d }
  | .sinc f =>
    let inCount ← chkI64 (d.inputFrames * st.channels)
    let outCount ← chkI64 (d.outputFrames * st.channels)
    let f := { f with inCount, outCount, inUsed := 0, outGen := 0 }
    if isBadSrcRatio st.lastRatio then
      return { err := Err.BAD_INTERNAL_STATE, mem := m, st := { st with priv := .sinc f }, data := d }
    let half ← halfFilterChanLen f st.channels st.lastRatio d.srcRatio
    let (f, idx) ← sincNorm st.channels f st.lastPosition
    let terminate := Fl.add (Fl.div one64 st.lastRatio) SRC_MIN_RATIO_DIFF
    let s ← whileM (sincStep v st d half terminate) (d.outputFrames.toNat + 1)
      { mem := m, f, idx, ratio := st.lastRatio, error := st.error, stop := 0 }
    if s.stop ≠ 0 then
      return { err := s.stop, mem := s.mem, st := { st with priv := .sinc s.f, error := s.error }, data := d }
    let used ← divM s.f.inUsed st.channels
    let gen ← divM s.f.outGen st.channels
    return { err := Err.NO_ERROR, mem := s.mem,
             st := { st with priv := .sinc s.f, error := s.error, lastPosition := s.idx, lastRatio := s.ratio },
             data := { d with inputFramesUsed := used, outputFramesGen := gen } }
  | _ => throw .typeConfusion

/-- The byte pattern 0xAAAAAAAA of the sanity area as a `float` (−3.0316488e-13). -/
def sanity32 : F32 := Fl.round f32 (-(11184810 : ℚ) / 2 ^ 65)

/-- `sinc_reset`, src_sinc.c:311-328. -/
def sincReset (channels : ℤ) (f : SincFilter) : SincFilter :=
  { f with
    bCurrent := 0, bEnd := 0, bRealEnd := -1, srcRatio := zero64, inputIndex := zero64,
    buffer := fun i =>
      if 0 ≤ i ∧ i < f.bLen then zero32
      else if f.bLen ≤ i ∧ i < f.bLen + channels then sanity32
      else f.buffer i }

/-- `b_len` as computed in `sinc_filter_new`, src_sinc.c:243-246. -/
def sincBLen (t : CoeffTable) (channels : ℤ) : M ℤ := do
  let q := Fl.add (Fl.mul (Fl.div (Fl.add (dbl (t.count - 2)) (dbl 2)) (dbl t.increment)) (dbl 256)) one64
  let a ← chkI32 (3 * lrint q)
  let b ← chkI32 (max a 4096 * channels)
  chkI32 (b + 1)

/-- The filter as `sinc_filter_new` leaves it (src_sinc.c:214-257; `calloc` zeroes the buffer). -/
def sincFilterInit (t : CoeffTable) (bLen : ℤ) : SincFilter :=
  { inCount := 0, inUsed := 0, outCount := 0, outGen := 0, coeffHalfLen := t.count - 2, indexInc := t.increment,
    srcRatio := zero64, inputIndex := zero64, coeffs := t.coeffs, bCurrent := 0, bEnd := 0, bRealEnd := 0, bLen,
    buffer := fun _ => zero32 }

end Verif
