import Verif.Model.New

/-! Model of the example program `examples/timewarp-file.c`, which converts a file while it changes the ratio according to a table.

libsndfile is not modelled: the input file is a sequence of `len` frames (`x k c`: frame `k`, channel `c`) of which `sf_readf_float` delivers the
next ones, as many as asked for as long as there are any left; the output file is the list of the frames written.  `printf` and the opening and closing of the files
are left out, and `exit (1)` is the result `none`.  The two `static` arrays of the program are the ranges of `BUFFER_LEN` samples that start at the addresses
`inp` and `out`. -/

namespace Verif

/-- `BUFFER_LEN`, timewarp-file.c:30 -/
def TW_BUFFER_LEN : ℤ := 1024
/-- `INPUT_STEP_SIZE`, timewarp-file.c:31 -/
def TW_STEP : ℤ := 8

/-- The table `warp`, timewarp-file.c:90-100: frame index and ratio. -/
def warp : List (ℤ × F64) :=
  [(0, Fl.round f64 (100000001 / 100000000)), (20000, Fl.round f64 (101 / 100)), (20200, Fl.round f64 (100000001 / 100000000)),
   (40000, Fl.round f64 (12 / 10)), (40300, Fl.round f64 (100000001 / 100000000)), (60000, Fl.round f64 (11 / 10)),
   (60400, Fl.round f64 (100000001 / 100000000)), (80000, Fl.round f64 (15 / 10)), (81000, Fl.round f64 (100000001 / 100000000))]

/-- An input file. -/
structure SndFile where
  len : ℕ
  x : ℕ → ℕ → F32

/-- `sf_readf_float (infile, addr, frames)` with the file positioned at frame `pos`: number of frames read, and memory. -/
def sfReadf (f : SndFile) (ch : ℤ) (pos : ℕ) (m : Mem) (addr : ℤ) (frames : ℕ) : ℕ × Mem :=
  let k := min frames (f.len - pos)
  (k, fun a => if addr ≤ a ∧ a < addr + ch * k then f.x (pos + ((a - addr) / ch).toNat) ((a - addr) % ch).toNat else m a)

/-- `sf_writef_float (outfile, addr, frames)`: the frames appended to the file. -/
def sfWritef (ch : ℤ) (m : Mem) (addr : ℤ) (frames : ℕ) : List (List F32) :=
  (List.range frames).map fun j : ℕ => (List.range ch.toNat).map fun c : ℕ => m (addr + (ch * (j : ℤ) + (c : ℤ)))

/-- Locals of `timewarp_convert`, with the handle, memory and the two files. -/
structure TwSt where
  st : SrcState
  d : SrcData
  mem : Mem
  pos : ℕ
  warpIndex : ℕ
  inputCount : ℤ
  outputCount : ℤ
  written : List (List F32)
  err : ℤ

/-- Take the next ratio of the table, timewarp-file.c:139-142.  The index is in the range of the table because of the first half of the condition. -/
def twRatio (s : TwSt) : TwSt :=
  match warp[s.warpIndex]? with
  | some (index, ratio) =>
    if (s.warpIndex : ℤ) < warp.length - 1 ∧ index ≤ s.inputCount then
      { s with d := { s.d with srcRatio := ratio }, warpIndex := s.warpIndex + 1 }
    else s
  | none => s

/-- Refill the input buffer, timewarp-file.c:144-154. -/
def twRefill (f : SndFile) (ch inp : ℤ) (s : TwSt) : M TwSt :=
  if s.d.inputFrames = 0 then
    if TW_STEP * ch ≤ TW_BUFFER_LEN then
      let r := sfReadf f ch s.pos s.mem inp TW_STEP.toNat
      pure { s with mem := r.2, pos := s.pos + r.1, inputCount := s.inputCount + r.1,
                    d := { s.d with inputFrames := r.1, dataIn := inp, endOfInput := if (r.1 : ℤ) < TW_STEP then 1 else s.d.endOfInput } }
    else throw .oobWrite
  else pure s

/-- Body of the loop, timewarp-file.c:137-171. -/
def twStep (f : SndFile) (ch inp out : ℤ) (s : TwSt) : M (Bool × TwSt) := do
  let s ← twRefill f ch inp (twRatio s)
  let (e, mem, st, d) ← srcProcess s.mem (some s.st) (some s.d)
  let s := { s with mem, st := st.getD s.st, d := d.getD s.d, err := e }
  if e ≠ 0 then return (false, s)
  if s.d.endOfInput ≠ 0 ∧ s.d.outputFramesGen = 0 then return (false, s)
  if ¬ (s.d.outputFramesGen * ch ≤ TW_BUFFER_LEN) then throw .oobRead
  let a ← chkI64 (s.d.inputFramesUsed * ch)
  return (true, { s with
    written := s.written ++ sfWritef ch s.mem out s.d.outputFramesGen.toNat,
    outputCount := s.outputCount + s.d.outputFramesGen,
    d := { s.d with dataIn := s.d.dataIn + a, inputFrames := s.d.inputFrames - s.d.inputFramesUsed } })

/-- `src_data` and the locals before the loop, timewarp-file.c:104-135.  `output_frames_gen` and `input_frames_used` are not set by the
program; `src_process` sets them before they are read. -/
def twInit (st : SrcState) (m : Mem) (ch inp out : ℤ) : TwSt :=
  let first : ℕ × F64 := match warp.head? with
    | some (index, ratio) => if index > 0 then (0, one64) else (1, ratio)
    | none => (0, one64)
  { st, mem := m, pos := 0, warpIndex := first.1, inputCount := 0, outputCount := 0, written := [], err := 0,
    d := { dataIn := inp, dataOut := out, inputFrames := 0, outputFrames := Int.tdiv TW_BUFFER_LEN ch, inputFramesUsed := 0, outputFramesGen := 0,
           endOfInput := 0, srcRatio := first.2 } }

/-- `timewarp_convert`, timewarp-file.c:102-176, with the check of the number of channels in `main` (timewarp-file.c:57-60): the number of frames returned,
and the output file.  `src_delete` (which `Model/Heap.lean` models) is left out.  `fuel` bounds the number of iterations. -/
def timewarpConvert (cfg : Config) (f : SndFile) (m : Mem) (inp out : ℤ) (converter ch : ℤ) (fuel : ℕ) : M (Option (ℤ × List (List F32))) :=
  if TW_BUFFER_LEN < TW_STEP * ch then pure none
  else do
    let (_, st) ← srcNew cfg converter ch
    match st with
    | none => pure none
    | some st => do
      let s ← whileM (twStep f ch inp out) fuel (twInit st m ch inp out)
      if s.err ≠ 0 then pure none else pure (some (s.outputCount, s.written))

end Verif
