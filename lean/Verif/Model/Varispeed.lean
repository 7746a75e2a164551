import Verif.Model.Timewarp
import Verif.Model.Callback

/-! Model of the example program `examples/varispeed-play.c`, which plays a file in an endless loop while it changes the speed, and of the loop
in `examples/audio_out.c` that drives it (the ALSA version).

libsndfile is modelled as in `Model/Timewarp.lean`; the file is seekable.  Opening and closing of files and devices, `printf` and the checks of the `magic` members are left out.
`exit (1)` is the result `none`.  The member `buffer` of `SNDFILE_CB_DATA` is the range of `BUFFER_LEN` samples at the address `buf`; the array `buffer` of `alsa_play` is the
range of 2048 samples at `samples`.  The function `sin` of the C library is a parameter. -/

namespace Verif

/-- `BUFFER_LEN`, varispeed-play.c:30 -/
def VS_BUFFER_LEN : ℤ := 4096
/-- `VARISPEED_BLOCK_LEN`, varispeed-play.c:31 -/
def VS_BLOCK : ℤ := 64
/-- `BUFFER_LEN`, audio_out.c:36 -/
def AUDIO_BUFFER_LEN : ℤ := 2048
/-- `M_PI` -/
def PI64 : F64 := Fl.round f64 (314159265358979323846264338 / 10 ^ 26)

/-- Locals of `src_input_callback`, with the memory and the position of the file. -/
structure VsFill where
  mem : Mem
  pos : ℕ
  read : ℤ

/-- Body of the loop of `src_input_callback`, varispeed-play.c:179-188. -/
def vsFillStep (f : SndFile) (ch buf : ℤ) (s : VsFill) : M (Bool × VsFill) := do
  let inputFrames := Int.tdiv VS_BUFFER_LEN ch
  if ¬ (s.read < inputFrames) then return (false, s)
  if ¬ ((s.read + (inputFrames - s.read)) * ch ≤ VS_BUFFER_LEN) then throw .oobWrite
  let r := sfReadf f ch s.pos s.mem (buf + s.read * ch) (inputFrames - s.read).toNat
  let position := s.pos + r.1
  return (true, { mem := r.2, pos := if position = f.len then 0 else position, read := s.read + r.1 })

/-- The loop of `src_input_callback`, varispeed-play.c:179-188, with the file at position `pos`. -/
def vsFill (f : SndFile) (ch buf : ℤ) (pos : ℕ) (m : Mem) (fuel : ℕ) : M VsFill :=
  whileM (vsFillStep f ch buf) fuel { mem := m, pos, read := 0 }

/-- Position of the file after `c` invocations of `src_input_callback`.  It does not depend on what is in memory.  Each iteration
of the loop reads a frame if the file has any, so that the fuel suffices. -/
def vsPos (f : SndFile) (ch buf : ℤ) : ℕ → ℕ
  | 0 => 0
  | c + 1 =>
    match vsFill f ch buf (vsPos f ch buf c) (fun _ => zero32) 4097 with
    | .ok s => s.pos
    | .error _ => 0

/-- `src_input_callback`, varispeed-play.c:168-193: the invocation after `c` others.  For an empty file, where the loop does not end, this
returns 0; the theorems about this callback need a file that is not empty. -/
def vsCallback (f : SndFile) (ch buf : ℤ) : Callback := fun _ c m =>
  match vsFill f ch buf (vsPos f ch buf c) m 4097 with
  | .ok s => (Int.tdiv VS_BUFFER_LEN ch, some buf, s.mem)
  | .error _ => (0, none, m)

/-- `data->freq_point`, the handle, the memory, and the number of invocations of `src_input_callback`. -/
structure VsSt where
  st : SrcState
  mem : Mem
  calls : ℕ
  freqPoint : ℤ

/-- `1.0 - 0.5 * sin (data->freq_point * 2 * M_PI / 20000)`, varispeed-play.c:212.  The first product is one of two `int`s. -/
def vsRatio (sin : F64 → F64) (freqPoint : ℤ) : M F64 := do
  let a ← chkI32 (freqPoint * 2)
  return Fl.sub one64 (Fl.mul (Fl.round f64 (1 / 2)) (sin (Fl.div (Fl.mul (dbl a) PI64) (dbl 20000))))

/-- Locals of `varispeed_get_data`; `stop`: the program has called `exit`. -/
structure VsGet where
  s : VsSt
  count : ℤ
  stop : Bool

/-- Body of the loop of `varispeed_get_data`, varispeed-play.c:211-222, for an array `samples` of `len` samples.  A write past the end of the array is detected
before the call of `src_callback_read` that would do it: that call is asked for `VARISPEED_BLOCK_LEN` frames and writes all of them unless it returns less. -/
def vsStep (sin : F64 → F64) (f : SndFile) (ch buf samples len dummy : ℤ) (fuel : ℕ) (outFrames : ℤ) (g : VsGet) : M (Bool × VsGet) := do
  if ¬ (g.count < outFrames) then return (false, g)
  let ratio ← vsRatio sin g.s.freqPoint
  let freqPoint ← chkI32 (g.s.freqPoint + 1)
  let off ← chkI32 (g.count * ch)
  if ¬ (off + VS_BLOCK * ch ≤ len) then throw .oobWrite
  let (rc, mem, st, calls) ← srcCallbackRead (vsCallback f ch buf) dummy fuel g.s.calls g.s.mem (some g.s.st) ratio VS_BLOCK (samples + off)
  let s : VsSt := { st := st.getD g.s.st, mem, calls, freqPoint }
  if rc < VS_BLOCK then return (false, { g with s, stop := true })
  let count ← chkI32 (g.count + VS_BLOCK)
  return (true, { g with s, count })

/-- `varispeed_get_data`, varispeed-play.c:198-225. -/
def vsGetData (sin : F64 → F64) (f : SndFile) (ch buf samples len dummy : ℤ) (fuel : ℕ) (outFrames : ℤ) (s : VsSt) : M (Option (ℤ × VsSt)) := do
  let g ← whileM (vsStep sin f ch buf samples len dummy fuel outFrames) fuel { s, count := 0, stop := false }
  if g.stop then return none
  return some (outFrames, g.s)

/-- The first `n` iterations of the loop of `alsa_play`, audio_out.c:202-203: the frames written to the device, `none` if the program has exited.  The
loop ends only when the function that gets the data returns 0. -/
def vsPlay (sin : F64 → F64) (f : SndFile) (ch buf samples dummy : ℤ) (fuel : ℕ) : ℕ → VsSt → M (Option (List (List F32) × VsSt))
  | 0, s => pure (some ([], s))
  | n + 1, s => do
    match ← vsGetData sin f ch buf samples AUDIO_BUFFER_LEN dummy fuel (Int.tdiv AUDIO_BUFFER_LEN ch) s with
    | none => pure none
    | some (k, s) =>
      if k = 0 then pure (some ([], s))
      else do
        let w := sfWritef ch s.mem samples k.toNat
        match ← vsPlay sin f ch buf samples dummy fuel n s with
        | none => pure none
        | some (ws, s) => pure (some (w ++ ws, s))

/-- `varispeed_play`, varispeed-play.c:121-165: the frames played in the first `n` iterations of the loop of the audio device.  The callback function is 1 and the user pointer 0
(the model of the callback does not look at them). -/
def varispeedPlay (cfg : Config) (sin : F64 → F64) (f : SndFile) (m : Mem) (buf samples dummy : ℤ) (converter ch : ℤ) (n fuel : ℕ) :
    M (Option (List (List F32))) := do
  let (_, st) ← srcCallbackNew cfg (some 1) converter ch 0
  match st with
  | none => pure none
  | some st => do
    match ← vsPlay sin f ch buf samples dummy fuel n { st, mem := m, calls := 0, freqPoint := 0 } with
    | none => pure none
    | some (ws, _) => pure (some ws)

end Verif
