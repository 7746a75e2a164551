import Verif.Model.Varispeed
import Verif.Model.Convert

/-! Model of the functions of `examples/audio_out.c` that hand the frames of the player to the audio device: the ALSA, the OSS, the Solaris, the Windows and the Mac OS X version.

The device is an arbitrary function.  Opening and closing of devices, `printf` and the checks of the `magic` members are left out. -/

namespace Verif

/-- `EIO` (Linux) -/
def EIO : ℤ := 5
/-- `EAGAIN` (Linux) -/
def EAGAIN : ℤ := 11
/-- `EPIPE` (Linux): the device ran out of data. -/
def EPIPE : ℤ := 32
/-- `EBADFD` (Linux) -/
def EBADFD : ℤ := 77
/-- `ESTRPIPE` (Linux) -/
def ESTRPIPE : ℤ := 86

/-- A call of `snd_pcm_writei`, with the frames that it is given and its result, or of `snd_pcm_prepare`. -/
inductive DevCall where
  | write (frames : List (List F32)) (answer : ℤ)
  | prepare

/-- An ALSA device: the result of `snd_pcm_writei` after the calls in the list, when it is given that many frames. -/
abbrev Device := List DevCall → ℤ → ℤ

/-- The static variable `epipe_count` of `alsa_write_float`, audio_out.c:210, and the calls that the device has received. -/
structure AlsaSt where
  epipe : ℤ
  log : List DevCall

/-- Locals of `alsa_write_float`; `ret`: the value returned. -/
structure AlsaLoop where
  d : AlsaSt
  total : ℤ
  ret : ℤ

/-- Body of the loop of `alsa_write_float`, audio_out.c:218-287. -/
def alsaStep (dev : Device) (m : Mem) (data frames channels : ℤ) (s : AlsaLoop) : M (Bool × AlsaLoop) := do
  if ¬ (s.total < frames) then return (false, { s with ret := s.total })
  let off ← chkI32 (s.total * channels)
  let n := frames - s.total
  let retval := dev s.d.log n
  let d : AlsaSt := { s.d with log := s.d.log ++ [.write (sfWritef channels m (data + off) n.toNat) retval] }
  if retval ≥ 0 then
    let total ← chkI32 (s.total + retval)
    if total = frames then return (false, { d, total, ret := total })
    return (true, { s with d, total })
  if retval = -EAGAIN then return (true, { s with d })
  if retval = -EPIPE then
    if d.epipe > 0 ∧ d.epipe > 140 then return (false, { s with d, ret := retval })
    let epipe ← chkI32 (d.epipe + 100)
    return (true, { s with d := { epipe, log := d.log ++ [.prepare] } })
  if retval = -EBADFD then return (false, { s with d, ret := 0 })
  if retval = -ESTRPIPE then return (false, { s with d, ret := 0 })
  if retval = -EIO then return (false, { s with d, ret := 0 })
  return (false, { s with d, ret := 0 })

/-- `alsa_write_float`, audio_out.c:208-290: the value returned, and what is left behind. -/
def alsaWriteFloat (dev : Device) (fuel : ℕ) (m : Mem) (data frames channels : ℤ) (d : AlsaSt) : M (ℤ × AlsaSt) := do
  let s ← whileM (alsaStep dev m data frames channels) fuel { d := { d with epipe := if d.epipe > 0 then d.epipe - 1 else d.epipe }, total := 0, ret := 0 }
  return (s.ret, s.d)

/-- The first `n` iterations of the loop of `alsa_play`, audio_out.c:202-203, driven by `varispeed_get_data`: `vsPlay` with the device. -/
def vsAlsa (dev : Device) (sin : F64 → F64) (f : SndFile) (ch buf samples dummy : ℤ) (fuel : ℕ) : ℕ → VsSt → AlsaSt → M (Option (AlsaSt × VsSt))
  | 0, s, d => pure (some (d, s))
  | n + 1, s, d => do
    match ← vsGetData sin f ch buf samples AUDIO_BUFFER_LEN dummy fuel (Int.tdiv AUDIO_BUFFER_LEN ch) s with
    | none => pure none
    | some (k, s) =>
      if k = 0 then pure (some (d, s))
      else do
        let (_, d) ← alsaWriteFloat dev fuel s.mem samples k ch d
        vsAlsa dev sin f ch buf samples dummy fuel n s d

/-- `varispeed_play`, varispeed-play.c:121-165, on an ALSA device: the calls that the device receives in the first `n` iterations of the loop. -/
def varispeedAlsa (cfg : Config) (dev : Device) (sin : F64 → F64) (f : SndFile) (m : Mem) (buf samples dummy : ℤ) (converter ch : ℤ) (n fuel : ℕ) :
    M (Option (List DevCall)) := do
  let (_, st) ← srcCallbackNew cfg (some 1) converter ch 0
  match st with
  | none => pure none
  | some st => do
    match ← vsAlsa dev sin f ch buf samples dummy fuel n { st, mem := m, calls := 0, freqPoint := 0 } { epipe := 0, log := [] } with
    | none => pure none
    | some (d, _) => pure (some d.log)

/-- `lrint` of the C library with a 64 bit `long`.  What it returns for a number that does not fit is unspecified; the model returns the least `long`. -/
def lrintLong (x : F64) : ℤ :=
  match x with
  | .fin q _ => if -9223372036854775808 ≤ rne q ∧ rne q ≤ 9223372036854775807 then rne q else -9223372036854775808
  | _ => -9223372036854775808

/-- One element of the loop of `opensoundsys_play`, audio_out.c:405: `buffer [k] = lrint (32767.0 * float_buffer [k])`. -/
def ossSample (x : F32) : ℤ := toShort (lrintLong (Fl.mul (dbl 32767) (Fl.conv f64 x)))

/-- One element of the loop of `solaris_play`, audio_out.c:967: `buffer [k] = psf_lrint (32767.0 * float_buffer [k])`. -/
def solarisSample (x : F32) : ℤ := toShort (lrint (Fl.mul (dbl 32767) (Fl.conv f64 x)))

/-- The samples of `float_buffer` as a list. -/
def floatsAt (m : Mem) (addr : ℤ) (n : ℕ) : List F32 := (List.range n).map fun i : ℕ => m (addr + i)

/-- One iteration of the loop of `opensoundsys_play`, audio_out.c:403-407, or of `solaris_play`, audio_out.c:965-969, after `read_frames` frames have been put into `float_buffer`: the contents
of `buffer` afterwards, and the samples passed to `write`.  The result of `write` is ignored by the program. -/
def ossRound (conv : F32 → ℤ) (m : Mem) (floatBuffer readFrames channels : ℤ) (buffer : List ℤ) : M (List ℤ × List ℤ) := do
  let n ← chkI32 (readFrames * channels)
  let buffer ← convLoop conv (floatsAt m floatBuffer AUDIO_BUFFER_LEN.toNat) buffer n
  return (buffer, buffer.take n.toNat)

/-- `WIN32_BUFFER_LEN`, audio_out.c:672 -/
def WIN32_BUFFER_LEN : ℤ := 32768

/-- One call of `win32_audio_out_callback`, audio_out.c:850-879, after `read_count` frames have been put into `float_buffer`, for the half `half` of `short_buffer` that is current and its `dwBufferLength`:
the half and the length afterwards, and the samples passed to `waveOutWrite` (none: playing stops). -/
def win32Round (m : Mem) (floatBuffer readCount : ℤ) (half : List ℤ) (bytes : ℤ) : M (List ℤ × ℤ × Option (List ℤ)) := do
  let bufferlen := WIN32_BUFFER_LEN / 2 / 2
  let half ← convLoop ossSample (floatsAt m floatBuffer bufferlen.toNat) half readCount
  if readCount > 0 then
    let size ← chkI32 (readCount * 2)
    let bytes := if size < bufferlen then size else bytes
    return (half, bytes, some (half.take (bytes / 2).toNat))
  return (half, bytes, none)

/-- `frame_count` of `macosx_audio_out_callback`, audio_out.c:644-645, for a device buffer of `size` bytes.  Simplified: `size` is not negative, so that the unsigned divisions are those of integers. -/
def macFrames (size channels : ℤ) : ℤ := Int.tdiv (Int.tdiv size 4) channels

/-- `macosx_audio_out_callback`, audio_out.c:651-654, after `read_count` frames have been put into the device buffer at `buffer`: the memory afterwards, and `done_playing`. -/
def macFill (m : Mem) (buffer readCount frameCount done : ℤ) : M (Mem × ℤ) := do
  if readCount < frameCount then
    if readCount < 0 then throw .oobWrite
    return (fun a => if buffer + readCount ≤ a ∧ a < buffer + readCount + (frameCount - readCount) then zero32 else m a, 1)
  return (m, done)

/-- The first `n` times that a Mac OS X device asks the player for data, `macosx_audio_out_callback`, audio_out.c:620-657, with a device buffer of `size` bytes at `samples`: the frames played, and
`done_playing`.  After the round that sets `done_playing` the player stops the device (audio_out.c:583-584). -/
def vsMac (sin : F64 → F64) (f : SndFile) (ch buf samples size dummy : ℤ) (fuel : ℕ) : ℕ → VsSt → ℤ → M (Option (List (List F32) × VsSt × ℤ))
  | 0, s, done => pure (some ([], s, done))
  | n + 1, s, done => do
    if done ≠ 0 then return some ([], s, done)
    match ← vsGetData sin f ch buf samples (Int.tdiv size 4) dummy fuel (macFrames size ch) s with
    | none => pure none
    | some (k, s) => do
      let (mem, done) ← macFill s.mem samples k (macFrames size ch) done
      let s := { s with mem }
      let w := sfWritef ch s.mem samples (macFrames size ch).toNat
      match ← vsMac sin f ch buf samples size dummy fuel n s done with
      | none => pure none
      | some (ws, s, done) => pure (some (w ++ ws, s, done))

/-- `varispeed_play`, varispeed-play.c:121-165, on Mac OS X: the frames played in the first `n` rounds, and `done_playing`. -/
def varispeedMac (cfg : Config) (sin : F64 → F64) (f : SndFile) (m : Mem) (buf samples size dummy : ℤ) (converter ch : ℤ) (n fuel : ℕ) :
    M (Option (List (List F32) × ℤ)) := do
  let (_, st) ← srcCallbackNew cfg (some 1) converter ch 0
  match st with
  | none => pure none
  | some st => do
    match ← vsMac sin f ch buf samples size dummy fuel n { st, mem := m, calls := 0, freqPoint := 0 } 0 with
    | none => pure none
    | some (ws, _, done) => pure (some (ws, done))

end Verif
