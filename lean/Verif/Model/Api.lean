import Verif.Model.Linear
import Verif.Model.Sinc

/-! Model of the public functions of `src/samplerate.c` that work on one handle.  A handle is a value of type `SrcState`
here (`none` is the `NULL` handle); allocation, cloning and freeing are in `Verif.Model.Heap`. -/

namespace Verif

/-- `state->vt->const_process` and `state->vt->vari_process`.  Every virtual table of the pinned commit has the same
function in both slots (src_zoh.c:39-46, src_linear.c:41-48, src_sinc.c:88-131). -/
def variProcess (m : Mem) (st : SrcState) (d : SrcData) : M ProcRes :=
  match st.vt with
  | .zoh => zohVariProcess m st d
  | .linear => linearVariProcess m st d
  | .sincMono => sincVariProcess vMono m st d
  | .sincStereo => sincVariProcess vStereo m st d
  | .sincQuad => sincVariProcess vQuad m st d
  | .sincHex => sincVariProcess vHex m st d
  | .sincMulti => sincVariProcess vMulti m st d

/-- See `variProcess`. -/
def constProcess (m : Mem) (st : SrcState) (d : SrcData) : M ProcRes := variProcess m st d

/-- Overlap test, samplerate.c:113-126. -/
def overlapTest (channels : ℤ) (d : SrcData) : M Bool := do
  if d.dataIn < d.dataOut then do
    let n ← chkI64 (d.inputFrames * channels)
    pure (decide (d.dataIn + n > d.dataOut))
  else do
    let n ← chkI64 (d.outputFrames * channels)
    pure (decide (d.dataOut + n > d.dataIn))

/-- samplerate.c:108-111: negative frame counts become 0. -/
def clampFrames (d : SrcData) : SrcData :=
  { d with inputFrames := if d.inputFrames < 0 then 0 else d.inputFrames,
           outputFrames := if d.outputFrames < 0 then 0 else d.outputFrames }

/-- `src_process` from the test of the data pointers on, samplerate.c:99-142. -/
def srcProcessData (m : Mem) (st : SrcState) (d : SrcData) : M ProcRes := do
  if (d.dataIn = 0 ∧ d.inputFrames > 0) ∨ (d.dataOut = 0 ∧ d.outputFrames > 0) then
    return { err := Err.BAD_DATA_PTR, mem := m, st, data := d }
  if isBadSrcRatio d.srcRatio then return { err := Err.BAD_SRC_RATIO, mem := m, st, data := d }
  let d := clampFrames d
  let overlap ← overlapTest st.channels d
  if overlap then return { err := Err.DATA_OVERLAP, mem := m, st, data := d }
  let d := { d with inputFramesUsed := 0, outputFramesGen := 0 }
  let st := if Fl.lt st.lastRatio MIN_RATIO then { st with lastRatio := d.srcRatio } else st
  if Fl.lt (Fl.abs (Fl.sub st.lastRatio d.srcRatio)) RATIO_EQ_EPS then constProcess m st d
  else variProcess m st d

/-- `src_process`, samplerate.c:84-143.  Result: error number, memory, handle, data. -/
def srcProcess (m : Mem) (st : Option SrcState) (d : Option SrcData) :
    M (ℤ × Mem × Option SrcState × Option SrcData) :=
  match st with
  | none => pure (Err.BAD_STATE, m, st, d)
  | some s =>
    if s.mode ≠ .process then pure (Err.BAD_MODE, m, st, d)
    else match d with
    | none => pure (Err.BAD_DATA, m, st, d)
    | some d => do
      let r ← srcProcessData m s d
      pure (r.err, r.mem, some r.st, some r.data)

/-- `src_set_ratio`, samplerate.c:240-252. -/
def srcSetRatio (st : Option SrcState) (ratio : F64) : ℤ × Option SrcState :=
  match st with
  | none => (Err.BAD_STATE, none)
  | some s =>
    if isBadSrcRatio ratio then (Err.BAD_SRC_RATIO, some s)
    else (Err.NO_ERROR, some { s with lastRatio := ratio })

/-- `src_get_channels`, samplerate.c:254-261. -/
def srcGetChannels (st : Option SrcState) : ℤ :=
  match st with
  | none => -Err.BAD_STATE
  | some s => s.channels

/-- `state->vt->reset`: `zoh_reset`, `linear_reset`, `sinc_reset` (each returns at once if there is no private data).
Private data of the wrong kind cannot occur (`typeConfusion` elsewhere) and is left alone here. -/
def resetPriv (st : SrcState) : Priv :=
  match st.vt, st.priv with
  | .zoh, .zoh z => .zoh (zohReset st.channels z)
  | .linear, .linear z => .linear (linearReset st.channels z)
  | .sincMono, .sinc f | .sincStereo, .sinc f | .sincQuad, .sinc f | .sincHex, .sinc f | .sincMulti, .sinc f =>
    .sinc (sincReset st.channels f)
  | _, p => p

/-- `src_reset` on a non-`NULL` handle, samplerate.c:269-279. -/
def srcResetState (st : SrcState) : SrcState :=
  { st with priv := resetPriv st, lastPosition := zero64, lastRatio := zero64, savedData := 0, savedFrames := 0,
            error := Err.NO_ERROR }

/-- `src_reset`, samplerate.c:263-280. -/
def srcReset (st : Option SrcState) : ℤ × Option SrcState :=
  match st with
  | none => (Err.BAD_STATE, none)
  | some s => (Err.NO_ERROR, some (srcResetState s))

/-- `src_is_valid_ratio`, samplerate.c:323-330. -/
def srcIsValidRatio (ratio : F64) : ℤ := if isBadSrcRatio ratio then 0 else 1

/-- `src_error`, samplerate.c:336-341. -/
def srcError (st : Option SrcState) : ℤ :=
  match st with
  | some s => s.error
  | none => Err.NO_ERROR

/-- `src_strerror`, samplerate.c:343-403; `none` is `NULL`. -/
def srcStrerror (error : ℤ) : Option String :=
  if error = Err.NO_ERROR then some "No error."
  else if error = Err.MALLOC_FAILED then some "Malloc failed."
  else if error = Err.BAD_STATE then some "SRC_STATE pointer is NULL."
  else if error = Err.BAD_DATA then some "SRC_DATA pointer is NULL."
  else if error = Err.BAD_DATA_PTR then some "SRC_DATA->data_out or SRC_DATA->data_in is NULL."
  else if error = Err.NO_PRIVATE then some "Internal error. No private data."
  else if error = Err.BAD_SRC_RATIO then some "SRC ratio outside [1/256, 256] range."
  else if error = Err.BAD_SINC_STATE then some "src_process() called without reset after end_of_input."
  else if error = Err.BAD_PROC_PTR then some "Internal error. No process pointer."
  else if error = Err.SHIFT_BITS then some "Internal error. SHIFT_BITS too large."
  else if error = Err.FILTER_LEN then some "Internal error. Filter length too large."
  else if error = Err.BAD_CONVERTER then some "Bad converter number."
  else if error = Err.BAD_CHANNEL_COUNT then some "Channel count must be >= 1."
  else if error = Err.SINC_BAD_BUFFER_LEN then some "Internal error. Bad buffer length. Please report this."
  else if error = Err.SIZE_INCOMPATIBILITY then
    some "Internal error. Input data / internal buffer size difference. Please report this."
  else if error = Err.BAD_PRIV_PTR then some "Internal error. Private pointer is NULL. Please report this."
  else if error = Err.DATA_OVERLAP then some "Input and output data arrays overlap."
  else if error = Err.BAD_CALLBACK then some "Supplied callback function pointer is NULL."
  else if error = Err.BAD_MODE then some "Calling mode differs from initialisation mode (ie process v callback)."
  else if error = Err.NULL_CALLBACK then some "Callback function pointer is NULL in src_callback_read ()."
  else if error = Err.NO_VARIABLE_RATIO then some "This converter only allows constant conversion ratios."
  else if error = Err.SINC_PREPARE_DATA_BAD_LEN then some "Internal error : Bad length in prepare_data ()."
  else if error = Err.BAD_INTERNAL_STATE then some "Error : Someone is trampling on my internal state."
  else if error = Err.MAX_ERROR then some "Placeholder. No error defined for this error number."
  else none

/-! Converter numbers, include/samplerate.h -/
def SRC_SINC_BEST_QUALITY : ℤ := 0
def SRC_SINC_MEDIUM_QUALITY : ℤ := 1
def SRC_SINC_FASTEST : ℤ := 2
def SRC_ZERO_ORDER_HOLD : ℤ := 3
def SRC_LINEAR : ℤ := 4

/-- `sinc_get_name`, src_sinc.c:167-184. -/
def sincGetName (n : ℤ) : Option String :=
  if n = SRC_SINC_BEST_QUALITY then some "Best Sinc Interpolator"
  else if n = SRC_SINC_MEDIUM_QUALITY then some "Medium Sinc Interpolator"
  else if n = SRC_SINC_FASTEST then some "Fastest Sinc Interpolator"
  else none

/-- `zoh_get_name`, src_zoh.c:147-154. -/
def zohGetName (n : ℤ) : Option String := if n = SRC_ZERO_ORDER_HOLD then some "ZOH Interpolator" else none

/-- `linear_get_name`, src_linear.c:158-165. -/
def linearGetName (n : ℤ) : Option String := if n = SRC_LINEAR then some "Linear Interpolator" else none

/-- `src_get_name`, samplerate.c:286-300. -/
def srcGetName (n : ℤ) : Option String :=
  match sincGetName n with
  | some s => some s
  | none => match zohGetName n with
    | some s => some s
    | none => linearGetName n

/-- `sinc_get_description`, src_sinc.c:186-204. -/
def sincGetDescription (n : ℤ) : Option String :=
  if n = SRC_SINC_FASTEST then some "Band limited sinc interpolation, fastest, 97dB SNR, 80% BW."
  else if n = SRC_SINC_MEDIUM_QUALITY then some "Band limited sinc interpolation, medium quality, 121dB SNR, 90% BW."
  else if n = SRC_SINC_BEST_QUALITY then some "Band limited sinc interpolation, best quality, 144dB SNR, 96% BW."
  else none

/-- `zoh_get_description`, src_zoh.c:156-163. -/
def zohGetDescription (n : ℤ) : Option String :=
  if n = SRC_ZERO_ORDER_HOLD then some "Zero order hold interpolator, very fast, poor quality." else none

/-- `linear_get_description`, src_linear.c:167-174. -/
def linearGetDescription (n : ℤ) : Option String :=
  if n = SRC_LINEAR then some "Linear interpolator, very fast, poor quality." else none

/-- `src_get_description`, samplerate.c:302-316. -/
def srcGetDescription (n : ℤ) : Option String :=
  match sincGetDescription n with
  | some s => some s
  | none => match zohGetDescription n with
    | some s => some s
    | none => linearGetDescription n

end Verif
