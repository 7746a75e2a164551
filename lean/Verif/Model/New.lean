import Verif.Model.Callback

/-! Model of the construction of handles, when every allocation succeeds: the value of the new handle.  The allocations themselves,
their failure, copying and freeing are modelled in `Verif.Model.Heap`, which builds on the values defined here. -/

namespace Verif

/-- Build configuration: the coefficient tables compiled into the library (`ENABLE_SINC_BEST_CONVERTER`,
`ENABLE_SINC_MEDIUM_CONVERTER`, `ENABLE_SINC_FAST_CONVERTER`; src/CMakeLists.txt:3-5). -/
structure Config where
  best : Option CoeffTable
  mid : Option CoeffTable
  fast : Option CoeffTable

/-- The table selected by `converter_type` (src_sinc.c:219-241), if it is compiled in. -/
def Config.table (cfg : Config) (type : ℤ) : Option CoeffTable :=
  if type = SRC_SINC_BEST_QUALITY then cfg.best
  else if type = SRC_SINC_MEDIUM_QUALITY then cfg.mid
  else if type = SRC_SINC_FASTEST then cfg.fast
  else none

/-- `calloc`ed `SRC_STATE` with `channels`, `mode` and `vt` set (src_zoh.c:191-209, src_linear.c:202-220,
src_sinc.c:278-298). -/
def stateInit (vt : Vt) (channels : ℤ) : SrcState :=
  { vt, lastRatio := zero64, lastPosition := zero64, error := Err.NO_ERROR, channels, mode := .process, callbackFunc := none,
    userData := 0, savedFrames := 0, savedData := 0, priv := .null }

/-- `zoh_data_new`, src_zoh.c:165-183; `linear_data_new`, src_linear.c:176-194. -/
def interpInit (channels : ℤ) : InterpData :=
  { dirty := false, inCount := 0, inUsed := 0, outCount := 0, outGen := 0, lastValue := List.replicate channels.toNat zero32 }

/-- `state->vt` of a sinc converter, src_sinc.c:289-298. -/
def sincVt (channels : ℤ) : Vt :=
  if channels = 1 then .sincMono
  else if channels = 2 then .sincStereo
  else if channels = 4 then .sincQuad
  else if channels = 6 then .sincHex
  else .sincMulti

/-- `zoh_state_new`, src_zoh.c:185-219. -/
def zohStateNew (channels : ℤ) : M (ℤ × Option SrcState) := do
  assertM (decide (channels > 0))
  let st := { stateInit .zoh channels with priv := .zoh (interpInit channels) }
  pure (Err.NO_ERROR, some { st with priv := resetPriv st })

/-- `linear_state_new`, src_linear.c:196-230. -/
def linearStateNew (channels : ℤ) : M (ℤ × Option SrcState) := do
  assertM (decide (channels > 0))
  let st := { stateInit .linear channels with priv := .linear (interpInit channels) }
  pure (Err.NO_ERROR, some { st with priv := resetPriv st })

/-- `sinc_state_new`, src_sinc.c:260-310 (`MAX_CHANNELS` = 128). -/
def sincStateNew (t : CoeffTable) (channels : ℤ) : M (ℤ × Option SrcState) := do
  assertM (decide (channels > 0))
  if channels > 128 then return (Err.BAD_CHANNEL_COUNT, none)
  let bLen ← sincBLen t channels
  let st := { stateInit (sincVt channels) channels with priv := .sinc (sincFilterInit t bLen) }
  pure (Err.NO_ERROR, some { st with priv := resetPriv st })

/-- `src_new` = `psrc_set_converter`, samplerate.c:24-28, 489-530.  Result: the error number stored in `*error` and the handle. -/
def srcNew (cfg : Config) (type channels : ℤ) : M (ℤ × Option SrcState) :=
  match cfg.table type with
  | some t => sincStateNew t channels
  | none =>
    if type = SRC_ZERO_ORDER_HOLD then zohStateNew channels
    else if type = SRC_LINEAR then linearStateNew channels
    else pure (Err.BAD_CONVERTER, none)

/-- `src_callback_new`, samplerate.c:51-75.  `func = none` is a `NULL` callback. -/
def srcCallbackNew (cfg : Config) (func : Option ℕ) (type channels : ℤ) (userData : ℕ) : M (ℤ × Option SrcState) := do
  if func = none then return (Err.BAD_CALLBACK, none)
  let (e, st) ← srcNew cfg type channels
  match st with
  | none => pure (e, none)
  | some s => pure (e, some { srcResetState s with mode := .callback, callbackFunc := func, userData })

/-- `src_simple`, samplerate.c:409-425. -/
def srcSimple (cfg : Config) (m : Mem) (d : Option SrcData) (type channels : ℤ) :
    M (ℤ × Mem × Option SrcData) := do
  let (e, st) ← srcNew cfg type channels
  match st with
  | none => pure (e, m, d)
  | some s =>
    match d with
    | none => throw .nullDeref
    | some d => do
      let (e, m, _, d) ← srcProcess m (some s) (some { d with endOfInput := 1 })
      pure (e, m, d)

end Verif
