import Verif.Props.Sinc

/-! Concrete calls for which the code breaks a property: the reason why some properties are only proved in part.  Each is a computation
of the model on a fixed history, evaluated by the kernel. -/

namespace Verif
open Spec

/-- A call with input at address 1 (all samples zero) and output far behind it. -/
def plainCall (n o : ℤ) (r : F64) (e : ℤ) : Op := .process (fun _ => zero32)
  (some { dataIn := 1, dataOut := 2 ^ 40, inputFrames := n, outputFrames := o, inputFramesUsed := 0, outputFramesGen := 0, endOfInput := e, srcRatio := r })

/-- What an application sees of a history on a new handle: the fault, or return codes with frame counts. -/
def outcome (cfg : Config) (type : ℤ) (ch : ℤ) (ops : List Op) : Except Fault (List (ℤ × Option (ℤ × ℤ))) :=
  match srcNew cfg type ch with
  | .ok (_, some st) =>
    match run ops st with
    | .ok (os, _) => .ok (os.map (fun o => (o.ret, o.data.map (fun d => (d.inputFramesUsed, d.outputFramesGen)))))
    | .error f => .error f
  | .ok (_, none) => .ok []
  | .error f => .error f

/-- The ratio 1/256. -/
def minRatio : F64 := Fl.div one64 (dbl 256)

set_option maxRecDepth 100000 in
/-- C08 fails when the ratio drops before the end of input: a new mono handle of the fastest converter, one frame at ratio 1, then 9839
frames at ratio 1/256 with `end_of_input`.  `prepare_data` moves the data down from a negative buffer index (src_sinc.c:1211-1216). -/
theorem C08_ratio_drop : outcome fastCfg SRC_SINC_FASTEST 1 [plainCall 1 10 one64 0, plainCall 9839 10 minRatio 1] = .error .oobRead := by
  decide +kernel

set_option maxRecDepth 100000 in
/-- C08 fails when the ratio is lowered after the end of input on a handle with several channels: a new stereo handle of the fastest
converter, six frames at ratio 1 with `end_of_input` and room for one output frame; then the ratio is set to 0.86 and the rest is drained.
The silence appended at the end (`half_filter_chan_len + 5` samples) is not a whole number of frames, and `calc_output_stereo` needs a
sample beyond it: `assert (data_index + 1 < filter->b_end)` fails (src_sinc.c:573). -/
theorem C08_flush_drop : outcome fastCfg SRC_SINC_FASTEST 2
    [plainCall 6 1 one64 1, .setRatio (Fl.div (dbl 43) (dbl 50)), plainCall 0 5 (Fl.div (dbl 43) (dbl 50)) 0] = .error .assertFailed := by
  decide +kernel

set_option maxRecDepth 100000 in
/-- C08 fails for a NaN ratio, which `src_process` accepts (C01_nan_accepted): signed overflow when the filter length is computed. -/
theorem C08_nan : outcome fastCfg SRC_SINC_FASTEST 1 [plainCall 100 10 .nan 0] = .error .intOverflow := by
  decide +kernel

set_option maxRecDepth 100000 in
/-- C04 fails for a NaN ratio: the interpolating converters report a negative number of used frames. -/
theorem C04_nan : outcome fastCfg SRC_ZERO_ORDER_HOLD 1 [plainCall 100 10 .nan 0] = .ok [(0, some (-2147483648, 1))] ∧
    outcome fastCfg SRC_LINEAR 1 [plainCall 100 10 .nan 0] = .ok [(0, some (-2147483648, 1))] := by
  decide +kernel

set_option maxRecDepth 100000 in
/-- C10 fails for the sinc converters if a call brings `2^31` samples of input: the count is cast to `int` (src_sinc.c:1192), and the call
returns `SRC_ERR_SINC_PREPARE_DATA_BAD_LEN`. -/
theorem C10_sinc_huge : outcome fastCfg SRC_SINC_FASTEST 1 [plainCall (2 ^ 31) 10 one64 0] =
    .ok [(Err.SINC_PREPARE_DATA_BAD_LEN, some (0, 0))] := by
  decide +kernel

set_option maxRecDepth 100000 in
/-- With `2^32` samples the cast gives 0: the call succeeds, uses no input and makes no output, so a caller who repeats it loops for ever. -/
theorem C49_huge : outcome fastCfg SRC_SINC_FASTEST 1 [plainCall (2 ^ 32) 10 one64 0] = .ok [(0, some (0, 0))] := by
  decide +kernel

set_option maxRecDepth 100000 in
/-- C49 needs a ratio well above 1/256 when there are several channels: at 1/256, a stereo call with 20000 frames, `end_of_input` and room
for output takes only 4929 frames and makes no output (so `src_simple` makes none at all). -/
theorem C49_min_ratio : outcome fastCfg SRC_SINC_FASTEST 2 [plainCall 20000 10 minRatio 1] = .ok [(0, some (4929, 0))] := by
  decide +kernel

/-- The ratios above are valid (or NaN). -/
theorem minRatio_valid : isBadSrcRatio minRatio = false ∧ isBadSrcRatio one64 = false := by decide +kernel

end Verif
