{
 "claims": [
  {
   "property": "C01",
   "status": "proved",
   "theorems": [
    "Verif.C01",
    "Verif.C01_finite",
    "Verif.C01_nan_accepted"
   ],
   "note": "every double, every handle, all four functions. NaN is accepted by the code: the property text says so, and C01_nan_accepted records it as a finding."
  },
  {
   "property": "C02",
   "status": "proved",
   "theorems": [
    "Verif.C02",
    "Verif.C02_complete",
    "Verif.C02_unique"
   ],
   "note": "C02: a rejected call changed nothing and the code names a failing check. C02_complete: whenever a check fails the call is rejected. C02_unique: the order of the checks makes the code unique."
  },
  {
   "property": "C03",
   "status": "proved",
   "theorems": [
    "Verif.C03_shared_rejected",
    "Verif.C03_reported_shared"
   ],
   "note": "Both directions, for every pair of addresses and lengths whose products do not overflow."
  },
  {
   "property": "C04",
   "status": "proved",
   "theorems": [
    "Verif.C04",
    "Verif.C04_nan"
   ],
   "note": "All five converters, all histories of src_process/src_set_ratio/src_reset without undefined behaviour, ratios not NaN (C04_nan: a NaN ratio, which the library accepts, breaks it), buffers up to 2^52 samples."
  },
  {
   "property": "C05",
   "status": "proved",
   "theorems": [
    "Verif.C05",
    "Verif.C05_written"
   ],
   "note": "C05: nothing outside the generated samples changes, all converters. C05_written: the generated samples are determined by the input samples alone, so every one of them is written."
  },
  {
   "property": "C06",
   "status": "proved",
   "theorems": [
    "Verif.C06"
   ],
   "note": "Channels up to 8355967 (beyond that channels * 257 overflows int in the code), at most 2^52 samples per buffer, no NaN ratio."
  },
  {
   "property": "C07",
   "status": "partial",
   "theorems": [
    "Verif.C07_partial",
    "Verif.C07_faults",
    "Verif.C07_exact",
    "Verif.C07_one_exact",
    "Verif.C07_one_frame",
    "Verif.C07_two_frames"
   ],
   "note": "The plain statement is false of the code. C07_faults: every history either runs to its end or stops at a call with one or two input frames and room for output, which reads before data_in; no other fault exists. C07_exact: the exact condition under which such a call faults, in terms of the stream. C07_one_exact: the condition for one frame. C07_one_frame, C07_two_frames: reachable violations. C07_partial: no fault when each call brings no input or at least 3 frames."
  },
  {
   "property": "C08",
   "status": "partial",
   "theorems": [
    "Verif.C08_partial",
    "Verif.C08_faults",
    "Verif.C08_ratio_drop",
    "Verif.C08_flush_drop",
    "Verif.C08_nan"
   ],
   "note": "C08_partial: no fault in any history in which, between resets, (1) end_of_input is never set; or (2) all ratios are at least 1/180 and, with several channels, ratios below 1 are not lowered once end_of_input has been set; or (3) there is one channel and ratios below 1 are never lowered. Fewer than 2^31 input samples per call, no NaN. The full statement is false: C08_ratio_drop (drop to 1/256 before the end of input), C08_flush_drop (stereo, ratio lowered after the end of input) and C08_nan are calls for which the code faults. C08_faults covers all histories: the only faults are a read outside the history buffer and, with several channels, a failed assertion, and it says in which calls they can occur. Missing: the exact set of histories that fault."
  },
  {
   "property": "C09",
   "status": "proved",
   "theorems": [
    "Verif.C09"
   ],
   "note": "All converters, handles from src_new and src_callback_new, every reachable state, NaN ratios included; at most 2^53 output samples per call. The filter loops of the sinc converters are bounded by the fixed point filter index."
  },
  {
   "property": "C10",
   "status": "proved",
   "theorems": [
    "Verif.C10",
    "Verif.C10_sinc_huge"
   ],
   "note": "All converters. Sinc handles: calls with fewer than 2^31 samples; beyond that the code does return an internal error (C10_sinc_huge)."
  },
  {
   "property": "C11",
   "status": "proved",
   "theorems": [
    "Verif.C11",
    "Verif.C11_each",
    "Verif.C11_stream"
   ],
   "note": "C11: remembered ratio, all converters and histories. C11_each: the formula used for every output frame, all valid pairs and positions. C11_stream: the ratios of all frames of a stream, zero order hold and linear (sinc: C24_sinc)."
  },
  {
   "property": "C12",
   "status": "proved",
   "theorems": [
    "Verif.C12_interp",
    "Verif.C12_sinc"
   ],
   "note": "Every history of the stream that returns (reset is covered by C13: a reset handle behaves as a new one). C12_interp: zero order hold and linear; C12_sinc: the sinc converters, any ratios before, end of input allowed. Excluded: NaN ratios, 2^31 or more input samples in one sinc call."
  },
  {
   "property": "C13",
   "status": "proved",
   "theorems": [
    "Verif.C13"
   ],
   "note": "Every handle reachable from src_new or src_callback_new by any history, and every further history."
  },
  {
   "property": "C14",
   "status": "proved",
   "theorems": [
    "Verif.C14"
   ],
   "note": "On the heap model: for every reachable heap and every sequence of calls the clone answers (values, memory, counts, errors, faults) as the original, beside it, without it, and in any interleaving with other calls."
  },
  {
   "property": "C15",
   "status": "proved",
   "theorems": [
    "Verif.C15"
   ],
   "note": "Every correct program over any number of handles, every allocator: the answers on a handle are those of its own calls alone."
  },
  {
   "property": "C16",
   "status": "proved",
   "theorems": [
    "Verif.C16"
   ],
   "note": "All converters, all histories of src_process/src_set_ratio/src_reset with ratios not NaN; two runs that agree on channel k."
  },
  {
   "property": "C17",
   "status": "proved",
   "theorems": [
    "Verif.C17"
   ],
   "note": "Two histories with equal arguments and different memories; observations agree except for the contents of the memory."
  },
  {
   "property": "C18",
   "status": "proved",
   "theorems": [
    "Verif.C18"
   ],
   "note": "All streams, chunkings and ratio histories."
  },
  {
   "property": "C19",
   "status": "proved",
   "theorems": [
    "Verif.C19",
    "Verif.C19_constant",
    "Verif.C19_near"
   ],
   "note": "Finite samples; all histories without undefined behaviour (see C07_one_frame)."
  },
  {
   "property": "C20",
   "status": "proved",
   "theorems": [
    "Verif.C20"
   ],
   "note": "Two histories of any lengths on new handles, fed with the same stream without gaps at one ratio."
  },
  {
   "property": "C21",
   "status": "proved",
   "theorems": [
    "Verif.C21"
   ],
   "note": "All histories without undefined behaviour (see C07_one_frame)."
  },
  {
   "property": "C22",
   "status": "proved",
   "theorems": [
    "Verif.C22"
   ],
   "note": "All partitions, end of input included, every constant ratio."
  },
  {
   "property": "C23",
   "status": "proved",
   "theorems": [
    "Verif.C23"
   ],
   "note": "Zero order hold and linear."
  },
  {
   "property": "C24",
   "status": "proved",
   "theorems": [
    "Verif.C24_interp",
    "Verif.C24_sinc"
   ],
   "note": "Every history of the stream that returns. C24_interp: zero order hold and linear; C24_sinc: the sinc converters, ratios moving in any way, end of input allowed; after a ratio drop the left half of the filter may be cut short, but never below its reach at ratio 1."
  },
  {
   "property": "C25",
   "status": "proved",
   "theorems": [
    "Verif.C25"
   ],
   "note": "Arrays of any length; output buffers hold anything before the call."
  },
  {
   "property": "C26",
   "status": "proved",
   "theorems": [
    "Verif.C26",
    "Verif.quantised_unique"
   ],
   "note": "SSE2 cvtss2si. NaN converts to 0 on this target; the property excludes NaN."
  },
  {
   "property": "C27",
   "status": "proved",
   "theorems": [
    "Verif.C27",
    "Verif.C27_needs_clip"
   ],
   "note": "For builds with CPU_CLIPS_POSITIVE = 0, which is what ClipMode.cmake finds on SSE2; C27_needs_clip shows the hypothesis is needed."
  },
  {
   "property": "C28",
   "status": "proved",
   "theorems": [
    "Verif.C28"
   ],
   "note": "Reads and writes outside the buffers are faults of the model; the theorem shows there are none."
  },
  {
   "property": "C29",
   "status": "proved",
   "theorems": [
    "Verif.C29"
   ],
   "note": "All integers; the table of texts is that of samplerate.c."
  },
  {
   "property": "C30",
   "status": "proved",
   "theorems": [
    "Verif.C30",
    "Verif.C30_tables"
   ],
   "note": "All integers. C30: construction; C30_tables: names and descriptions, each of the right kind of converter."
  },
  {
   "property": "C31",
   "status": "proved",
   "theorems": [
    "Verif.C31"
   ],
   "note": "Channel counts below 1 with a known type stop at an assertion of the library (assert enabled); the property states this. Table dimensions as in the library (LibraryTables)."
  },
  {
   "property": "C32",
   "status": "proved",
   "theorems": [
    "Verif.C32"
   ],
   "note": "Every allocator, hence every schedule of refused allocations; every reachable heap."
  },
  {
   "property": "C33",
   "status": "proved",
   "theorems": [
    "Verif.C33",
    "Verif.C33_delete",
    "Verif.C33_simple"
   ],
   "note": "Heap faults are modelled explicitly (use after free, double free, wrong block, out of bounds copy) and excluded for every correct program; every extra block belongs to a handle in use."
  },
  {
   "property": "C34",
   "status": "proved",
   "theorems": [
    "Verif.C34",
    "Verif.C34_value"
   ],
   "note": "data must not be NULL (src_simple dereferences it)."
  },
  {
   "property": "C35",
   "status": "proved",
   "theorems": [
    "Verif.C35_callback",
    "Verif.C35_process",
    "Verif.C35_mode"
   ],
   "note": "Every history. C35_mode covers src_reset, src_set_ratio and failed calls."
  },
  {
   "property": "C36",
   "status": "proved",
   "theorems": [
    "Verif.C36"
   ],
   "note": "every callback, converter, channel count up to 8355967 and history of calls on a callback handle; ratios other than NaN, at most 2^52 samples per buffer"
  },
  {
   "property": "C37",
   "status": "proved",
   "theorems": [
    "Verif.C37_interp",
    "Verif.C37_sinc",
    "Verif.twoReads_ok"
   ],
   "note": "refinement to a src_process history (C38), combined with the chunking theorems C20/C21/C22"
  },
  {
   "property": "C38",
   "status": "proved",
   "theorems": [
    "Verif.C38",
    "Verif.twoReads_ok"
   ],
   "note": "Explained/Session in Spec/Callback.lean: each read is a session of process calls and callbacks; callbacks only when everything is consumed"
  },
  {
   "property": "C39",
   "status": "proved",
   "theorems": [
    "Verif.C39_interp",
    "Verif.C39_sinc",
    "Verif.C39_negative",
    "Verif.C39_sinc_after_end"
   ],
   "note": "Returns: for enough fuel the result is independent of the fuel and not 'still running'. zoh/linear need only counts >= 0; sinc also needs that a callback stays at 0 after the end of input (StaysAtEnd). The two witnesses show that both provisos are needed. Sizes: at most 2^52 samples (sinc: callback buffers < 2^31, request <= 2^50), ratio not NaN, channels <= 8355967."
  },
  {
   "property": "C40",
   "status": "proved",
   "theorems": [
    "Verif.C40",
    "Verif.C40_interp",
    "Verif.C40_sinc_cleared"
   ],
   "note": "every history of every handle; C40_sinc_cleared shows that with sinc a recorded error is cleared by a later read."
  },
  {
   "property": "C41",
   "status": "proved",
   "theorems": [
    "Verif.C41"
   ],
   "note": "All converters, all histories without a fault; the sign of zero is not modelled. Coefficients of magnitude at most 1 (true of the tables in /repo)."
  },
  {
   "property": "C42",
   "status": "proved",
   "theorems": [
    "Verif.C42"
   ],
   "note": "All converters, all histories. Sign of zero and NaN payloads are not modelled."
  },
  {
   "property": "C43",
   "status": "proved",
   "theorems": [
    "Verif.C43"
   ],
   "note": "All histories without undefined behaviour (see C07_one_frame)."
  },
  {
   "property": "C44",
   "status": "proved",
   "theorems": [
    "Verif.C44_interp",
    "Verif.C44_sinc"
   ],
   "note": "Every history of the stream that returns. C44_interp: zero order hold and linear; C44_sinc: the sinc converters, ratios moving in any way, end of input allowed."
  },
  {
   "property": "C45",
   "status": "proved",
   "theorems": [
    "Verif.C45"
   ],
   "note": "Every history on every handle; a clone behaves as its original by C14."
  },
  {
   "property": "C46",
   "status": "proved",
   "theorems": [
    "Verif.C46"
   ],
   "note": "Every history that returns, with any ratios before and after the end of input; fewer than 2^31 input samples per call, no NaN."
  },
  {
   "property": "C47",
   "status": "proved",
   "theorems": [
    "Verif.C47_steps",
    "Verif.C47_taps",
    "Verif.C47_left_grid",
    "Verif.C47_right_grid"
   ],
   "note": "All library tables, all valid ratios and positions, all channel counts."
  },
  {
   "property": "C48",
   "status": "proved",
   "theorems": [
    "Verif.C48"
   ],
   "note": "Sinc converters, constant ratio >= 1/180, any chunking."
  },
  {
   "property": "C49",
   "status": "proved",
   "theorems": [
    "Verif.C49",
    "Verif.C49_min_ratio",
    "Verif.C49_huge"
   ],
   "note": "Sinc converters, constant ratio >= 1/180, any chunking, fewer than 2^31 samples per call; C49_min_ratio and C49_huge show that both limits are needed."
  },
  {
   "property": "C50",
   "status": "proved",
   "theorems": [
    "Verif.C50_interp",
    "Verif.C50_sinc"
   ],
   "note": "Sinc: for tables whose coefficients are at most 1 in magnitude (true of fastest_coeffs.h and mid_qual_coeffs.h)."
  },
  {
   "property": "C51",
   "status": "proved",
   "theorems": [
    "Verif.C51",
    "Verif.C51_shipped"
   ],
   "note": "C51 for every table of the library's dimensions with coefficients of magnitude at most 1; C51_shipped for the two tables in the checkout (high_qual_coeffs.h is not in it). The exact filter is Spec/Filter.lean."
  },
  {
   "property": "C52",
   "status": "proved",
   "theorems": [
    "Verif.C52_fastest",
    "Verif.C52_medium"
   ],
   "note": "Bounds from kernel-checked sums over the transcribed tables, lifted to all positions and inputs. The best quality table is not in the checkout; for it C50 and C51 apply."
  },
  {
   "property": "C53",
   "status": "proved",
   "theorems": [
    "Verif.C53_fastest",
    "Verif.C53_medium",
    "Verif.C53_down_fastest",
    "Verif.C53_down_medium"
   ],
   "note": "C53_fastest, C53_medium: ratios at least 1. C53_down_fastest, C53_down_medium: ratios up to 1, from C65. The best quality table is not in the checkout."
  },
  {
   "property": "C54",
   "status": "proved",
   "theorems": [
    "Verif.C54_interp",
    "Verif.C54_sinc",
    "Verif.C54_one_frame_interp",
    "Verif.C54_one_frame_sinc"
   ],
   "note": "The frames of every history are those of the ratio schedule Glides (tolerance 2^-41, sinc 1e-9); with one output frame per call the ratio never moves."
  },
  {
   "property": "C55",
   "status": "proved",
   "theorems": [
    "Verif.C55_zoh",
    "Verif.C55_linear",
    "Verif.C55_sinc",
    "Verif.C55_sinc_shipped",
    "Verif.C55_channels_linear",
    "Verif.C55_channels_sinc",
    "Verif.C55_channels_sinc_shipped"
   ],
   "note": "Sinc across streams: histories in which the ratio does not fall between resets (SincUse). The channel versions hold for every history."
  },
  {
   "property": "C56",
   "status": "proved",
   "theorems": [
    "Verif.C56_interp",
    "Verif.C56_sinc",
    "Verif.C56_sinc_live",
    "Verif.C56_sinc_lag"
   ],
   "note": "Zero order hold and linear: any ratios. Sinc: C56_sinc_lag any ratios before the end of input, in terms of the frames used; C56_sinc and C56_sinc_live ratios at least 1 (the reach of the filter then stays the same); fewer than 2^31 input samples per call, no NaN."
  },
  {
   "property": "C57",
   "status": "proved",
   "theorems": [
    "Verif.C57",
    "Verif.C57_table"
   ],
   "note": "libsndfile is abstracted to a list of frames; the converter named in the program is SRC_SINC_MEDIUM_QUALITY, the theorem covers every sinc type"
  },
  {
   "property": "C58",
   "status": "proved",
   "theorems": [
    "Verif.C58_zoh",
    "Verif.C58_linear",
    "Verif.C58_linear_fault",
    "Verif.C58_sinc",
    "Verif.C58_sinc_result",
    "Verif.C58_zoh_result"
   ],
   "note": "C58_linear and C58_linear_fault: the read before the input presented to the linear converter (C07) is the only undefined access, and it occurs. C58_sinc covers the histories of SafePulls; outside them the code is unsafe (C08)."
  },
  {
   "property": "C59",
   "status": "proved",
   "theorems": [
    "Verif.C59_any",
    "Verif.C59_zoh",
    "Verif.C59_sinc"
   ],
   "note": "C59_any: every converter, if the call returns; C59_zoh and C59_sinc: the call returns and delivers. For linear the call can instead make the read of C58_linear."
  },
  {
   "property": "C60",
   "status": "proved",
   "theorems": [
    "Verif.C60_sinc",
    "Verif.C60_interp",
    "Verif.C60_linear_two"
   ],
   "note": "C60_linear_two shows that the restriction to three frames for linear is needed. C34_value carries the result to the model with a heap."
  },
  {
   "property": "C61",
   "status": "proved",
   "theorems": [
    "Verif.C61_sinc",
    "Verif.C61_zoh",
    "Verif.C61_speed_sinc",
    "Verif.C61_speed_zoh",
    "Verif.C61_channels",
    "Verif.C61_long",
    "Verif.C61_empty",
    "Verif.C61_pi",
    "Verif.C61_sine"
   ],
   "note": "linear is left out: it can read out of bounds in such a history (C58_linear_fault) C61_pi and C61_sine compare the ratio asked for with the real function: with a sin() accurate to 1e-12 it is 1 - 0.5*sin(2*pi*k/20000) to within 1e-9 in every block the program can reach."
  },
  {
   "property": "C62",
   "status": "proved",
   "theorems": [
    "Verif.C62",
    "Verif.C62_callback"
   ],
   "note": "outOfFuel in C62_callback stands for a read that is still running; C39 tells when reads return. C07_exact, C07_faults and C08_faults tell in which calls the remaining faults occur."
  },
  {
   "property": "C63",
   "status": "proved",
   "theorems": [
    "Verif.C63_same",
    "Verif.C63_interp",
    "Verif.C63_faults",
    "Verif.C63_safe",
    "Verif.C63_ratio_drop",
    "Verif.C63_reads"
   ],
   "note": "Sinc sizes as in SincSized / SincPull (fewer than 2^31 input samples per call), library table dimensions. C63_reads: a read still running is excluded by C39."
  },
  {
   "property": "C64",
   "status": "proved",
   "theorems": [
    "Verif.C64_fastest",
    "Verif.C64_medium"
   ],
   "note": "Ratios of at least 1. The table of the best-quality converter is not part of the checkout, so it is not covered. An example beside the theorems converts a tone of a quarter of the sampling rate."
  },
  {
   "property": "C65",
   "status": "proved",
   "theorems": [
    "Verif.C65_fastest",
    "Verif.C65_medium"
   ],
   "note": "fast and medium converter, the two whose tables are in the checkout. Histories whose ratios do not drop between resets (as in C24: otherwise the buffer may hold too little history for the longer filter)."
  },
  {
   "property": "C66",
   "status": "proved",
   "theorems": [
    "Verif.C66_interp",
    "Verif.C66_sinc"
   ],
   "note": "For sinc frames at ratios below 1 neither history may lower the ratio between resets: the code then cuts the filter short at the oldest frame it still holds, which depends on how the stream was cut."
  },
  {
   "property": "C67",
   "status": "proved",
   "theorems": [
    "Verif.C67_zoh",
    "Verif.C67_linear"
   ],
   "note": "Explicit error bounds with rounding included; any ratios, changing within the stream."
  },
  {
   "property": "C68",
   "status": "proved",
   "theorems": [
    "Verif.C68_fastest_up",
    "Verif.C68_fastest_down",
    "Verif.C68_medium_up",
    "Verif.C68_medium_down",
    "Verif.C68_zoh",
    "Verif.C68_linear"
   ],
   "note": "Sinc: the fast and medium tables of the library; the table of the best converter is not modelled."
  },
  {
   "property": "C69",
   "status": "proved",
   "theorems": [
    "Verif.C69_fastest_up",
    "Verif.C69_fastest_down",
    "Verif.C69_medium_up",
    "Verif.C69_medium_down",
    "Verif.C69_zoh",
    "Verif.C69_linear"
   ],
   "note": "Sinc: the fast and medium tables of the library; the table of the best converter is not modelled."
  },
  {
   "property": "C70",
   "status": "proved",
   "theorems": [
    "Verif.C70_fastest",
    "Verif.C70_medium"
   ],
   "note": "For the fast and the medium converter with the tables of the repository (ShippedTables); the table of the best converter is not part of the model. The gains on a grid of frequencies are literals checked by the kernel against the table; in between they are interpolated linearly. Gain bound 0.70795 = -2.999 dB."
  },
  {
   "property": "C71",
   "status": "proved",
   "theorems": [
    "Verif.C71_fastest",
    "Verif.C71_medium",
    "Verif.C71_fastest_simple",
    "Verif.C71_medium_simple",
    "Verif.C71_fastest_read",
    "Verif.C71_medium_read"
   ],
   "note": "Fast and medium converter; not the best converter, whose table is not in the checkout. For histories whose ratios do not drop (a drop shortens the stored history under the wider filter, see C08 and C24). Example: a tone in the transition band at ratio 1/2. The _read theorems are for src_callback_read, with any requests and callback buffers."
  },
  {
   "property": "C72",
   "status": "proved",
   "theorems": [
    "Verif.C72_zoh",
    "Verif.C72_same_rate",
    "Verif.C72_fastest_up",
    "Verif.C72_medium_up",
    "Verif.C72_fastest_down",
    "Verif.C72_medium_down"
   ],
   "note": "Stated for the program shortProgram (Spec/Pcm). Zero order hold and ratio 1: exact. Sinc: the shipped fast and medium tables; signals are sums of tones; best quality table not in the checkout."
  },
  {
   "property": "C73",
   "status": "proved",
   "theorems": [
    "Verif.C73_fastest",
    "Verif.C73_medium",
    "Verif.C73_fastest_any",
    "Verif.C73_medium_any"
   ],
   "note": "Up conversion followed by down conversion with src_simple, the shipped fast and medium tables, signals made of tones. The _any theorems are for all pairs of ratios from 1/180 on, with larger constants."
  },
  {
   "property": "C74",
   "status": "proved",
   "theorems": [
    "Verif.C74_fastest",
    "Verif.C74_medium"
   ],
   "note": "The ratios of the frames are those of C57 (between 1 and 1.5, from the program's table). libsndfile is modelled as an ideal file, as in C57. The best quality converter is not covered: its table is not in the checkout."
  },
  {
   "property": "C75",
   "status": "proved",
   "theorems": [
    "Verif.C75_zoh",
    "Verif.C75_same_rate",
    "Verif.C75_fastest",
    "Verif.C75_medium"
   ],
   "note": "For builds with CPU_CLIPS_POSITIVE off (C27_needs_clip shows that with it on, on a CPU that wraps, full scale would wrap)."
  },
  {
   "property": "C76",
   "status": "proved",
   "theorems": [
    "Verif.C76_interp",
    "Verif.C76_sinc"
   ],
   "note": "All five converters; the 17 powers of two from 1/256 to 256."
  },
  {
   "property": "C77",
   "status": "proved",
   "theorems": [
    "Verif.C77_interp",
    "Verif.C77_sinc",
    "Verif.C77_delay"
   ],
   "note": "Bit by bit, for two runs with independent schedules; C77_delay: silence in front of a stream."
  },
  {
   "property": "C78",
   "status": "proved",
   "theorems": [
    "Verif.C78_any",
    "Verif.C78_played",
    "Verif.C78_lost"
   ],
   "note": "The device is an arbitrary function of the history of the calls it has received. C78_played assumes a device that works (WorkingDevice)."
  },
  {
   "property": "C79",
   "status": "proved",
   "theorems": [
    "Verif.C79"
   ],
   "note": "write() is taken to receive the buffer; its result is ignored by the program."
  },
  {
   "property": "C80",
   "status": "proved",
   "theorems": [
    "Verif.C80"
   ],
   "note": "One call of the callback of the Windows device; the statement describes a fault of the example program."
  },
  {
   "property": "C81",
   "status": "proved",
   "theorems": [
    "Verif.C81",
    "Verif.C81_data",
    "Verif.C81_simple"
   ],
   "note": "Every function of the interface with a NULL handle; C81_data and C81_simple for NULL data."
  },
  {
   "property": "C82",
   "status": "proved",
   "theorems": [
    "Verif.C82",
    "Verif.C82_played"
   ],
   "note": "The misplaced silence with several channels is a finding; the varispeed player never supplies a short block (C82_played), so it is not audible there. Device buffer of 8192 bytes, number of channels dividing 32, as in C61."
  },
  {
   "property": "C83",
   "status": "proved",
   "theorems": [
    "Verif.C83_zoh",
    "Verif.C83_linear",
    "Verif.C83_sinc",
    "Verif.C83_channels_linear",
    "Verif.C83_channels_sinc"
   ],
   "note": "Zero order hold is exact without exception. Across streams, sinc: ratios that do not fall between resets, or of at least 1; inside one stream any ratios."
  },
  {
   "property": "C84",
   "status": "proved",
   "theorems": [
    "Verif.C84_interp",
    "Verif.C84_sinc",
    "Verif.C84_order_interp",
    "Verif.C84_order_sinc",
    "Verif.C84_counts"
   ],
   "note": "While the ratio moves, streams of different channel counts may differ by rounding, because the code interpolates the ratio over samples, not frames: C84_interp and C84_sinc are for a constant ratio. C84_counts: the total number of frames may differ by one, a finding."
  },
  {
   "property": "C85",
   "status": "proved",
   "theorems": [
    "Verif.C85",
    "Verif.C85_program"
   ],
   "note": "Model/Dispatch looks the function up by the address stored in the handle. C85: the program behaves as if every read ran func (cb_data, ...) whatever pointer it is handed. C85_program: the same inside a program with any number of handles on the heap (clones: C14)."
  },
  {
   "property": "C86",
   "status": "proved",
   "theorems": [
    "Verif.C86",
    "Verif.C86_fault"
   ],
   "note": "Threads take turns at whole calls; a turn is a call on a handle of the thread or any computation on its part of the memory. C86_fault: a schedule adds no faults."
  },
  {
   "property": "C87",
   "status": "proved",
   "theorems": [
    "Verif.C87",
    "Verif.C87_falling",
    "Verif.C87_callback",
    "Verif.C87_simple"
   ],
   "note": "C87 and C87_falling: every history of src_process and src_set_ratio calls that feeds the stream without gaps, with any ratios. C87_callback: reads through the callback API at a constant ratio. C87_simple: src_simple. Samples are finite."
  },
  {
   "property": "C88",
   "status": "proved",
   "theorems": [
    "Verif.C88_interp",
    "Verif.C88_sinc",
    "Verif.C88_callback_interp",
    "Verif.C88_callback_sinc"
   ],
   "note": "Zero order hold and linear: output frames from the third input frame on. Sinc: output frames whose filter lies within the frames that repeat. The callback theorems are about src_callback_read."
  },
  {
   "property": "C89",
   "status": "proved",
   "theorems": [
    "Verif.C89_sinc",
    "Verif.C89_interp"
   ],
   "note": "The recording is in the input buffer of src_simple. Linear: at least three frames in src_simple (see C07). As far as each goes: one output is the beginning of the other; how many frames each gives is C23, C48, C60."
  },
  {
   "property": "C90",
   "status": "proved",
   "theorems": [
    "Verif.C90_sinc",
    "Verif.C90_interp"
   ],
   "note": "`Finishes` (sinc) and `FinishesPlain` (interpolating) say what a complete conversion is: any calls, then one with the rest of the frames (sinc: told the end of the input) that has room for more output than it gives. The bound is one frame; equality is not claimed, because the tests that end the output are on rounded positions that depend on the cutting. A one-call and a two-call conversion of 100 frames are shown as examples for each kind."
  }
 ]
}