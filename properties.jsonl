{"id": "C01", "title": "Ratio validation is exact", "statement": "src_is_valid_ratio(r) returns TRUE exactly when 1/256 <= r <= 256 or r is NaN (the library does not reject NaN, although it is no valid ratio), and src_process, src_set_ratio and src_callback_read accept a ratio exactly when src_is_valid_ratio returns TRUE; a rejected ratio changes nothing, except that src_callback_read records SRC_ERR_BAD_SRC_RATIO.", "quantifier": "every double value, including infinities and NaN, and every handle state", "why_tests_cant": "2^64 doubles; NaN slips through tests that only probe both ends of the interval", "anchors": ["src/common.h:is_bad_src_ratio", "src/samplerate.c:src_is_valid_ratio,src_process,src_set_ratio,src_callback_read"]}
{"id": "C02", "title": "Rejected calls have no effect", "statement": "When src_process returns one of the argument errors (NULL state, wrong mode, NULL data, NULL buffers, bad ratio, overlapping buffers) the error is the first failing check in that order, and neither the converter nor any sample memory has changed.", "quantifier": "every converter state, every SRC_DATA, every memory content", "why_tests_cant": "a leak of state on one error path shows only in a later call of a specific history", "anchors": ["src/samplerate.c:src_process"]}
{"id": "C03", "title": "Overlap detection is exact", "statement": "src_process never runs a conversion whose input range [data_in, data_in+input_frames*channels) and output range [data_out, data_out+output_frames*channels) share a sample; and it returns SRC_ERR_DATA_OVERLAP for two non-empty ranges only if they do share one.", "quantifier": "every pair of buffer addresses, frame counts and channel counts", "why_tests_cant": "unbounded address/size combinations with off-by-one boundaries on both sides", "anchors": ["src/samplerate.c:src_process (lines 113-126)"]}
{"id": "C04", "title": "Frame accounting", "statement": "After every successful src_process: 0 <= input_frames_used <= input_frames and 0 <= output_frames_gen <= output_frames.", "quantifier": "every converter type, every valid ratio sequence, every call history, every buffer size", "why_tests_cant": "depends on floating point position carried across an unbounded history", "anchors": ["src/src_zoh.c:zoh_vari_process", "src/src_linear.c:linear_vari_process", "src/src_sinc.c:*_vari_process,prepare_data"]}
{"id": "C05", "title": "Write footprint", "statement": "A successful src_process writes exactly the samples data_out[0 .. output_frames_gen*channels) and changes no other sample of memory; in particular the input buffer is unchanged.", "quantifier": "every converter, history, buffer placement and size", "why_tests_cant": "an out-of-place write depends on sizes and history; tests see only the buffers they look at", "anchors": ["src/src_zoh.c:zoh_vari_process", "src/src_linear.c:linear_vari_process", "src/src_sinc.c:*_vari_process"]}
{"id": "C06", "title": "Zero-order-hold is memory safe", "statement": "With the zero-order-hold converter src_process never reads outside the input buffer, never writes outside the output buffer, and never overflows an int, for any valid ratio history.", "quantifier": "every reachable converter state, every ratio pair, every buffer size, every channel count up to 8355967 (beyond that an int product overflows)", "why_tests_cant": "read index depends on accumulated rounded double arithmetic over the whole history", "anchors": ["src/src_zoh.c:zoh_vari_process"]}
{"id": "C07", "title": "Linear is memory safe", "statement": "With the linear converter src_process never reads outside the input buffer and never writes outside the output buffer.", "quantifier": "every reachable converter state, every ratio pair, every buffer size (including one frame), every channel count up to 8355967 (beyond that an int product overflows)", "why_tests_cant": "the failing case needs a specific combination of carried position and buffer length, and reads stale but mapped memory so nothing crashes", "anchors": ["src/src_linear.c:linear_vari_process"]}
{"id": "C08", "title": "Sinc is memory safe", "statement": "With the sinc converters every access to the internal history buffer, the coefficient table, the input and the output buffer is in bounds and no assertion fails.", "quantifier": "every reachable converter state, every ratio history, every buffer size, every channel count 1..128", "why_tests_cant": "the bounds rest on fixed-point rounding and buffer compaction at ratio changes; only a handful of sizes trigger the corner", "anchors": ["src/src_sinc.c:prepare_data,calc_output_single,calc_output_stereo,calc_output_quad,calc_output_hex,calc_output_multi"]}
{"id": "C09", "title": "src_process terminates", "statement": "src_process returns after at most output_frames (+ a constant) iterations of its processing loops, whatever the sample values and state.", "quantifier": "every converter, state, buffer size and sample content", "why_tests_cant": "absence of a hang is a statement about all inputs", "anchors": ["src/src_zoh.c:zoh_vari_process", "src/src_linear.c:linear_vari_process", "src/src_sinc.c:*_vari_process"]}
{"id": "C10", "title": "Internal error codes are unreachable", "statement": "On a handle obtained from src_new and used only through the API with valid ratios, src_process never returns an internal error (SRC_ERR_BAD_INTERNAL_STATE, SRC_ERR_NO_PRIVATE, SRC_ERR_SINC_PREPARE_DATA_BAD_LEN, SRC_ERR_SIZE_INCOMPATIBILITY).", "quantifier": "every API history with valid ratios; for the sinc converters, calls with fewer than 2^31 samples of input (the library casts the count to int)", "why_tests_cant": "needs an invariant over all histories, including rounding of interpolated ratios", "anchors": ["src/src_zoh.c:zoh_vari_process", "src/src_linear.c:linear_vari_process", "src/src_sinc.c:prepare_data"]}
{"id": "C11", "title": "Interpolated ratio stays valid", "statement": "While src_process moves from the previous ratio to the requested one, every instantaneous ratio used stays inside [1/256, 256], so the ratio remembered for the next call is again valid.", "quantifier": "every pair of valid double ratios, every output position and buffer size, with IEEE rounding", "why_tests_cant": "rounding overshoot at the interval ends concerns 2^124 ratio pairs", "anchors": ["src/src_zoh.c:89-90,108-109", "src/src_linear.c:91-92,111-112", "src/src_sinc.c:492-493"]}
{"id": "C12", "title": "src_set_ratio gives a step", "statement": "After src_set_ratio(s, r), src_process with src_ratio = r uses ratio r for every output frame of that call and leaves r as the remembered ratio; with an equal ratio there is never any interpolation.", "quantifier": "every state, every valid ratio, every buffer size", "why_tests_cant": "ranges over all states and ratios", "anchors": ["src/samplerate.c:src_set_ratio,src_process", "src/src_zoh.c", "src/src_linear.c", "src/src_sinc.c"]}
{"id": "C13", "title": "Reset equals fresh", "statement": "After src_reset every further sequence of API calls gives the same return values, the same frame counts and the same output samples as on a handle newly created with the same parameters.", "quantifier": "every history before the reset and every history after it", "why_tests_cant": "a field forgotten by reset shows only for particular histories", "anchors": ["src/samplerate.c:src_reset", "src/src_zoh.c:zoh_reset", "src/src_linear.c:linear_reset", "src/src_sinc.c:sinc_reset"]}
{"id": "C14", "title": "Clone is indistinguishable", "statement": "A clone made by src_clone gives, for every further sequence of API calls, the same return values, frame counts and output samples as the original would have given.", "quantifier": "every state at which the clone is made and every continuation", "why_tests_cant": "the clone test samples one point of one stream", "anchors": ["src/samplerate.c:src_clone", "src/src_zoh.c:zoh_copy", "src/src_linear.c:linear_copy", "src/src_sinc.c:sinc_copy"]}
{"id": "C15", "title": "Handles are independent", "statement": "Operations on one handle (processing, resetting, setting ratios, deleting) never change what any other live handle does, also when one is a clone of the other.", "quantifier": "every interleaving of API calls over any number of handles", "why_tests_cant": "aliasing between clone and original depends on the interleaving", "anchors": ["src/src_zoh.c:zoh_copy", "src/src_linear.c:linear_copy", "src/src_sinc.c:sinc_copy", "src/samplerate.c:src_delete"]}
{"id": "C16", "title": "Channels do not interfere", "statement": "Channel k of the output depends only on channel k of the input: changing the samples of other channels changes no sample of channel k.", "quantifier": "every channel count, history, ratio and pair of inputs agreeing on channel k", "why_tests_cant": "two-run property over all inputs", "anchors": ["src/src_zoh.c:zoh_vari_process", "src/src_linear.c:linear_vari_process", "src/src_sinc.c:calc_output_*"]}
{"id": "C17", "title": "Timing does not depend on sample values", "statement": "input_frames_used, output_frames_gen and the error code of src_process depend only on frame counts, ratios and end_of_input flags, never on the sample values (NaN and infinities included).", "quantifier": "every pair of runs that differ only in sample values", "why_tests_cant": "two-run property over all inputs", "anchors": ["src/src_zoh.c", "src/src_linear.c", "src/src_sinc.c"]}
{"id": "C18", "title": "Zero-order hold repeats input samples", "statement": "Every output frame of the zero-order-hold converter is a copy of one input frame: at input time t (counted in input frames from the start of the stream) it is frame floor(t)-1, the last frame whose interval has ended, and frame 0 for t < 1.", "quantifier": "every history of calls, every ratio sequence, every sample content", "why_tests_cant": "which frame is held depends on rounded positions accumulated over the whole history", "anchors": ["src/src_zoh.c:zoh_vari_process"]}
{"id": "C19", "title": "Linear interpolation never overshoots", "statement": "Every output sample of the linear converter lies between the two input samples it interpolates (inclusive), bit-exactly under IEEE rounding; constant input gives exactly that constant.", "quantifier": "every pair of finite floats and every position in [0,1)", "why_tests_cant": "2^64 sample pairs times 2^62 positions; rounding could overshoot by one ulp", "anchors": ["src/src_linear.c:94-98,121-125"]}
{"id": "C20", "title": "Zero-order hold: chunking does not matter", "statement": "At a constant ratio, however the input is cut into src_process calls and however output space is offered, the concatenated output is the same stream, bit for bit: one history's output is a prefix of the other's.", "quantifier": "every input stream, every two partitions of it into calls, every ratio", "why_tests_cant": "exponentially many partitions; carried position is a rounded double", "anchors": ["src/src_zoh.c:zoh_vari_process"]}
{"id": "C21", "title": "Linear: chunking does not matter", "statement": "The same chunking invariance for the linear converter.", "quantifier": "every input stream, every two partitions into calls whose calls have no undefined behaviour (see C07 for the calls with one or two frames), every ratio", "why_tests_cant": "exponentially many partitions; carried position is a rounded double", "anchors": ["src/src_linear.c:linear_vari_process"]}
{"id": "C22", "title": "Sinc: chunking does not matter", "statement": "The same chunking invariance for the sinc converters, at a constant ratio, with or without the end of input being signalled at the end of the stream.", "quantifier": "every input stream, every two partitions into calls, every ratio", "why_tests_cant": "exponentially many partitions; interacts with history buffer compaction", "anchors": ["src/src_sinc.c:*_vari_process,prepare_data"]}
{"id": "C23", "title": "Output duration", "statement": "At constant ratio r, for the zero-order-hold and linear converters, whenever a call had room for more output than it generated, the total number G of output frames and the number N of input frames presented so far satisfy |G - N*r| <= 1 + r + G*r*2^-44 (one output period, one input period, accumulated rounding of at most 2^-44 input frames per output frame).", "quantifier": "every N, every valid ratio, every chunking", "why_tests_cant": "accumulated rounding over unbounded streams", "anchors": ["src/src_zoh.c:zoh_vari_process", "src/src_linear.c:linear_vari_process"]}
{"id": "C24", "title": "Input frames are consumed in order, none lost", "statement": "Frames reported as used are never needed again and frames reported unused are never forgotten: re-presenting exactly the unused frames continues the stream seamlessly.", "quantifier": "every history in which the caller advances by input_frames_used", "why_tests_cant": "off-by-one at chunk borders depends on history", "anchors": ["src/src_zoh.c", "src/src_linear.c", "src/src_sinc.c:prepare_data"]}
{"id": "C25", "title": "short -> float -> short is the identity", "statement": "src_float_to_short_array(src_short_to_float_array(x)) = x for every array of shorts.", "quantifier": "every array of 16-bit values of any length", "why_tests_cant": "arrays of any length; argument is over the rounding mode, not samples", "anchors": ["src/samplerate.c:src_short_to_float_array,src_float_to_short_array"]}
{"id": "C26", "title": "float -> short saturates and rounds to nearest", "statement": "src_float_to_short_array gives for every non-NaN float v the integer nearest to 32768*v (ties to even) clipped to [-32768, 32767]; the map is monotone.", "quantifier": "every float value", "why_tests_cant": "2^32 floats times array positions", "anchors": ["src/samplerate.c:src_float_to_short_array"]}
{"id": "C27", "title": "int <-> float conversion", "statement": "src_float_to_int_array clips to [-2^31, 2^31-1], rounds to nearest and is monotone; int -> float -> int changes a value by at most 64 and not at all if |x| <= 2^24.", "quantifier": "every float and every 32-bit int", "why_tests_cant": "2^32 values on each side, and behaviour at the clip points", "anchors": ["src/samplerate.c:src_int_to_float_array,src_float_to_int_array"]}
{"id": "C28", "title": "Array conversions touch exactly len elements", "statement": "The four array conversion functions convert elementwise, write exactly out[0..len), and do nothing for len <= 0.", "quantifier": "every length and array content", "why_tests_cant": "all lengths", "anchors": ["src/samplerate.c:427-483"]}
{"id": "C29", "title": "Every error code has its own text", "statement": "src_strerror returns a text for every code the library can return (0..23), different codes have different texts, and NULL for every other int.", "quantifier": "every int", "why_tests_cant": "2^32 ints and every error path", "anchors": ["src/samplerate.c:src_strerror", "src/common.h:SRC_ERROR"]}
{"id": "C30", "title": "Converter enumeration", "statement": "src_get_name and src_get_description are non-NULL exactly for converter types 0..4, with distinct names, and src_new rejects every other type with SRC_ERR_BAD_CONVERTER.", "quantifier": "every int converter type and channel count", "why_tests_cant": "2^32 ints", "anchors": ["src/samplerate.c:src_get_name,src_get_description,psrc_set_converter", "src/src_sinc.c:sinc_get_name", "src/src_zoh.c:zoh_get_name", "src/src_linear.c:linear_get_name"]}
{"id": "C31", "title": "Construction contract", "statement": "src_new returns a handle exactly when the type is known, 1 <= channels (and <= 128 for sinc) and memory is available. An unknown type gives NULL and SRC_ERR_BAD_CONVERTER, more than 128 channels for sinc NULL and SRC_ERR_BAD_CHANNEL_COUNT, a refused allocation NULL and SRC_ERR_MALLOC_FAILED. Less than one channel for a known type stops the program at an assertion (the documented requirement channels >= 1 is asserted, not reported).", "quantifier": "every converter type, channel count and allocation outcome", "why_tests_cant": "all ints, all allocation failure schedules; the assertion for channels <= 0 aborts the process", "anchors": ["src/samplerate.c:src_new,psrc_set_converter", "src/src_sinc.c:sinc_state_new,sinc_filter_new", "src/src_zoh.c:zoh_state_new", "src/src_linear.c:linear_state_new"]}
{"id": "C32", "title": "Allocation failure is harmless", "statement": "Whichever allocation inside src_new, src_callback_new or src_clone fails, the call returns NULL, reports SRC_ERR_MALLOC_FAILED, leaks nothing and changes no existing block.", "quantifier": "every schedule of allocation failures and every heap", "why_tests_cant": "failure injection at every point in every heap state", "anchors": ["src/src_zoh.c:zoh_state_new,zoh_copy", "src/src_linear.c:linear_state_new,linear_copy", "src/src_sinc.c:sinc_state_new,sinc_copy", "src/samplerate.c:src_clone"]}
{"id": "C33", "title": "No leak, no double free", "statement": "After src_delete of a handle the heap contains exactly what it contained without that handle; no call sequence on live handles frees a block twice or touches a freed block; src_simple leaves the heap as it found it.", "quantifier": "every history of create/clone/process/reset/delete over any number of handles", "why_tests_cant": "every interleaving", "anchors": ["src/samplerate.c:src_delete,src_simple", "src/src_*.c:*_close"]}
{"id": "C34", "title": "src_simple is one-shot src_process", "statement": "src_simple(data, type, ch) returns the same code, counts and samples as src_new(type, ch), src_process with end_of_input set to 1, src_delete.", "quantifier": "every SRC_DATA, type and channel count", "why_tests_cant": "all inputs", "anchors": ["src/samplerate.c:src_simple"]}
{"id": "C35", "title": "Process and callback modes never mix", "statement": "On a handle from src_callback_new src_process always returns SRC_ERR_BAD_MODE without effect; on a handle from src_new src_callback_read (asked for at least one frame) always returns 0, makes no callback and sets SRC_ERR_BAD_MODE; a handle never changes its mode, whatever is called.", "quantifier": "every API history", "why_tests_cant": "the mode is flipped temporarily inside src_callback_read; every exit path must restore it", "anchors": ["src/samplerate.c:src_process,src_callback_read,src_callback_new"]}
{"id": "C36", "title": "src_callback_read count", "statement": "src_callback_read returns between 0 and frames; it returns fewer than asked only if an error is recorded in src_error or the callback reported end of input during this call.", "quantifier": "every callback behaviour, converter and history", "why_tests_cant": "all callback behaviours", "anchors": ["src/samplerate.c:src_callback_read"]}
{"id": "C37", "title": "Callback data is used exactly once, in order", "statement": "The output of a sequence of src_callback_read calls at a constant ratio equals, frame by frame, the output of the converter run with src_process over the concatenation of all buffers the callback returned: no sample is skipped or duplicated, at buffer borders or between calls. (For the sinc converters: if the callback reports the end of input it returns no more frames afterwards.)", "quantifier": "every sequence of callback buffers and read sizes", "why_tests_cant": "all interleavings of read sizes and buffer sizes", "anchors": ["src/samplerate.c:src_callback_read"]}
{"id": "C38", "title": "Callback is called only when needed", "statement": "src_callback_read invokes the callback only when all frames the callback has returned before have been consumed, presents every unconsumed frame of the last buffer to the converter, reports the end of input only after the callback has returned 0, and otherwise does what a sequence of src_process calls does.", "quantifier": "every callback behaviour and history", "why_tests_cant": "all histories", "anchors": ["src/samplerate.c:src_callback_read"]}
{"id": "C39", "title": "src_callback_read terminates", "statement": "src_callback_read returns after finitely many callbacks, provided the callback never returns a negative frame count and, for the sinc converters, a callback that has returned 0 goes on returning 0 until src_reset. Both provisos are needed: there are histories in which a callback that always returns -1, or that returns data again after the end of the input on a sinc handle, makes src_callback_read run for ever.", "quantifier": "every callback behaviour within the proviso, every earlier history of calls on the handle, every converter, every request size", "why_tests_cant": "non-termination needs a specific history (data after end of input)", "anchors": ["src/samplerate.c:src_callback_read", "src/src_sinc.c:prepare_data"]}
{"id": "C40", "title": "Error is sticky until reset", "statement": "src_error is 0 on a new handle and after src_reset; an argument error of src_process and every src_set_ratio leave it alone; a failing src_callback_read sets it to its error and returns 0. With zero order hold and linear nothing else changes it: the error stays until src_reset or a newer error. With the sinc converters a later conversion replaces it by its own result, so a later successful src_callback_read may clear it.", "quantifier": "every history", "why_tests_cant": "history property", "anchors": ["src/samplerate.c:src_error,src_reset,src_callback_read,src_process"]}
{"id": "C41", "title": "Silence in, silence out", "statement": "If every input sample of every src_process call is zero, every output sample that a successful call reports as generated is zero, on every handle and through ratio changes, set_ratio and reset.", "quantifier": "every converter, history, ratio, chunking", "why_tests_cant": "all histories", "anchors": ["src/src_zoh.c", "src/src_linear.c", "src/src_sinc.c"]}
{"id": "C42", "title": "Polarity symmetry", "statement": "Negating every input sample negates every output sample exactly and changes no count.", "quantifier": "every converter, history and sample content (finite, infinite or NaN); zero has no sign here", "why_tests_cant": "two-run property with IEEE rounding", "anchors": ["src/src_zoh.c", "src/src_linear.c", "src/src_sinc.c"]}
{"id": "C43", "title": "Ratio 1 is a pure delay for ZOH and linear", "statement": "At ratio exactly 1.0 output frame 0 equals input frame 0 and output frame i equals input frame i-1, for every chunking (finite samples).", "quantifier": "every finite input stream and chunking", "why_tests_cant": "all streams", "anchors": ["src/src_zoh.c", "src/src_linear.c"]}
{"id": "C44", "title": "Time moves forward", "statement": "Successive output frames are taken at strictly increasing input times, by between 1/257 and 257 input frames each; output never reuses earlier input time.", "quantifier": "every history and ratio sequence", "why_tests_cant": "accumulated rounding over histories", "anchors": ["src/src_zoh.c", "src/src_linear.c", "src/src_sinc.c"]}
{"id": "C45", "title": "Channel count is constant", "statement": "src_get_channels returns the channel count given at creation in every state of every history (clones: that of the original), and -SRC_ERR_BAD_STATE for NULL.", "quantifier": "every history", "why_tests_cant": "history property", "anchors": ["src/samplerate.c:src_get_channels"]}
{"id": "C46", "title": "Sinc stops after end of input", "statement": "Once a sinc converter has taken in the last frame with end_of_input set, it generates only finitely many further frames and then none, consuming no further input, until src_reset.", "quantifier": "every history", "why_tests_cant": "history property", "anchors": ["src/src_sinc.c:prepare_data"]}
{"id": "C47", "title": "Fixed point and filter index arithmetic of sinc is exact", "statement": "The filter index computations of the sinc converters never overflow 32-bit integers, never index outside the coefficient table, and cover exactly the coefficients on the sampling grid start, start+inc, start+2inc, ... up to the filter half length.", "quantifier": "every ratio, every position, every supported coefficient table geometry", "why_tests_cant": "all doubles", "anchors": ["src/src_sinc.c:double_to_fp,int_to_fp,fp_to_int,fp_fraction_part,fp_to_double,int_div_ceil,calc_output_*"]}
{"id": "C48", "title": "Sinc: output duration", "statement": "At constant ratio r >= 1/180, when end_of_input has been set with the last of N input frames and the call had room for more output than it generated, all N frames have been used and the total number G of output frames satisfies |G - N*r| <= 1 + (G*2^-44 + 1e-6)*r.", "quantifier": "every N, every valid ratio >= 1/180, every chunking, every channel count", "why_tests_cant": "all doubles and all partitions; the flush interacts with buffer compaction", "anchors": ["src/src_sinc.c:*_vari_process,prepare_data"]}
{"id": "C49", "title": "Sinc: latency and progress", "statement": "At constant ratio r >= 1/180 before the end of input, a call that had room for more output than it generated has used all its input, and the total number G of output frames lags behind the N input frames by the filter's half length: |G - max(0, N - reach(r))*r| <= 1 + G*2^-44*r.", "quantifier": "every N, every valid ratio >= 1/180, every chunking, every channel count", "why_tests_cant": "all doubles and all partitions", "anchors": ["src/src_sinc.c:*_vari_process,prepare_data"]}
{"id": "C50", "title": "Finite input of moderate size never gives NaN or infinity", "statement": "Zero order hold and linear: if all input samples are at most u in magnitude, so are all output samples (no overshoot). Sinc: if all input samples are at most 2^k in magnitude (k <= 64) all output samples are finite, of magnitude at most 2^(11+k).", "quantifier": "every u / k, every converter, every history of process, set_ratio and reset calls, every ratio, chunking and channel count", "why_tests_cant": "overflow or NaN may need one particular combination of samples, position and ratio", "anchors": ["src/src_zoh.c", "src/src_linear.c", "src/src_sinc.c:calc_output_*"]}
{"id": "C51", "title": "Sinc output is the filter sum up to rounding", "statement": "Whatever the history of calls, chunk sizes and ratio changes, every output sample of a sinc converter is the value of one fixed filter (the table read with linear interpolation, time-stretched and scaled down for ratios below 1) applied to the input stream at the frame's input time, computed in exact arithmetic, up to a rounding error of at most 2^-12 of the largest input magnitude within reach of the filter for any table of coefficients of magnitude at most 1, and 2^-19 of it with the fast and medium tables shipped. Samples out of reach of the filter (even NaN) have no influence.", "quantifier": "all builds, channel counts, streams of finite samples of magnitude up to 2^63 near the output position, chunkings, ratio histories and output frames", "why_tests_cant": "The error of a long floating point sum depends on all taps, phases and ratios at once; a test measures one signal at a few ratios.", "anchors": ["src/src_sinc.c:calc_output_single", "src/src_sinc.c:calc_output_stereo", "src/src_sinc.c:calc_output_multi", "src/fastest_coeffs.h", "src/mid_qual_coeffs.h"]}
{"id": "C52", "title": "Sinc: worst case amplification", "statement": "With the tables shipped, no input can make the fast converter amplify a signal by more than 1.9 (medium: 2.4) at ratios of at least 1, and by more than 5.4 (medium: 7.1) at any ratio; so headroom can be chosen that no input overflows.", "quantifier": "all streams, channel counts, chunkings, ratio histories and output frames", "why_tests_cant": "The worst case input is different for every phase, and there are unboundedly many inputs; a test signal never shows the maximum.", "anchors": ["src/src_sinc.c:calc_output_single", "src/src_sinc.c:calc_output_stereo", "src/src_sinc.c:calc_output_multi", "src/fastest_coeffs.h", "src/mid_qual_coeffs.h"]}
{"id": "C53", "title": "Sinc: constant input gives constant output", "statement": "With the tables shipped and ratios of at least 1, an output frame around which the input is constant (21 frames to either side for the fast, 47 for the medium converter) has that constant value up to a relative error of 1/200000, at every fractional position. At ratios r below 1 that do not drop, the same holds with 21/r (47/r) frames and a relative error of 1/4000 + 1/(1000000 r) for the fast, 1/1700 + 1/(1000000 r) for the medium converter.", "quantifier": "all constants, all phases, ratio histories, chunkings, and whatever the rest of the stream contains", "why_tests_cant": "It must hold at each of the 2^53 fractional positions and for every alignment of the chunks.", "anchors": ["src/src_sinc.c:sinc_set_converter", "src/src_sinc.c:calc_output_single", "src/fastest_coeffs.h", "src/mid_qual_coeffs.h"]}
{"id": "C54", "title": "Ratio changes glide", "statement": "When src_process is called with another ratio than the one in force, its frame g (with room for o output frames) is produced at ratio l + (t - l) * g / o, up to rounding: the ratio starts at the old value, never turns back and never overshoots; the ratio reached is where the next call starts, and src_set_ratio takes effect at once. Consequently a caller that asks for one output frame per call stays at the ratio of its first call for ever.", "quantifier": "every converter type, every history of calls and ratios", "why_tests_cant": "depends on rounding of every pair of ratios and on the ratio reached by the whole history before", "anchors": ["src/src_zoh.c:89-90,108-109", "src/src_linear.c:91-92,111-112", "src/src_sinc.c:492-493,614-615", "src/samplerate.c:120-126", "src/samplerate.h:src_set_ratio"]}
{"id": "C55", "title": "Mixing commutes with conversion", "statement": "Converting two streams with the same calls and mixing the results with any two factors gives what converting the mixed stream gives: exactly for zero order hold, up to rounding (u/2^23 per sample of level u) for linear, and up to the arithmetic of the filter (u/2^19 with the tables shipped) for the sinc converters. Inside one stream, a channel carrying the mix of two others comes out as their mix, whatever the history of ratios.", "quantifier": "all streams, factors, levels, channel counts, chunkings and ratio histories (across streams, sinc: ratios that do not fall between resets)", "why_tests_cant": "Rounding errors depend on every sample and phase; a superposition test on some signals says nothing about the worst pair.", "anchors": ["src/src_zoh.c:zoh_vari_process", "src/src_linear.c:linear_vari_process", "src/src_sinc.c:calc_output_single", "src/src_sinc.c:calc_output_multi"]}
{"id": "C56", "title": "Output duration while the ratio moves", "statement": "If every ratio requested so far is between a and b, then whenever a call had room for more output than it generated, the total number G of output frames for N input frames presented lies between N*a and N*b: for the zero-order-hold and linear converters within one input and one output period and accumulated rounding ((N-1-G/2^44)*a <= G <= 1+(N+1+G/2^44)*b); for the sinc converters at ratios of at least 1, after end_of_input, all N frames have been used and (N-1e-6-G/2^44)*a-1 <= G <= 1+(N+G/2^44)*b, and before end_of_input all input has been used and the same holds with N reduced by the filter's half length. At any ratios, below 1 too, before end_of_input the output lags behind the V frames used by between the reach of the filter at b and at a: (V-reach(a)-G/2^44)*a <= G <= 1+(max(0,V-reach(b))+G/2^44)*b.", "quantifier": "every history of calls and ratios in [a, b], every chunking, every channel count", "why_tests_cant": "the number of frames depends on every ratio requested and on the accumulated rounding of all positions of the stream", "anchors": ["src/src_zoh.c:zoh_vari_process", "src/src_linear.c:linear_vari_process", "src/src_sinc.c:sinc_mono_vari_process", "src/src_sinc.c:prepare_data"]}
{"id": "C57", "title": "The time warp example converts whole files", "statement": "The loop of examples/timewarp-file.c, the documented pattern for streaming a file through src_process at a varying ratio, terminates for every input file without an error from the library, passes only ranges inside its two 1024-sample arrays, consumes every frame of the file exactly once and in order, and writes to the output file exactly the frames the library generated: frame j is the filter response of the whole file at input time t_j, with ratios between 1 and 3/2 taken from the program's table according to the number of frames read so far. The number G of frames written is between N-1 and 1.5*N+1 for N frames read, up to accumulated rounding. The last entry of the table is never applied.", "quantifier": "every file content and length, every channel count 1..128, every sinc converter with the library's table dimensions", "why_tests_cant": "a test runs single files; termination, completeness of the flush and the position of every refill depend on the file length, the channel count and the schedule of ratio changes", "anchors": ["examples/timewarp-file.c:timewarp_convert", "examples/timewarp-file.c:warp", "src/samplerate.c:src_process", "src/src_sinc.c:prepare_data"]}
{"id": "C58", "title": "src_callback_read is memory safe", "statement": "src_callback_read does nothing undefined: it accesses only the caller's output buffer, the buffers the callback returned and its own state, overflows no integer and fails no assertion. For zero order hold this holds after any history and with any callback; for the sinc converters in the histories in which src_process is safe (C08), where a read in which the callback returned 0 counts as a call that sets end_of_input; for the linear converter the only undefined access that can occur is the read of the frame before the input described in C07. Together with C39 the call then returns a result.", "quantifier": "every history of src_callback_read, src_set_ratio and src_reset calls, every callback with non-overflowing counts, every channel count up to 8355967", "why_tests_cant": "the ranges passed to the converter by the read loop depend on how the sizes of the callback's buffers and of the requests interleave, over an unbounded history", "anchors": ["src/samplerate.c:src_callback_read", "src/samplerate.c:src_process", "src/src_sinc.c:prepare_data", "src/src_zoh.c:zoh_vari_process", "src/src_linear.c:linear_vari_process"]}
{"id": "C59", "title": "An endless callback is never starved", "statement": "While the callback always returns at least one frame, in buffers apart from the output buffer, and the ratio is valid, src_callback_read never returns fewer frames than it was asked for, and src_error then reports no error. With zero order hold and the sinc converters it does return.", "quantifier": "every history of such reads, src_set_ratio and src_reset calls, every sequence of buffer sizes returned by the callback, every sequence of requests and ratios", "why_tests_cant": "requires that no interleaving of buffer sizes, requests and ratio changes makes the read loop stop early, report an error or spin", "anchors": ["src/samplerate.c:src_callback_read", "src/src_sinc.c:prepare_data"]}
{"id": "C60", "title": "src_simple converts a whole signal", "statement": "With proper arguments (input, buffers that do not overlap, valid ratio r) src_simple returns 0 and output frame j is the converter's response to the whole signal, preceded and followed by silence, at the input time j/r (up to j*2^-44 for the rounding of the position); nothing else is written. If room is left, the input has been used (linear: but for at most one frame) and the number of output frames is that of the input times r, up to one output frame (zero order hold, linear: plus r) and rounding; and room for input_frames*r plus one frame (zero order hold, linear: plus r more) is enough for that. Sinc: r >= 1/180; linear: at least three input frames, since with two frames, for example at ratio 10, it reads before the input buffer.", "quantifier": "every signal and length, every ratio, every channel count, every converter with the library's table dimensions", "why_tests_cant": "must hold for every length, ratio and signal; the fault at two frames needs a ratio whose steps sum to just below 1", "anchors": ["src/samplerate.c:src_simple", "src/src_sinc.c", "src/src_zoh.c:zoh_vari_process", "src/src_linear.c:linear_vari_process"]}
{"id": "C61", "title": "The varispeed example plays the file in an endless loop", "statement": "varispeed-play, driven by the ALSA loop of audio_out.c, plays a file that is not empty over and over: every src_callback_read delivers all of its 64 frames, the program neither exits nor touches memory out of bounds, and the frames played are the converter's response to the endlessly repeated file at ratios between 1/2 and 3/2 that follow the sine of the program: the calls of block k (64 frames) all ask for the ratio 1 - 0.5*sin(2*pi*k/20000), the ratio moves within each call linearly from the one reached before towards the one asked for, the first block is played at the ratio of block 0, and in every later block the ratio stays between the last one of the block before and the one of this block. This needs a number of channels that divides 32 and at most 2^30 blocks: with any other number of channels (up to 128) the first round writes past the end of the array of 2048 samples; after 2^30 blocks freq_point * 2 overflows; and with an empty file the input callback never returns.", "quantifier": "every file, every number of rounds, every function in place of sin with values between -1 and 1, sinc converters with the library's table dimensions and zero order hold", "why_tests_cant": "must hold for every file length (the wrap falls anywhere in the buffer) and every number of rounds; the overflow needs days of playing", "anchors": ["examples/varispeed-play.c:src_input_callback", "examples/varispeed-play.c:varispeed_get_data", "examples/audio_out.c:alsa_play", "src/samplerate.c:src_callback_read"]}
{"id": "C62", "title": "No history of calls writes out of bounds, overflows, divides by zero or hangs", "statement": "Whatever the application does with a handle of any converter type - any sequence of src_process, src_set_ratio and src_reset calls, or of src_callback_read, src_set_ratio and src_reset calls with any callbacks, with ratios that are not NaN and less than 2^31 samples of input per call - no call writes outside a buffer, overflows an int, divides by zero, or (src_process) fails to return. The only undefined things that can happen are a read outside a buffer (never with the zero order hold) and a failed assertion in a sinc converter with two or more channels.", "quantifier": "all converter types, channel counts, histories, buffers, ratios, end_of_input flags and callbacks", "why_tests_cant": "a claim about every history, including the ones in which the code does misbehave; tests show the presence of faults, not which kinds of fault are impossible", "anchors": ["src/samplerate.c:src_process", "src/samplerate.c:src_callback_read", "src/src_sinc.c:prepare_data", "src/src_sinc.c:calc_output_multi", "src/src_linear.c:linear_vari_process", "src/src_zoh.c:zoh_vari_process"]}
{"id": "C63", "title": "A build without assertions behaves the same and is memory safe above ratio 1/180", "statement": "Compiling the library with NDEBUG changes nothing an application can see except where the asserting build would have aborted: whatever a history of calls (of either API, on any handle) returns with assertions, it returns without them, and with zero order hold and linear the two builds agree even in their faults. A history on a sinc handle that never asks for a ratio below 1/180 always returns in the build without assertions, with no access outside a buffer, no overflow and no endless loop, although the asserting build can abort (C08). With smaller ratios the only thing that can go wrong is a read outside the converter's own history buffer, in a call that sets end_of_input (or in a callback read, where the end of the input sets it); that can happen.", "quantifier": "all handles, channel counts, histories of calls of either API, buffers, ratios that are not NaN and end_of_input flags", "why_tests_cant": "two builds have to agree on every history, and safety without the assertions as a net has to hold for every sequence of ratios and block sizes", "anchors": ["src/src_sinc.c:int_div_ceil", "src/src_sinc.c:calc_output_single", "src/src_sinc.c:calc_output_multi", "src/src_sinc.c:prepare_data", "src/samplerate.c:src_process", "src/samplerate.c:src_callback_read"]}
{"id": "C64", "title": "Signals made of tones keep their shape when the rate is raised", "statement": "Converting with the fast or the medium sinc converter at a ratio of at least 1 resamples a sum of tones: if the input samples are those of a sum of sinusoids of at most 2 radians per frame (0.63 of half the sampling rate) for the fast converter, 2.6 radians (0.82) for the medium one, every output frame more than 21 (47) frames from the ends of the signal is the value of that same sum of sinusoids at the time of the output frame, with an error of at most 1/10000 (1/30000) of the sum of the amplitudes. Amplitude, frequency and phase of every tone are kept, there is no delay, and an error of the input samples is amplified at most by 2 (2.4).", "quantifier": "all sums of any number of sinusoids with any amplitudes, phases and frequencies up to the limit, all times and ratios of at least 1, constant or varying, all channel counts and histories of calls", "why_tests_cant": "frequencies, phases and times are continuous, and combinations of tones are unbounded; tests measure a few sinusoids at a few ratios", "anchors": ["src/src_sinc.c:calc_output_single", "src/src_sinc.c:calc_output_stereo", "src/src_sinc.c:calc_output_multi", "src/fastest_coeffs.h:fastest_coeffs", "src/mid_qual_coeffs.h:slow_mid_qual_coeffs"]}
{"id": "C65", "title": "Lowering the rate removes what the output cannot represent", "statement": "Converting with the fast or the medium sinc converter at a ratio r of at most 1 does not alias: if the input is a sum of tones none of which lies between 1.999 r (fast) or 2.598 r (medium) radians per frame and 1.001 times half the rate of the output (pi r radians per input frame), every output frame more than 21/r (47/r) frames from the ends of the signal is the sum of the lower tones alone, at the time of the output frame, with an error of at most 1/4000 + 1/(1000000 r) (1/1700 + 1/(1000000 r)) of the sum of the amplitudes. The lower tones keep amplitude, frequency and phase; the tones above half the output rate vanish and do not fold back. An error of the input samples is amplified at most by 5.4 (7.1).", "quantifier": "all sums of any number of sinusoids with any amplitudes, phases and frequencies outside the transition band, all times, all channel counts and all histories of calls whose ratios do not drop between resets, for every output frame at a ratio from 1/256 to 1", "why_tests_cant": "frequencies, phases, ratios and times are continuous, and combinations of tones are unbounded; tests measure the aliases of a few sinusoids at a few ratios", "anchors": ["src/src_sinc.c:calc_output_single", "src/src_sinc.c:calc_output_stereo", "src/src_sinc.c:calc_output_multi", "src/src_sinc.c:sinc_multichan_vari_process", "src/fastest_coeffs.h:fastest_coeffs", "src/mid_qual_coeffs.h:slow_mid_qual_coeffs"]}
{"id": "C66", "title": "A disturbance of the input is heard only near it", "statement": "An output sample depends only on the input samples near its time in the same channel. If two histories of calls bring two streams with the same ratios, and the streams agree in a channel on the frames within the reach of the filter around the input time of an output frame (zero order hold and linear: within one frame), this output sample is the same in both, bit by bit. In particular a NaN, an infinity or a click in the input is heard only within the reach of the filter, and what comes later in the stream, or that nothing comes, makes no difference before.", "quantifier": "all pairs of streams and of histories of calls, cut in any way, with the same ratios up to this output frame; for sinc frames at ratios below 1, histories that do not lower the ratio between resets", "why_tests_cant": "the streams are arbitrary outside the window, including non-finite values, and the histories are unbounded; a test compares a few signals", "anchors": ["src/src_sinc.c:calc_output_single", "src/src_sinc.c:calc_output_stereo", "src/src_sinc.c:calc_output_multi", "src/src_sinc.c:prepare_data", "src/src_linear.c:linear_vari_process", "src/src_zoh.c:zoh_vari_process"]}
{"id": "C67", "title": "Zero order hold and linear follow smooth signals", "statement": "If the input samples near the read position are those of a signal g, up to an error eta, the output of the zero order hold converter is the value of g one input frame before the time of the output frame, up to M + eta where M bounds the change of g per frame; the output of the linear converter is this value up to M/8 + eta and rounding, where M bounds the change of the slope of g per frame. At a constant ratio r the time of output frame j is j/r up to j/2^44.", "quantifier": "all signals with bounded slope (bounded change of slope), all streams, channel counts and histories of calls with any valid ratios", "why_tests_cant": "signals, ratios and histories are unbounded; tests compare a few sinusoids", "anchors": ["src/src_linear.c:linear_vari_process", "src/src_zoh.c:zoh_vari_process"]}
{"id": "C68", "title": "src_simple turns a recording into a recording at the new rate", "statement": "One call of src_simple with proper arguments and enough room returns 0, uses the input and produces the ratio times its frames, up to one frame (zero order hold and linear: one frame and the ratio) and rounding. If a channel of the input buffer is a recording of a sum of tones below 2 (fast) or 2.6 (medium) radians per frame and the ratio r is at least 1, output frame j is the value of the same tones at time j/r, up to 1/10000 (1/30000) of the sum of the amplitudes, 2 (2.4) times the error of the recording and the rounding of the clock, at least 22 (48) frames from both ends. At ratios from 1/180 to 1 it is the value of the tones below 1.999 r (2.598 r) if no tone lies between that and 1.001 pi r: those above vanish. Zero order hold and linear give the value of the recorded signal one input frame earlier, up to its slope (an eighth of its bend).", "quantifier": "all input buffers with at most 2^31 samples, all channel counts, all valid ratios (sinc: from 1/180), all recorded signals of these classes, every output frame away from the ends", "why_tests_cant": "signals and ratios are continuous and buffers unbounded; tests convert a few sinusoids", "anchors": ["src/samplerate.c:src_simple", "src/samplerate.c:src_process", "src/src_sinc.c:sinc_multichan_vari_process", "src/src_linear.c:linear_vari_process", "src/src_zoh.c:zoh_vari_process", "src/fastest_coeffs.h:fastest_coeffs", "src/mid_qual_coeffs.h:slow_mid_qual_coeffs"]}
{"id": "C69", "title": "Signals read through the callback API", "statement": "If the callback hands out the samples of a sum of tones, in buffers of any sizes, output frame j of a sequence of src_callback_read calls of any sizes at the constant ratio r is the value of the same tones at the time j/r, up to rounding of the clock (j / 2^44 input frames) and with the accuracy of C64 (ratio at least 1) or C65 (ratio at most 1: the tones above the new band vanish). With zero order hold and linear it is the value of the signal one input frame earlier, as in C67.", "quantifier": "all buffer sizes of the callback, all read sizes, all constant ratios, all signals of these classes, every output frame away from the start and the end", "why_tests_cant": "signals and ratios are continuous, and borders of the callback's buffers can meet borders of reads anywhere", "anchors": ["src/samplerate.c:src_callback_read", "src/samplerate.c:src_callback_new", "src/src_sinc.c:sinc_mono_vari_process", "src/src_sinc.c:sinc_multichan_vari_process", "src/src_linear.c:linear_vari_process", "src/src_zoh.c:zoh_vari_process", "src/fastest_coeffs.h:fastest_coeffs", "src/mid_qual_coeffs.h:slow_mid_qual_coeffs"]}
{"id": "C70", "title": "The bandwidth of the descriptions is true", "statement": "src_get_description promises a bandwidth of 80% for the fast and 90% for the medium sinc converter, the part of the band that loses less than 3 dB (docs/quality.md). There is a gain that depends only on the converter and on the frequency of a tone, never above 1, at least 0.70795 up to 0.8 (0.9) of half the sampling rate and exactly 1 up to 2 (2.6) radians per frame, such that at ratios of at least 1 a sum of tones in this band comes out, at the times of the output frames, as the same tones with their amplitudes multiplied by their gains: the error is at most 1/9000 (1/29000) of the sum of the amplitudes. Frequencies and phases are kept, and the gain depends neither on the ratio nor on the position nor on what else sounds.", "quantifier": "all sums of any number of sinusoids with any amplitudes, phases and frequencies up to the band edge, all times and ratios of at least 1, constant or varying, all channel counts and histories of calls", "why_tests_cant": "frequencies, phases and times are continuous; the bandwidth test of the project searches one ratio with one phase", "anchors": ["src/src_sinc.c:sinc_get_description", "src/src_sinc.c:calc_output_single", "src/src_sinc.c:calc_output_stereo", "src/src_sinc.c:calc_output_multi", "src/fastest_coeffs.h:fastest_coeffs", "src/mid_qual_coeffs.h:slow_mid_qual_coeffs"]}
{"id": "C71", "title": "The frequency response is the same at every ratio", "statement": "For the fast and the medium sinc converter there is one gain curve, from 0 to 1, equal to 1 up to 2 (2.6), at least 0.70795 up to 0.8 pi (0.9 pi) and equal to 0 from 1.001 pi on, such that at every ratio a sum of tones of any frequencies up to half the input rate comes out as the same tones, sampled at the times of the output frames, each multiplied by the value of this curve at its frequency relative to the lower of the two sampling rates (omega / min(1, ratio)). There are no other components: no aliases, no images, also for tones in the transition band that C65 leaves out. The error is at most loudness (1/3400 + 9/(1000000 min(1, ratio))) (1/1700 and 6) plus 5.4 (7.1) times the error of the input samples. The same holds for the frames read with src_callback_read at any constant ratio from 1/256 to 256, in requests and from callback buffers of any sizes.", "quantifier": "all sums of any number of sinusoids with any amplitudes, phases and frequencies up to half the input rate, all ratios from 1/256 to 256, constant or varying without dropping, all times, channel counts and histories of calls", "why_tests_cant": "frequencies, phases, times and ratios are continuous; a test sees single points of the response at single ratios", "anchors": ["src/src_sinc.c:calc_output_single", "src/src_sinc.c:calc_output_stereo", "src/src_sinc.c:calc_output_multi", "src/src_sinc.c:sinc_mono_vari_process", "src/fastest_coeffs.h:fastest_coeffs", "src/mid_qual_coeffs.h:slow_mid_qual_coeffs"]}
{"id": "C72", "title": "16 bit audio survives the trip through the converter", "statement": "A program that converts 16 bit audio with src_short_to_float_array, src_simple and src_float_to_short_array gives 16 bit audio that is right to a few units. With the zero order hold converter every output short is, unchanged, an input short of the same channel, from at most one frame away from the place one frame before the output time; at ratio 1 zero order hold and linear (at least three frames) give the input delayed by one frame bit for bit. If the shorts are the rounded values of tones within full scale, the fast (medium) sinc converter gives shorts within 5 (3) units of the exact value of the same tones at the new times for ratios of at least 1, and within 12 (24) + 1/(30 ratio) units of the tones that the new rate can represent for ratios from 1/180 to 1, away from the ends and up to the rounding of the clock.", "quantifier": "all arrays of shorts, channel counts, lengths, ratios, and, for sinc, all sums of tones of loudness up to full scale with any frequencies (outside the transition band), amplitudes and phases", "why_tests_cant": "2^(16 n) arrays and a continuum of ratios and tones; clipping at full scale and rounding both ways interact with the conversion", "anchors": ["src/samplerate.c:src_short_to_float_array", "src/samplerate.c:src_float_to_short_array", "src/samplerate.c:src_simple", "src/src_zoh.c:zoh_vari_process", "src/src_linear.c:linear_vari_process", "src/src_sinc.c:calc_output_stereo"]}
{"id": "C73", "title": "Two conversions in a row are one conversion at the product of the ratios", "statement": "A recording of tones converted by src_simple with the fast (medium) sinc converter at a ratio r1 of at least 1, all of whose output is converted by src_simple at a ratio r2 from 1/180 to 1, is a recording of the same tones at the ratio r1 r2, provided no tone is above 2 (2.6) radians per input frame nor above 1.999 (2.598) radians per frame of the last rate: frame j is the signal at time j / (r1 r2), with an error of at most 8/10000 (9/10000) + 1/(1000000 r2) of the loudness, 11 (18) times the error of the recording and the rounding of the clocks, away from the ends. In particular converting up and back again (r1 r2 = 1) gives the recording back, frame by frame, with no delay. The same holds for any two ratios from 1/180 to 256, up, down or mixed, for tones up to 1.999 (2.598) radians per frame of the lowest of the three rates, with an error of at most 16/10000 (48/10000) + 5.4 (7.1)/(1000000 min(1, r1)) + 1/(1000000 min(1, r2)) of the loudness and 30 (51) times the error of the recording.", "quantifier": "all sums of tones in the band, all pairs of ratios from 1/180 to 256, all lengths, channel counts and buffers", "why_tests_cant": "two continuous ratios, continuous frequencies and phases; a test converts there and back for a few literals", "anchors": ["src/samplerate.c:src_simple", "src/samplerate.c:src_process", "src/src_sinc.c:sinc_stereo_vari_process", "src/src_sinc.c:calc_output_stereo", "src/fastest_coeffs.h:fastest_coeffs", "src/mid_qual_coeffs.h:slow_mid_qual_coeffs"]}
{"id": "C74", "title": "The time warp program plays a recording at varying speed", "statement": "Given a file that is a recording of tones, the example program timewarp-file writes a file of the same tones at varying speed: frame j of its output is the signal at a time tau(j), up to 1/10000 (fast) or 1/30000 (medium, the default) of the loudness and 2 (2.4) times the error of the recording, where tau(0) = 0, successive times are between 2/3 of a frame and one frame apart and all lie within the input file. It ends, and its output has between 1 and 1.5 frames per input frame.", "quantifier": "all input files (lengths, samples), all channel counts from 1 to 128, all sums of tones up to 2 (2.6) radians per frame with any amplitudes and phases, all output frames more than 21 (47) frames from the ends of the input", "why_tests_cant": "files of any length and content; the program changes the ratio between and within calls, while buffers of 8 input frames move along the file", "anchors": ["examples/timewarp-file.c:timewarp_convert", "src/samplerate.c:src_process", "src/src_sinc.c:sinc_stereo_vari_process", "src/fastest_coeffs.h:fastest_coeffs", "src/mid_qual_coeffs.h:slow_mid_qual_coeffs"]}
{"id": "C75", "title": "32 bit audio survives the trip through the converter", "statement": "A program that converts 32 bit audio with src_int_to_float_array, src_simple and src_float_to_int_array: with zero order hold each output int is within 64 of an input int of the same channel, and equal to it if that is at most 2^24 in size; at ratio 1, zero order hold and linear (at least three frames) give the input delayed by one frame with the same accuracy. If the ints are the rounded values of tones within full scale, the fast (medium) sinc converter gives at every ratio from 1/180 to 256 ints that, divided by 2^31, are within 1/4000 (1/1700) + 1/(1000000 min(1, ratio)) of the loudness, 2^-21 and the rounding of the clock of the same tones at the new times, away from the ends; full scale does not wrap around.", "quantifier": "all arrays of ints, channel counts, lengths, ratios, and, for sinc, all sums of tones of loudness up to full scale and frequencies up to 1.999 (2.598) radians per frame of the lower rate; builds with either value of CPU_CLIPS_NEGATIVE and CPU_CLIPS_POSITIVE off", "why_tests_cant": "2^(32 n) arrays and a continuum of ratios and tones; rounding to 24 bits and clipping at full scale interact with the conversion", "anchors": ["src/samplerate.c:src_int_to_float_array", "src/samplerate.c:src_float_to_int_array", "src/samplerate.c:src_simple", "src/src_zoh.c:zoh_vari_process", "src/src_linear.c:linear_vari_process", "src/src_sinc.c:calc_output_stereo"]}
{"id": "C76", "title": "At power of two ratios the clock does not drift", "statement": "With the ratio held at a power of two from 1/256 to 256, output frame j is the converter's value at the input time j / ratio exactly, for every j, with no accumulated rounding: for zero order hold and linear the held or interpolated sample, for sinc the filter's response.", "quantifier": "all streams, block sizes, numbers of output frames, channel counts, all five converters, the 17 powers of two", "why_tests_cant": "the drift at other ratios appears only after very many frames; no test can run through all frame numbers", "anchors": ["src/src_zoh.c:zoh_vari_process", "src/src_linear.c:linear_vari_process", "src/src_sinc.c:sinc_mono_vari_process", "src/common.h:fmod_one"]}
{"id": "C77", "title": "A shifted input gives the shifted output, bit by bit", "statement": "At a power of two ratio, if the input of one stream around a time is the input of another stream N frames later, and N times the ratio is a whole number, then the output frames at those times are equal bit for bit, whatever the buffer sizes and the rest of the two streams. In particular, putting N frames of silence before a stream delays the output of a sinc converter by N times the ratio frames and changes nothing else.", "quantifier": "all pairs of streams, shifts, ratios that are powers of two, schedules of calls and block sizes, channels, converters", "why_tests_cant": "a relation between two runs of any length with independent schedules", "anchors": ["src/src_zoh.c:zoh_vari_process", "src/src_linear.c:linear_vari_process", "src/src_sinc.c:sinc_mono_vari_process", "src/src_sinc.c:calc_output_single"]}
{"id": "C78", "title": "The player delivers its frames to the ALSA device", "statement": "The frames that an ALSA device accepts in a call of alsa_write_float are the first ones of the block, in order, each once, whatever the device answers; the function returns the size of the block exactly when all of them have been accepted, and never overflows its count of underruns. If the device works - it may accept any number of frames, ask for another try, and run out of data at most once in 101 blocks - varispeed-play delivers exactly the frames that it has converted. If the device underruns three times in a row the block is lost.", "quantifier": "all devices (any function of the history of calls), blocks, files, channel counts that divide 32, numbers of blocks", "why_tests_cant": "the answers of a device are not under a test's control; all histories of partial writes, retries and underruns", "anchors": ["examples/audio_out.c:alsa_write_float", "examples/audio_out.c:alsa_play", "examples/varispeed-play.c:varispeed_play"]}
{"id": "C79", "title": "What OSS and Solaris devices play", "statement": "On OSS and Solaris the example player passes all samples of each block to the device in order. A sample within full scale becomes the integer nearest to 32767 times its value. A sample beyond full scale is not limited: it changes its sign, so that overshoot becomes a click at full scale.", "quantifier": "all blocks of up to 2048 samples, all float values up to twice full scale", "why_tests_cant": "2^32 values per sample", "anchors": ["examples/audio_out.c:opensoundsys_play", "examples/audio_out.c:solaris_play"]}
{"id": "C80", "title": "What Windows devices play", "statement": "On Windows the example player converts only as many samples as there are frames in a block. A mono file is played completely; with two channels the second half of each block played is the old contents of the buffer; with more channels only the first 1/channels of each block is played.", "quantifier": "all blocks, all channel counts from 1 to 4096, all contents of the buffer", "why_tests_cant": "all channel counts and block contents; the code is compiled only on Windows", "anchors": ["examples/audio_out.c:win32_audio_out_callback"]}
{"id": "C81", "title": "NULL pointers are answered", "statement": "With a NULL handle every function of the interface answers without touching memory: src_process, src_set_ratio, src_reset and src_clone report SRC_ERR_BAD_STATE, src_callback_read returns 0 without calling the callback, src_error returns 0, src_get_channels returns -SRC_ERR_BAD_STATE, src_delete does nothing. A NULL callback is refused with SRC_ERR_BAD_CALLBACK and a NULL SRC_DATA by src_process with SRC_ERR_BAD_DATA, in every state of the handle. The exception is src_simple, which dereferences a NULL SRC_DATA whenever a converter can be created.", "quantifier": "every heap, every allocator, every other argument, every history of the handle", "why_tests_cant": "every combination of the other arguments and of the state of the heap", "anchors": ["src/samplerate.c:src_clone,src_callback_new,src_delete,src_process,src_callback_read,src_set_ratio,src_get_channels,src_reset,src_error,src_simple"]}
{"id": "C82", "title": "What Mac OS X devices play", "statement": "A block for which all frames were supplied is played unchanged; with the device buffer of the example the varispeed player delivers exactly the frames it delivers on any other system, in order, and playing never ends. After a block of which only k of F frames were supplied playing ends; in mono it is played followed by silence, but with several channels the silence is put after k samples instead of k frames, overwriting sound and leaving stale samples at the end.", "quantifier": "every block, buffer address, channel count and number of frames supplied; every converter, file and number of rounds", "why_tests_cant": "only short blocks of every possible length with several channels show where the silence goes", "anchors": ["examples/audio_out.c:macosx_audio_out_callback", "examples/varispeed-play.c:varispeed_get_data"]}
{"id": "C83", "title": "Volume before or after the conversion", "statement": "If every sample of a stream is multiplied by a power of two (or minus a power of two) and the stream is converted with the same calls, every output sample that stays finite is multiplied by exactly this factor, bit by bit; only output samples in the range of subnormal floats (below 2^-126) may differ, by no more than the factor times 2^-149. The same holds inside one stream for two channels of which one carries the other, louder, whatever the history of ratios.", "quantifier": "all streams of finite samples, factors, channel counts, chunkings and ratio histories (across streams, sinc: ratios that do not fall, or of at least 1); any filter coefficients", "why_tests_cant": "no rounding in the whole computation, with hundreds of products for every sample, may depend on the magnitude; a test covers a few magnitudes", "anchors": ["src/src_zoh.c:zoh_vari_process", "src/src_linear.c:linear_vari_process", "src/src_sinc.c:calc_output_single,calc_output_stereo,calc_output_multi"]}
{"id": "C84", "title": "The number and order of channels do not matter", "statement": "At a constant ratio a channel is converted to the same samples, bit by bit, whatever the number of channels of the stream it is part of, its place among them and the way the stream is cut into calls, as far as both outputs go: the separate code for one, two, four, six and other numbers of channels does the same. Putting the channels of the input in another order puts those of the output in the same order, at any ratios.", "quantifier": "every converter, pair of channel counts, pair of places, stream and chunking; every ratio (order of channels: every history of ratios, sinc: ratios that do not fall, or of at least 1)", "why_tests_cant": "all pairs of channel counts, positions, chunkings and inputs", "anchors": ["src/src_sinc.c:sinc_mono_vari_process,sinc_stereo_vari_process,sinc_quad_vari_process,sinc_hex_vari_process,sinc_multichan_vari_process", "src/src_zoh.c:zoh_vari_process", "src/src_linear.c:linear_vari_process"]}
{"id": "C85", "title": "The callback gets the user's pointer", "statement": "On a handle from src_callback_new (func, ..., cb_data), in every history of calls (reads, resets, ratio changes, rejected calls), src_callback_read invokes func and no other function, and always passes cb_data; what the program does with other handles does not change this.", "quantifier": "every history on a callback handle, every program with any number of other handles, every callback function that looks at its pointer", "why_tests_cant": "the pointers must survive every sequence of resets, errors, mode changes inside src_callback_read and calls on other handles", "anchors": ["src/samplerate.c:src_callback_new,src_callback_read,src_reset"]}
{"id": "C86", "title": "Threads with their own handles and buffers do not disturb each other", "statement": "In a program with any number of threads, each with its own handles and its own part of the memory, each thread is told by its calls (return values, frame counts, errors) what it would be told if it ran alone, and finds the same samples in its part of the memory, in whatever order the threads get their turns; and no order of turns makes a call fail that would not fail in a thread that runs alone.", "quantifier": "every number of threads and handles, every converter and channel count, every program of calls and other computations, every schedule of the calls", "why_tests_cant": "all schedules", "anchors": ["src/samplerate.c:src_process,src_set_ratio,src_reset"]}
{"id": "C87", "title": "Rising input gives rising output", "statement": "If no sample of a channel is below the one before it, then no output sample that the zero order hold or the linear converter gives for that channel is below an earlier one; the same for falling input. So a fade or a control curve has no dips or bumps after conversion, not even of one rounding step.", "quantifier": "every handle of the two types, channel count, stream of finite samples, cutting of the stream into calls, sequence of ratios including changes within a stream, and pair of output frames", "why_tests_cant": "each output sample is rounded three times on its way; whether some pair of neighbours, at some of 2^62 positions, comes out in the wrong order cannot be sampled", "anchors": ["src/src_linear.c:linear_vari_process", "src/src_zoh.c:zoh_vari_process", "include/samplerate.h:src_process"]}
{"id": "C88", "title": "A loop stays a loop", "statement": "At a constant ratio that is a power of two, while the input of a channel repeats with a period of N frames the output of that channel repeats with a period of N times the ratio, bit by bit, as soon as the frames that an output frame depends on lie within the part that repeats; there is no drift between the loop and the converted loop, however long it plays.", "quantifier": "every converter, handle, channel count, power of two ratio, period, stream, cutting of the stream into calls, and output frame", "why_tests_cant": "an error of one rounding step in each of the advances of the read position would show only after a number of frames that no test plays", "anchors": ["src/src_sinc.c", "src/src_linear.c:linear_vari_process", "src/src_zoh.c:zoh_vari_process", "src/common.h:fmod_one", "include/samplerate.h:src_process"]}
{"id": "C89", "title": "The three interfaces give the same output", "statement": "At one ratio, src_simple on a recording, any sequence of src_process calls that feeds the same recording piece by piece, and any sequence of src_callback_read calls on a callback that hands it out piece by piece all give the same output frames, bit by bit, as far as each of them goes.", "quantifier": "every converter, channel count, recording, valid ratio (sinc: at least 1/180), cutting of the input and of the output into calls, and sizes of the pieces the callback hands out", "why_tests_cant": "the number of ways to cut a recording grows exponentially with its length, and the interfaces share state across calls", "anchors": ["src/samplerate.c:src_simple", "src/samplerate.c:src_process", "src/samplerate.c:src_callback_read"]}
{"id": "C90", "title": "Cutting a recording differently changes the length of the output by at most one frame", "statement": "Two complete conversions of the same recording at the same constant ratio give the same number of output frames or numbers that differ by one, however the recording is cut into src_process calls. For the sinc converters (any two of them, same number of channels, ratio at least 1/180) a conversion is complete when its last call was told the end of the input and had more room than it used. For zero order hold and linear it is complete when the last call presented the rest of the frames and had more room than it used; the two may differ in converter and number of channels too.", "quantifier": "every pair of sinc converters or pair of interpolating converters, channel count, recording, ratio (sinc: at least 1/180), and pair of ways of cutting input (interpolating: at most 2^40 samples a call) and output into calls", "why_tests_cant": "the test that ends the output compares rounded positions in the internal buffer, which depend on every earlier call; the number of ways to cut a recording grows exponentially with its length", "anchors": ["src/src_sinc.c:sinc_mono_vari_process", "src/src_sinc.c:sinc_multichan_vari_process", "src/src_sinc.c:prepare_data", "src/src_zoh.c:zoh_vari_process", "src/src_linear.c:linear_vari_process"]}
