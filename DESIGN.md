# Formal model of libsamplerate in Lean 4: design

The subject is the library itself: `include/samplerate.h` and `src/*.{c,h}` of the pinned checkout in `/repo`.
Everything below is about *all* inputs, states and call histories; no theorem carries a bound on the number of calls,
frames, channels or loop steps other than the explicit size hypotheses listed under "Standing hypotheses".

## 1. Layers

1. `Verif/Float/*` — IEEE-754 binary32/binary64 with round-to-nearest-even, as exact rationals plus infinities and NaN
   (`Fl f`), with the rounding lemmas (monotone, exact on representables, error bounds).  No Lean `Float` is used.
2. `Verif/Model/*` — transliteration of the C code, function by function; every definition cites file and lines.
   Undefined behaviour (out-of-bounds access, signed overflow, division by zero, failed `assert`, NULL dereference, use
   after free, double free) is an outcome `Fault`/`HFault`, never a default value.  Loops carry fuel; running out is the
   fault `outOfFuel`, so "terminates" is a theorem and not an assumption.
3. `Verif/Spec/*` — small specifications that do not use the model's loops: the position recurrence, ideal output of each
   converter at a point in time, argument checks, call histories (`Op`, `Obs`, `run`), feeding a stream in chunks (`Fed`,
   `FedTo`), correct programs on a heap (`Correct`), sessions of the callback API, rounding and clipping.
4. `Verif/Proof/*` — lemmas.  `Verif/Props/*` — the theorems named in `MANIFEST.json`, each followed by a non-vacuity
   example (a concrete case that meets the hypotheses) and, where the code violates the plain statement, by a witness.

`Verif/Props/Findings.lean` and the `C.._nan`, `.._huge`, `.._one_frame`, ... theorems evaluate the model on one concrete
call by kernel reduction; they are refutations of a universal claim (one counterexample suffices), never support for one.

## 2. Trusted base

* The Lean 4.33 kernel.  Every theorem depends on at most the axioms `propext`, `Classical.choice`, `Quot.sound`; there is no
  `sorry`, `admit`, `native_decide`, `bv_decide` or axiom of our own.  (`vcheck` and `#print axioms` confirm this.)
* The reading of the C code: the model is written by hand from the text; nothing ties it to a compiler.
* Platform choices: LP64 (int 32 bit, long 64 bit), two's complement wrap-around only where C converts (`(int) long`, cast to
  short), IEEE-754 with FLT_EVAL_METHOD 0, default rounding mode, no FMA contraction, `psf_lrint`/`psf_lrintf` = SSE2
  `cvtsd2si`/`cvtss2si` truncated to int (out of range or NaN gives INT_MIN), `assert` enabled,
  `CPU_CLIPS_POSITIVE = CPU_CLIPS_NEGATIVE = 0` where the property says so.
* Mathlib, for ordinary mathematics, through the kernel.

### Simplifications in the model (also stated at the definitions)

* All NaNs are one value; +0 and −0 are one value.  Claims about payloads or the sign of zero are out of reach.
* Memory seen by a call (`Mem`) is a function from sample addresses to floats; `data_in`/`data_out` are addresses (0 = NULL), accesses
  are checked against the ranges the caller declared.  Pointers that do not come from the caller live in `Model/Heap.lean`.
* On the heap, a handle's operation is load whole state → pure operation → store whole state; allocation, copying, freeing and every
  pointer between blocks are explicit.  `calloc`/`malloc` are an arbitrary oracle (`Alloc`), which may refuse any request.
* The five unrolled sinc loops (mono, stereo, quad, hex, multi) are one definition with a `SincVariant` record listing every
  point where the five C functions differ (width, accumulator capacity, assertions, `>` or `>=`).
* The callback of `src_callback_new` is an arbitrary function of user data, call number and memory, which may rewrite memory.
* Coefficient tables: `Model/Coeffs*.lean` (generated from the two headers in the checkout).  Most theorems hold for any table with the
  dimensions of the library (`LibraryTables`); claims about sizes use `|c| ≤ 1` (`TablesWithin`), which is proved for the two real tables.

### What is modelled

| file | functions |
|------|-----------|
| `samplerate.c` | `src_new`, `src_clone`, `src_callback_new`, `src_delete`, `src_process`, `src_callback_read`, `src_set_ratio`, `src_get_channels`, `src_reset`, `src_get_name`, `src_get_description`, `src_is_valid_ratio`, `src_error`, `src_strerror`, `src_simple`, the four array conversions, `psrc_set_converter` |
| `src_zoh.c`, `src_linear.c` | all functions |
| `src_sinc.c` | all functions |
| `common.h` | error codes, `is_bad_src_ratio`, `psf_lrint(f)`, `fmod_one`, structures |
| `src_sinc.c` built with `NDEBUG` | `int_div_ceil`, `calc_output_*`, `*_vari_process` again without their assertions, and the calls that lead there (`Model/Release.lean`) |
| `fastest_coeffs.h`, `mid_qual_coeffs.h` | all entries |
| `examples/timewarp-file.c` | `timewarp_convert` and its table; libsndfile's `sf_readf_float`/`sf_writef_float` are an abstract file: a list of frames read in order, appended in order, never failing |
| `examples/varispeed-play.c`, `examples/audio_out.c` (`alsa_play`) | `src_input_callback`, `varispeed_get_data`, `varispeed_play` and the loop that plays; `sin` is a parameter with values in [-1, 1]; the file is seekable |
| `examples/audio_out.c` (`alsa_write_float`, `opensoundsys_play`, `solaris_play`, `win32_audio_out_callback`, `macosx_audio_out_callback`) | the loop that hands a block to an ALSA device, the device being any function of the calls it has received; the conversion to 16 bits and the block that is passed on, for OSS, Solaris and Windows; the padding of a short block, and the loop over blocks, for Mac OS X |

Not modelled: `src_get_version` (a constant string from the build), `high_qual_coeffs.h` (not in the checkout: the best quality converter
is modelled for any table with its documented dimensions 2381/340239), opening and closing of devices in `audio_out.c`, `tests/`, build files, concurrency inside
one handle (the documentation forbids it; C86 is about threads with handles of their own), the fixed assembler variants of `lrint`.

### Standing hypotheses

* `LibraryTables`: table increments and lengths are the ones in the headers.
* Buffers of at most 2^52 (2^53) samples; sinc: fewer than 2^31 input samples per call, because the code casts to int
  (`C10_sinc_huge`, `C49_huge` show what happens beyond); at most 8355967 channels for zero order hold and linear.
* Ratios are not NaN: the library accepts NaN (`C01_nan_accepted`) and then misbehaves (`C04_nan`, `C08_nan`).
* Theorems about what a history *produces* speak of histories that return (no fault); theorems C06–C08 say when there is no fault and C09/C39
  when calls end.  Internally the sinc invariant has a strong form (kept by calls that are safe) and a weak form (what any
  call that returned must have kept); the parameter `sg` in `Proof/SincStep` ... `Proof/SincStream` switches between them.

## 3. Per property

| id | statement lives in | method |
|----|--------------------|--------|
| C01 | `Props/Callback`, `Props/Api` | case split over doubles; every entry point that takes a ratio; NaN accepted: finding |
| C02, C03, C35, C45 | `Props/Api`, `Props/History` | independent relation `FirstFailing`, `Clash`; case analysis and induction over histories |
| C04, C05, C10 | `Props/All` | `WellBehaved` for every operation of every history; loop invariants per converter |
| C06, C07 | `Props/Interp`, `Props/LinearFault` | loop invariant: every access lies in the declared ranges; linear reads before the buffer for short inputs, so C07 is partial |
| C08 | `Props/Sinc` | invariant over `b_current`, `b_end`, history length; false in general (ratio drop below 1/180 before end of input, ratio drop after it), so partial; `C08_faults` (`Props/SincFault`): for arbitrary histories the invariant without the guard against drops (`SAny`); every step then succeeds or has one of two faults (`Tame`) |
| C09 | `Props/Terminate` | measure on loops; bound on fuel for every reachable state |
| C11, C12, C44 | `Props/Stream`, `Props/Sinc` | IEEE argument for the ratio formula; stream theorem |
| C13, C14, C15, C32, C33, C34 | `Props/History`, `Props/Heap` | heap with arbitrary allocator; frame and separation lemmas; simulation between a handle in a heap and the handle alone; induction over programs |
| C16, C17, C42 | `Props/All` | two-run (relational) invariants (`Twin`) |
| C18–C21, C23, C43 | `Props/Stream`, `Props/Interp` | refinement: outputs of all calls = ideal converter sampled at the position recurrence |
| C22, C24, C46–C49 | `Props/Sinc` | refinement of the circular buffer to the input stream; outputs = ideal filter (`sincIdeal`) at the position recurrence |
| C25–C28 | `Props/Convert` | rounding lemmas, induction over arrays |
| C29–C31 | `Props/Api`, `Props/Heap` | case analysis over all integers |
| C36–C40 | `Props/Callback`, `Props/Terminate` | refinement of `src_callback_read` to sessions of `src_process` and callbacks (`Explained`, `Session`) |
| C41, C50 | `Props/Level` | magnitude invariant over all histories |
| C51 | `Props/Filter` | exact filter `exactIdeal` in `Spec/Filter`; error analysis of the tap sums (coefficients, accumulation, scaling, final rounding), on top of the stream theorem C24 |
| C52, C53 | `Props/Filter` | real coefficient tables: kernel-computed sums per phase of the table (`Proof/Table*`) lifted to all positions, amplitudes, streams and histories |
| C54 | `Props/Glide` | the ratio of every output frame computed explicitly along the history (`ratiosFrom`), compared with the exact schedule `Glides` |
| C55 | `Props/Mix` | each converter is within a bound of an exact linear functional of the stream (`exactLinear`, `exactIdeal`) at a time fixed by the schedule; the schedules of runs with the same calls agree (C17) |
| C56 | `Props/Duration` | the time of frame G is the sum of the reciprocal ratios (up to rounding), each within [1/b, 1/a]; why a call with room left stops (`Stopped`, `track_call`) bounds that time by the end of the input. Sinc: ratios of at least 1, for which the reach of the filter does not change (`SameReach`). `Props/Lag`: any ratios before the end of input; the reach is monotone in the ratio |
| C57 | `Props/Timewarp` | invariant of the program's loop (`TwInv`) relating the arrays, the file position and the history of calls made so far; C46/C56 give termination and the duration, C24 the samples |
| C58 | `Props/CallbackSafe` | the read loop as a history of `src_process` calls (`Held`, C36); faults of one iteration are faults of the core, excluded by C06 / C08; for linear a witness (`C58_linear_fault`) shows that the remaining fault occurs |
| C59 | `Props/Endless` | invariant of the read loop: saved input lies in the callback's buffers, the output position is behind the frames generated, so no argument check can fail (C02); counts by C36, return by C58 and C39 |
| C60 | `Props/Simple` | one call on a new handle: C08 / C06 / C07 give success, C24 the samples, C48 / C23 the counts; `C34_value` carries the result to the heap model |
| C61 | `Props/Varispeed`, `Props/Speed` | loop invariant of the input callback (the buffer holds the repeated file from the position on); invariant between reads (`VsInv`): the history of reads so far hands out the repeated file, the callback's buffer is intact; C59 gives each read, C38 and C24 the samples; for the speed, the reads are matched with their block numbers and C54 is cut at the block boundaries; `Props/TrueSine` compares the ratios with the sine of the reals |
| C62 | `Props/CallbackFault` | C06 / C07_faults / C08_faults together; for reads, the invariant of an arbitrary history (`SWild`) through the read loop |
| C63 | `Props/Release`, `Props/ReleaseRead` | `Model/Release.lean` repeats the functions that contain assertions, without them; a simulation (`Le`: whatever one returns the other returns) gives equality of results; the weak sinc invariant (`SAny`) through the loops without assertions gives memory safety |
| C64 | `Props/Sine` | the filter at every phase of the table is evaluated by the kernel on complex exponentials of 513 (fast) and 1665 (medium) frequencies, in integer arithmetic with an error analysis (`Proof/SineNum`, `SineTable`, `SineDouble`, `SineCheck`; the sums of all phases are digits of one large number); convexity and the second moment of the table give all frequencies in between (`SineWave`, `SineMoment`), interpolation between table entries all positions (`SineFilter`), linearity all sums of tones, and C24 / C51 all histories |
| C65 | `Props/Alias` | at a ratio below 1 the taps of the filter are not a whole number of table steps apart, so no finite set of phases decides it. The interpolated table is a sum of hat functions (`Proof/AliasHat`); Poisson summation (Mathlib's, for functions that decay) turns the sum over the taps into the transform of that function at the tone's frequency plus all multiples of the tap rate (`AliasSum`). Its transform is the cosine sum of the second differences of the table divided by the square of the frequency, so the sum over all images converges (`AliasBound`); the kernel evaluates these cosine sums, for all images at once, on a grid of frequencies, and the second moment gives the points in between (`AliasTable`, `AliasFastest`, `AliasMid`, `AliasGrid`). `AliasTap` and `AliasFilter` bring in the rounding of the positions to 1/4096, the two halves of the filter and its ends; linearity, C24 and C51 give sums of tones and all histories |
| C66 | `Props/Local` | by C24 each output frame is a function of the stream, the ratio and the time; `sincAt_local` and `idealAt_local` show that this function reads only the frames under the filter |
| C67 | `Props/Smooth` | C24 gives the samples, `time_at_ratio` the clock; `Proof/Chord`: `g` plus and minus a parabola is convex, so a chord of length 1 is within `M / 8`; sums of tones are examples of such signals (`tones_slope`, `tones_bend`) |
| C68 | `Props/Recording` | C60 with the sample lemmas of C64, C65 and C67; the slope of the signal bounds the effect of the rounding of the clock |
| C69 | `Props/Reading` | the reads as a history of `src_process` calls (C37, C38), then the sample lemmas of C64, C65 and C67; the example combines it with C59 |
| C70 | `Props/Band` | as C64, with a gain per frequency (`gainAt`) in place of 1: the kernel checks 132 (fast) and 146 (medium) further frequencies against literal gains (`Proof/BandFastest`, `BandMid`, `BandGrid`) |
| C71 | `Props/Response` | the kernel checks 161 (fast) and 201 (medium) more frequencies, up to half the rate (`Proof/CloseFastest`, `CloseMid`); the gains between them are interpolated, so the curve is Lipschitz (`gainAt_lip`) and may be evaluated at the nominal ratio instead of the step in the table (`Proof/ResponseTap`); the transform of the table (C65) gives the ratios below 1, C64's phase sums those above; `Props/Whole` states it for `src_simple` on a recording |
| C72 | `Props/Pcm` | the program is `shortProgram` (`Spec/Pcm`): the array functions around `srcSimple`; C60 and C68 on the buffer that `src_short_to_float_array` fills, exactness of the short to float map (C25) and nearest rounding with clipping (C26) |
| C73 | `Props/Cascade` | C68 at a ratio of at least 1, its output a recording (`RecordedNear`: only the samples around a frame are needed, the ends are excluded) for C68 at a ratio up to 1; the tones of the second conversion have frequencies divided by `r1`; the `_any` theorems combine both cases of C68 at `min 1 r` |
| C74 | `Props/Warp` | C57 (the frames of the output file are filter responses at the times of the ratios) with the accuracy of C64 at the time of each frame |
| C75 | `Props/Pcm32` | as C72, with `intProgram` (`Spec/Pcm`); the float of an int is off by up to 2^-25 of full scale (C27) |
| C76 | `Props/Shift` | at a power of two every step of the clock is exact in a double, so `timeAt` is `j / r`; then `interp_stream` and the constant ratio form of C24 |
| C77 | `Props/Shift` | by C76 the positions of the two frames differ by exactly N frames, and the ideal value depends only on the frames within reach (as C35) |
| C78 | `Model/Device`, `Spec/Device`, `Props/Device` | the device is a function of the history of calls; loop invariant of `alsa_write_float` on the frames accepted, a bound on `epipe_count` by the frames accepted since the last underrun, and a measure for termination; joined with C61 |
| C79 | `Props/Device` | 32767 times a float is exact in a double; then rounding to nearest and the conversion modulo 2^16 |
| C80 | `Props/Device` | as C79; the loop runs over frames where it should run over samples |
| C81 | `Props/Null` | evaluation of every entry point on `NULL`, for all heaps; `src_simple` by cases on the creation of the handle |
| C82 | `Props/Mac` | evaluation of the padding; the loop over blocks is the loop of C61, by induction |
| C83 | `Props/Louder`, `Proof/Louder` | rounding commutes with powers of two on multiples of the smallest double (`rq_scale`); all intermediate results of a sample are multiples of a fixed power of two far above it (`Grid`, `Sc`), by induction over the taps; finiteness of the louder output implies that of everything before it |
| C84 | `Props/Alone` | C24 at a constant ratio: the ideal output of a channel does not mention the number of channels |
| C85 | `Model/Dispatch`, `Props/UserPointer` | the function is looked up in the handle; the handle's function and pointer are invariants of every history (C35), and a loop whose steps agree under an invariant computes the same |
| C86 | `Props/Threads` | simulation: the common run against one run per thread; C05 (what a call writes) and `C05_written` (what it depends on) for each turn.  Calls are atomic in the schedule; since a call touches only its handle and its two arrays, calls that overlap in time in different threads have no memory in common |
| C87 | `Props/Rising`, `Props/CallbackLoop` | the output as interpolation of the whole stream at increasing times (C24, C44); rounding is monotone, and C19 joins the pairs of neighbours |
| C88 | `Props/Loop`, `Props/CallbackLoop` | C77 applied to the stream and itself shifted by one period |
| C89 | `Props/ThreeApis` | all three outputs are the ideal output of the whole recording at the times of the ratio (C24, C60, C37) |
| C90 | `Props/Totals`, `Props/TotalsInterp` | a call stops when at most one output period of input is left and not before (each to within 1e-6), and each frame moves the position by at least 1/257; interpolating: the same with the end of the input and 1/1000; small specifications `Finishes`, `FinishesPlain` |

`MANIFEST.json` lists the exact theorem names; theorem names begin with the property number.

### Why two properties stay partial

* C07 (linear): the code reads one frame before `data_in` when a call with one input frame (or two, at one exact position) meets an
  interpolation position below 1 (`C07_one_frame`, `C07_two_frames`, `src_linear.c:115-122`).  The full statement is false of the code.  Proved: no history has
  any other fault (`C07_faults`); the exact condition on the stream under which a call faults (`C07_exact`, `C07_one_exact`); no fault for calls with no input
  or at least three frames (`C07_partial`).
* C08 (sinc): after the ratio has dropped, end of input makes `prepare_data` move from before the buffer (`C08_ratio_drop`, `src_sinc.c:1211-1216`).
  With several channels, lowering the ratio after `end_of_input` reaches an assertion (`C08_flush_drop`, `src_sinc.c:573`).
  Proved (`SafeUse`) for histories that, between resets, never set `end_of_input`; or keep all ratios at 1/180 or above and, with several
  channels, do not lower a ratio below 1 once `end_of_input` was set; or have one channel and never lower a ratio below 1.

## 4. Findings about the code

a. A NaN ratio passes validation; zero order hold and linear then report negative counts, sinc overflows.
b. Linear out-of-bounds read on one-frame inputs, and on two-frame inputs at position `1 - 2^-53` (C07).
c. Sinc out-of-bounds move after a ratio drop followed by end of input (C08).
d. `src_new` with `channels <= 0` and a known type reaches an assertion in the sinc case, negative sizes otherwise (C31).
e. `src_callback_read` does not return: sinc, when a callback that reported the end later returns data without `src_reset`; any converter, when
   the callback keeps returning negative counts; sinc, when the callback returns a count that is a multiple of 2^32 (C39).
f. `channels * 257` overflows `int` for more than 8355967 channels.
g. Sinc with `data_in == NULL` and `end_of_input` never flushes; the overlap check reports empty ranges; `src_process` stores its
   error only in sinc; `float_to_short(NaN) = 0`; `src_simple(NULL, ...)` dereferences NULL.
h. Sinc casts `in_count - in_used` to int: inputs of 2^31 samples or more make it stall or report an internal error.
i. Sinc clears an error recorded earlier (C40).
j. Sinc near ratio 1/256: the silence that flushes the tail is cut to the buffer; the last input frames are lost.
k. The same, with two or more channels, can reach `assert (data_index + ch - 1 < b_end)`.
l. So can a ratio drop after end of input with two or more channels (`C08_flush_drop`: six stereo frames at ratio 1, then draining at 0.86).
m. Ratio 1/256 with two or more channels: the first call may generate nothing although input remains (C49).
n. After a ratio drop the left half of the filter is cut to the history held in the buffer, but never below the reach at ratio 1 (C24).
o. A call interpolates the ratio over the room in its output buffer, starting at the old ratio, so with room for a single output frame per call a new `src_ratio` never takes effect (C54); only `src_set_ratio` changes it.
p. `examples/timewarp-file.c`: the test `warp_index < ARRAY_LEN (warp) - 1` means that the last entry of the table is never applied (C57).
q. `examples/audio_out.c` with `varispeed-play.c`: `varispeed_get_data` writes whole blocks of 64 frames until `out_frames` is reached; for a channel count such as 3
   the 2048-sample buffer (682 frames) receives 11 blocks, 2112 samples.

r. `src_simple` with the linear converter, two input frames and ratio 10 reads before the input buffer (`C60_linear_two`): ten steps of 0.1 sum to `1 - 2^-53`,
   for which `1 + input_index` rounds to 2, so that the first loop stops with `in_used = 0` and the second one starts.
s. `examples/varispeed-play.c`: `data->freq_point * 2 * M_PI / 20000` multiplies two ints first, which overflows after `2^30` blocks (`C61_long`); `src_input_callback` loops for ever
   on an empty file (`C61_empty`); `varispeed_get_data` always writes whole blocks of 64 frames, past the end of the array of `alsa_play` unless the number of channels divides 32 (`C61_channels`).
t. Without assertions the ratio drop of finding l computes one output sample from a tap behind the valid data: stale samples of the history buffer, or its sanity area; no
   access leaves the allocated buffer unless a ratio below 1/180 was used (C63).
u. `examples/audio_out.c`: on OSS, Solaris and Windows samples beyond full scale are not clipped and wrap around to the opposite sign (C79).
v. `examples/audio_out.c`, Windows: the loop that converts to 16 bits, and the length of the buffer, use the number of frames where the number of samples is needed (C80); with two
   channels half of each buffer is stale, with more only a part of each block is played.
w. `examples/audio_out.c`, ALSA: the result of `alsa_write_float` is ignored; after three underruns in a row the block is dropped (`C78_lost`).
x. `examples/audio_out.c`, Mac OS X: after a short block with several channels the silence is put after as many samples as there are frames (C82).
y. Sinc: at the end of the input `b_current + input_index + terminate` adds a number of samples to a number of frames, so that the number of output frames depends on the
   number of channels (`C84_counts`).

## 5. Mutation testing

`seeded/LOG.jsonl` records edits of the model in a scratch copy (wrong boundary, swapped argument, dropped update, ...), the claim each one
breaks, the theorems that failed and what was tightened.
