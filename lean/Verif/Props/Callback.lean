import Verif.Proof.CallbackError
import Verif.Props.Findings
import Verif.Props.Api

/-! Properties of the callback interface: C36, C37, C38. -/

namespace Verif
open Spec

/-- C36: in every history of calls on a handle made by `src_callback_new`, every `src_callback_read` returns a count between 0 and the
number of frames asked for, and fewer than asked for only if `src_error` then reports an error or a callback made during this call
returned 0. -/
theorem C36 (cfg : Config) (hL : LibraryTables cfg) (func : Option ℕ) (type e : ℤ) (ch ud : ℕ) (st st1 : SrcState) (ops : List Op)
    (os : List Obs) (hc : ch ≤ 8355967) (h : srcCallbackNew cfg func type ch ud = .ok (e, some st))
    (hO : ∀ op ∈ ops, OrdinaryPull ch op) (hr : run ops st = .ok (os, st1)) : List.Forall₂ (PullCount ud) ops os := by
  have L := created_like (.callbackNew _ _ _ _ _ _ h)
  obtain ⟨_, st0, h0, rfl⟩ := callbackNew_inv h
  have H : Held ch st0 { st0 with mode := .callback, callbackFunc := func, userData := ud } :=
    ⟨⟨_, _, _, callback_backed h0 func ud⟩, by
      have := new_reset h0
      rw [← this]
      simp [srcResetState, samples]⟩
  exact (history_held hL hc h0 rfl ops H L hO hr).1

/-- Return values, `src_error` and numbers of callbacks so far of a history of a callback handle, or the fault. -/
def pullOutcome (cfg : Config) (type channels : ℤ) (ops : List Op) : Except Fault (List (ℤ × ℤ × ℕ)) :=
  match srcCallbackNew cfg (some 1) type channels 0 with
  | .ok (_, some st) =>
    match run ops st with
    | .ok (os, _) => .ok (os.map (fun o => (o.ret, o.err, o.calls)))
    | .error f => .error f
  | .ok (_, none) => .ok []
  | .error f => .error f

/-- A callback that returns the counts of the list and then 0, always with the buffer at 1000. -/
def listCb (l : List ℤ) : Callback := fun _ c m => (l.getD c 0, some 1000, m)

set_option maxRecDepth 100000 in
/-- Non-vacuity of C36: a stereo zero order hold handle, with buffers of 3 and 4 frames; the second read gets fewer frames than asked for. -/
example : pullOutcome ⟨none, none, none⟩ SRC_ZERO_ORDER_HOLD 2
      [.read (listCb [3, 4]) 1 20 0 (fun _ => zero32) one64 5 1, .read (listCb [3, 4]) 1 20 2 (fun _ => zero32) one64 5 1] =
      .ok [(5, 0, 2), (3, 0, 3)] ∧
    OrdinaryPull 2 (.read (listCb [3, 4]) 1 20 0 (fun _ => zero32) one64 5 1) := by
  refine ⟨by decide +kernel, (fun h => by have := congrArg Fl.val h; rw [one64_val] at this; cases this), by decide, fun _ c _ => ?_⟩
  have : (listCb [3, 4] 0 c (fun _ => zero32)).1 ≤ 4 := by
    match c with
    | 0 => decide
    | 1 => decide
    | c + 2 => simp [listCb]
  exact le_trans (samples_mono this) (by decide)

/-- C38, and the refinement behind C37: a history of `src_callback_read` calls without error, whose callback hands out the stream `x`, does
what a history of `src_process` calls on a handle from `src_new` does.  Each `src_callback_read` is a session of such calls at its
ratio, and delivers their output; the calls present the stream from the first unconsumed frame on and offer all frames the callback
has returned; a callback is made only when all the frames returned before are consumed (see `Session`). -/
theorem C38 (cfg : Config) (hL : LibraryTables cfg) (func : Option ℕ) (type e : ℤ) (ch ud : ℕ) (st st1 : SrcState)
    (hc : ch ≤ 8355967) (h : srcCallbackNew cfg func type ch ud = .ok (e, some st)) (x : ℕ → ℕ → F32) (cnt addr : ℕ → ℤ)
    (hcnt : ∀ i, samples ch (cnt i) ≤ 2 ^ 52) (ops : List Op) (os : List Obs) (hP : Pulls x ch cnt addr 0 ops os)
    (hO : ∀ op ∈ ops, SizedRead ch (2 ^ 52) op) (hr : run ops st = .ok (os, st1)) :
    ∃ st0 ps qs p V c, srcNew cfg type ch = .ok (e, some st0) ∧ run ps st0 = .ok (qs, p) ∧ Explained x ch cnt ud 0 0 ops os ps qs V c := by
  obtain ⟨_, st0, h0, rfl⟩ := callbackNew_inv h
  obtain ⟨ps, qs, p, V, c, P, E, _⟩ := history_pull hL hc h0 (by norm_num) le_rfl hcnt le_rfl hP (callback_pulled h0 func ud) hO hr
  exact ⟨st0, ps, qs, p, V, c, h0, P.back.run, E⟩

/-- C37 for zero order hold and linear: the frames that a history of `src_callback_read` calls at the ratio `r` delivers are those that
`src_process` makes of the concatenation `x` of all the buffers: compared with any history `ops'` of `src_process` calls that feeds `x` at
this ratio to a new handle, in any pieces, the outputs agree as far as both go. -/
theorem C37_interp (cfg cfg' : Config) (hL : LibraryTables cfg) (func : Option ℕ) (type e e' : ℤ) (ht : type = SRC_ZERO_ORDER_HOLD ∨ type = SRC_LINEAR)
    (ch ud : ℕ) (st st' st1 st1' : SrcState) (hc : ch ≤ 8355967)
    (h : srcCallbackNew cfg func type ch ud = .ok (e, some st)) (h' : srcNew cfg' type ch = .ok (e', some st'))
    (x : ℕ → ℕ → F32) (cnt addr : ℕ → ℤ) (hcnt : ∀ i, samples ch (cnt i) ≤ 2 ^ 52) (r : ℚ) (ops ops' : List Op) (os os' : List Obs) (V' : ℕ)
    (hO : ∀ op ∈ ops, SizedRead ch (2 ^ 52) op ∧ ReadsAt r op) (hO' : ∀ op ∈ ops', OrdinaryOp 1 ch op ∧ AtRatio r op)
    (hr : run ops st = .ok (os, st1)) (hr' : run ops' st' = .ok (os', st1'))
    (hP : Pulls x ch cnt addr 0 ops os) (hF' : Fed x ch 0 ops' os' V') :
    pulled ch ops os <+: outputs ch os' ∨ outputs ch os' <+: pulled ch ops os := by
  obtain ⟨_, st0, h0, rfl⟩ := callbackNew_inv h
  obtain ⟨ps, qs, p, V, c, P, E, _⟩ := history_pull hL hc h0 (by norm_num) le_rfl hcnt le_rfl hP (callback_pulled h0 func ud) (fun op h => (hO op h).1) hr
  rw [explained_outputs E]
  have hR := explained_ratio E (fun op h => (hO op h).2)
  have hB := P.back
  simp only [List.nil_append] at hB
  rcases ht with rfl | rfl
  · exact stream_chunks (K := .zoh) h0 h' hc hB.ord (fun op a => (hO' op a).1) (explained_fed E) hF' hR (fun op a => (hO' op a).2) hB.run hr'
  · exact stream_chunks (K := .linear) h0 h' hc hB.ord (fun op a => (hO' op a).1) (explained_fed E) hF' hR (fun op a => (hO' op a).2) hB.run hr'

/-- C37 for the sinc converters.  The callback may report the end of the stream by returning 0; from then on it returns no more frames, and
`len` is the number of frames it has returned. -/
theorem C37_sinc (cfg : Config) (hL : LibraryTables cfg) (func : Option ℕ) (type e e' : ℤ) (ht : SincType type) (ch ud : ℕ)
    (st st' st1 st1' : SrcState) (hc : ch ≤ 8355967)
    (h : srcCallbackNew cfg func type ch ud = .ok (e, some st)) (h' : srcNew cfg type ch = .ok (e', some st'))
    (x : ℕ → ℕ → F32) (cnt addr : ℕ → ℤ) (hcnt : ∀ i, samples ch (cnt i) < 2 ^ 31) (len : Option ℕ) (hend : EndsFor cnt len) (hx : EndsAt x len)
    (r : ℚ) (hr0 : 0 ≤ r) (ops ops' : List Op) (os os' : List Obs) (V' : ℕ)
    (hO : ∀ op ∈ ops, SizedRead ch (2 ^ 50) op ∧ ReadsAt r op) (hO' : ∀ op ∈ ops', SizedOp ch op ∧ AtRatio r op)
    (hr : run ops st = .ok (os, st1)) (hr' : run ops' st' = .ok (os', st1'))
    (hP : Pulls x ch cnt addr 0 ops os) (hF' : FedTo x ch len 0 ops' os' V') :
    pulled ch ops os <+: outputs ch os' ∨ outputs ch os' <+: pulled ch ops os := by
  obtain ⟨_, st0, h0, rfl⟩ := callbackNew_inv h
  obtain ⟨ps, qs, p, V, c, P, E, hW⟩ := history_pull hL hc h0 (bi := 2 ^ 31 - 1) (bo := 2 ^ 50) (by norm_num) (by norm_num)
    (fun i => by have := hcnt i; omega) (by norm_num) hP (callback_pulled h0 func ud) (fun op h => (hO op h).1) hr
  rw [explained_outputs E]
  have hR := explained_ratio E (fun op h => (hO op h).2)
  have hB := P.back
  simp only [List.nil_append] at hB
  refine C22 cfg hL type ht ch e e' st0 st' p st1' h0 h' x len hx r hr0 ps ops' qs os' V V' (fun op ho => ⟨?_, hR op ho⟩) hO' hB.run hr'
    (explained_fedTo hend E) hF'
  rcases hW op ho with ⟨r, m, d, rfl, _, h2, h3⟩ | ⟨r, rfl⟩
  · cases hB.ord _ ho with
    | process _ _ hd => exact ⟨(hd d rfl).ratio, by omega, h3⟩
  · cases hB.ord _ ho with
    | setRatio _ hn => exact hn

/-- A callback that puts the next frames of the stream `x` at address 1000; `cnt` are the counts. -/
def streamCb (x : ℕ → ℕ → F32) (ch : ℕ) (cnt : ℕ → ℤ) : Callback := fun _ c m =>
  (cnt c, some 1000, fun a => if 1000 ≤ a ∧ a < 1000 + cnt c * ch then x (offered cnt c + (a - 1000).toNat / ch) ((a - 1000).toNat % ch) else m a)

theorem streamCb_holds (x : ℕ → ℕ → F32) {ch : ℕ} (cnt : ℕ → ℤ) (ud c : ℕ) (m : Mem) :
    Holds x ch (streamCb x ch cnt ud c m).2.2 1000 (offered cnt c) (cnt c).toNat := by
  intro k j hk hj
  have h1 : ch * k + j < (cnt c).toNat * ch := frame_index hk hj
  have h2 : ((ch * k + j : ℕ) : ℤ) < cnt c * ch := by
    have : (((cnt c).toNat * ch : ℕ) : ℤ) = cnt c * ch := by push_cast; rw [Int.toNat_of_nonneg (by omega)]
    rw [← this]; exact_mod_cast h1
  simp only [streamCb]
  rw [if_pos ⟨by omega, by omega⟩, show ((1000 : ℤ) + ((ch * k + j : ℕ) : ℤ) - 1000).toNat = ch * k + j by omega, Nat.mul_add_div (by omega),
    Nat.mul_add_mod, Nat.div_eq_of_lt hj, Nat.mod_eq_of_lt hj, add_zero]

theorem streamCb_hands (x : ℕ → ℕ → F32) {ch : ℕ} (cnt : ℕ → ℤ) : HandsOut x ch cnt (fun _ => 1000) (streamCb x ch cnt) :=
  fun _ _ _ => ⟨rfl, fun _ => ⟨rfl, streamCb_holds x cnt _ _ _⟩⟩

theorem streamCb_spares (x : ℕ → ℕ → F32) {ch : ℕ} (cnt : ℕ → ℤ) {frames data : ℤ} (h : data + frames * ch ≤ 1000) :
    SparesOutput ch (streamCb x ch cnt) frames data := by
  intro ud c m a h1 h2
  simp only [streamCb]
  rw [if_neg (by omega)]

/-- Two buffers, then the end. -/
def twoBuffers (c : ℕ) : ℤ := [3, 4].getD c 0

/-- A stream of two channels and seven frames. -/
def ramp (k c : ℕ) : F32 := if k < 7 then Fl.round f32 (k + c) else zero32

/-- Two reads of five frames; the first makes `k` callbacks. -/
def twoReads (k : ℕ) : List Op :=
  [.read (streamCb ramp 2 twoBuffers) 1 20 0 (fun _ => zero32) one64 5 1,
   .read (streamCb ramp 2 twoBuffers) 1 20 k (streamCb ramp 2 twoBuffers 0 (k - 1) (fun _ => zero32)).2.2 one64 5 1]

set_option maxRecDepth 100000 in
theorem twoReads_outcome : pullOutcome ⟨none, none, none⟩ SRC_ZERO_ORDER_HOLD 2 (twoReads 2) = .ok [(5, 0, 2), (3, 0, 3)] ∧
    pullOutcome ⟨none, none, none⟩ SRC_LINEAR 2 (twoReads 2) = .ok [(5, 0, 2), (2, 0, 3)] ∧
    pullOutcome fastCfg SRC_SINC_FASTEST 2 (twoReads 3) = .ok [(5, 0, 3), (2, 0, 5)] := by
  decide +kernel

theorem twoBuffers_le (c : ℕ) : twoBuffers c ≤ 4 := by
  match c with
  | 0 => decide
  | 1 => decide
  | c + 2 => simp [twoBuffers]

/-- Non-vacuity of C37 and C38: these reads meet the hypotheses and deliver 8 (zero order hold) or 7 (linear) frames. -/
theorem twoReads_ok (cfg : Config) (type : ℤ) (k n l : ℕ) (hk : 0 < k) (ht : pullOutcome cfg type 2 (twoReads k) = .ok [(5, 0, k), (n, 0, l)]) :
    ∃ e st, srcCallbackNew cfg (some 1) type (2 : ℕ) 0 = .ok (e, some st) ∧
    ∃ os st1, run (twoReads k) st = .ok (os, st1) ∧ Pulls ramp 2 twoBuffers (fun _ => 1000) 0 (twoReads k) os ∧
      (∀ op ∈ twoReads k, SizedRead 2 (2 ^ 52) op ∧ ReadsAt 1 op) ∧ (∀ i, samples 2 (twoBuffers i) ≤ 2 ^ 52) ∧ (pulled 2 (twoReads k) os).length = 5 + n := by
  unfold pullOutcome at ht
  generalize hn : srcCallbackNew cfg (some 1) type 2 0 = q at ht
  match q, ht with
  | .ok (e, some st), ht =>
    refine ⟨e, st, rfl, ?_⟩
    dsimp only at ht
    generalize hr : run (twoReads k) st = r at ht
    match r, ht with
    | .ok (os, st1), ht =>
      have ht := ok_inj ht
      have hlen : os.length = 2 := by simpa using congrArg List.length ht
      obtain ⟨o1, o2, rfl⟩ := List.length_eq_two.1 hlen
      clear hlen
      simp only [List.map_cons, List.map_nil, List.cons.injEq, Prod.mk.injEq, and_true] at ht
      obtain ⟨⟨a1, a2, a3⟩, b1, b2, b3⟩ := ht
      refine ⟨[o1, o2], st1, rfl, ?_, ?_, fun i => le_trans (samples_mono (twoBuffers_le i)) (by decide), ?_⟩
      · refine .read 0 _ _ _ _ _ _ _ _ _ _ (streamCb_hands _ _) (streamCb_spares _ _ (by norm_num)) (by simp) a2 ?_
        rw [a3]
        refine .read k _ _ _ _ _ _ _ _ _ _ (streamCb_hands _ _) (streamCb_spares _ _ (by norm_num)) ?_ b2 (.nil _)
        intro i hi
        obtain rfl : i = k - 1 := by omega
        exact streamCb_holds _ _ _ _ _
      · have h1 : one64 ≠ Fl.nan := fun h => by have := congrArg Fl.val h; rw [one64_val] at this; cases this
        intro op hop
        simp only [twoReads, List.mem_cons, List.not_mem_nil, or_false] at hop
        rcases hop with rfl | rfl
        · exact ⟨⟨h1, by decide⟩, one64_val⟩
        · exact ⟨⟨h1, by decide⟩, one64_val⟩
      · have hm : ∀ {st st' : SrcState} {op : Op} {o : Obs}, op ∈ twoReads k → op.run st = .ok (o, st') → ∃ m, o.mem = some m := by
          intro st st' op o hop h
          simp only [twoReads, List.mem_cons, List.not_mem_nil, or_false] at hop
          rcases hop with rfl | rfl
          · obtain ⟨r, _, h⟩ := bind_ok h
            have h := ok_inj h; simp only [Prod.mk.injEq] at h
            rw [← h.1]; exact ⟨_, rfl⟩
          · obtain ⟨r, _, h⟩ := bind_ok h
            have h := ok_inj h; simp only [Prod.mk.injEq] at h
            rw [← h.1]; exact ⟨_, rfl⟩
        obtain ⟨⟨p1, s1⟩, h1, hr⟩ := bind_ok hr
        obtain ⟨⟨ps, s2⟩, hr, h2⟩ := bind_ok hr
        obtain ⟨⟨p2, s3⟩, h3, hr⟩ := bind_ok hr
        obtain ⟨⟨ps', s4⟩, hr, h4⟩ := bind_ok hr
        have hr := ok_inj hr
        have h4 := ok_inj h4
        have h2 := ok_inj h2
        simp only [Prod.mk.injEq] at hr h4 h2
        obtain ⟨rfl, rfl⟩ := hr
        obtain ⟨rfl, rfl⟩ := h4
        obtain ⟨h2, _⟩ := h2
        simp only [List.cons.injEq, and_true] at h2
        obtain ⟨rfl, rfl⟩ := h2
        obtain ⟨m1, g1⟩ := hm (by simp [twoReads]) h1
        obtain ⟨m2, g2⟩ := hm (by simp [twoReads]) h3
        simp [pulled, pulledBy, twoReads, g1, g2, a1, b1]

example := twoReads_ok _ _ 2 3 3 (by norm_num) twoReads_outcome.1
example := twoReads_ok _ _ 2 2 3 (by norm_num) twoReads_outcome.2.1
example := twoReads_ok _ _ 3 2 5 (by norm_num) twoReads_outcome.2.2

theorem twoBuffers_offered (c : ℕ) : offered twoBuffers (c + 2) = 7 := by
  induction c with
  | zero => decide
  | succ c ih => rw [show c + 1 + 2 = (c + 2) + 1 by omega, offered, ih]; simp [twoBuffers]

/-- The stream ends as C37_sinc wants it. -/
example : EndsFor twoBuffers (some 7) ∧ EndsAt ramp (some 7) := by
  constructor
  · intro i hi c hc
    match i, hi with
    | 0, hi => simp [twoBuffers] at hi
    | 1, hi => simp [twoBuffers] at hi
    | i + 2, _ =>
      obtain ⟨c', rfl⟩ := Nat.exists_eq_add_of_le' (le_trans (Nat.le_add_left 2 i) hc)
      rw [twoBuffers_offered]
  · rintro n ⟨⟩ k hk c
    unfold ramp
    rw [if_neg (by omega)]

/-! ### C01 -/

/-- C01: `src_is_valid_ratio` is TRUE exactly for the ratios in `[1/256, 256]` and for NaN (which is no valid ratio, see `C01_nan_accepted`),
and `src_set_ratio`, `src_process` and `src_callback_read` accept exactly the ratios for which it is TRUE.  A rejected ratio changes
nothing, except that `src_callback_read` records the error. -/
theorem C01 (r : F64) :
    (srcIsValidRatio r = 1 ∨ srcIsValidRatio r = 0) ∧ (srcIsValidRatio r = 1 ↔ GoodRatio r ∨ r = .nan) ∧
    (∀ s : SrcState, srcSetRatio (some s) r = if srcIsValidRatio r = 1 then (0, some { s with lastRatio := r }) else (6, some s)) ∧
    (∀ (m : Mem) (s : SrcState) (d : SrcData), s.mode = .process → ¬ MissingBuffer d → d.srcRatio = r → srcIsValidRatio r = 0 →
      srcProcess m (some s) (some d) = .ok (6, m, some s, some d)) ∧
    (∀ (m m' : Mem) (s : SrcState) (d : SrcData) (s' : Option SrcState) (d' : Option SrcData) (e : ℤ), d.srcRatio = r → srcIsValidRatio r = 1 →
      srcProcess m (some s) (some d) = .ok (e, m', s', d') → e ≠ 6) ∧
    (∀ (cb : Callback) (dummy : ℤ) (fuel calls : ℕ) (m : Mem) (s : SrcState) (frames data : ℤ), s.mode = .callback → s.callbackFunc ≠ none →
      0 < frames → srcIsValidRatio r = 0 →
      srcCallbackRead cb dummy fuel calls m (some s) r frames data = .ok (0, m, some { s with error := 6 }, calls)) ∧
    (∀ (cb : Callback) (dummy : ℤ) (fuel calls : ℕ) (m m' : Mem) (s s' : SrcState) (frames data n : ℤ) (k : ℕ), srcIsValidRatio r = 1 → s.error ≠ 6 →
      srcCallbackRead cb dummy fuel calls m (some s) r frames data = .ok (n, m', some s', k) → s'.error ≠ 6) := by
  have hv : ∀ b, isBadSrcRatio r = b → srcIsValidRatio r = if b then 0 else 1 := fun b h => by unfold srcIsValidRatio; rw [h]
  refine ⟨?_, ?_, ?_, ?_, ?_, ?_, ?_⟩
  · unfold srcIsValidRatio
    split_ifs <;> simp
  · by_cases hn : r = .nan
    · rw [hn]; simp [C01_nan_accepted.1]
    · rw [(C01_finite r hn).1]; simp [hn]
  · intro s
    unfold srcSetRatio srcIsValidRatio
    dsimp only
    split_ifs <;> first | rfl | simp at *
  · intro m s d hm hd hr h0
    have hb : isBadSrcRatio d.srcRatio = true := by
      rw [hr]
      cases hb : isBadSrcRatio r
      · rw [hv _ hb] at h0; simp at h0
      · rfl
    simp only [srcProcess]
    rw [if_neg (by simpa using hm)]
    unfold srcProcessData
    rw [if_neg (show ¬ (_ ∨ _) from hd), if_pos hb]; rfl
  · intro m m' s d s' d' e hr h1 h he
    have hb : ¬ BadRatio r := by
      rw [← isBad_iff]
      intro hb
      rw [hv _ hb] at h1; simp at h1
    subst he
    rcases process_error_inv h with ⟨hf, _, _⟩ | ⟨hp, _⟩
    · cases hf with
      | ratio s x h1 h2 h3 h4 h5 =>
        have := Option.some.inj h3
        rw [← this, hr] at h5
        exact hb h5
    · rcases hp with h | h | h | h <;> norm_num at h
  · intro cb dummy fuel calls m s frames data hm hf hfr h0
    have hb : isBadSrcRatio r = true := by
      cases hb : isBadSrcRatio r
      · rw [hv _ hb] at h0; simp at h0
      · rfl
    unfold srcCallbackRead
    dsimp only
    rw [if_neg (by omega), if_neg (by simp [hm]), if_neg hf, if_pos hb]; rfl
  · intro cb dummy fuel calls m m' s s' frames data n k h1 h6 h
    have hb : ¬ BadRatio r := by
      rw [← isBad_iff]
      intro hb
      rw [hv _ hb] at h1; simp at h1
    obtain ⟨s1, e1, _, _, h2, _⟩ := read_errno h
    cases e1
    exact fun h => h6 (h2 hb h)

/-! ### C40 -/

theorem chain_of {A : ℤ → Op → Obs → Prop} {stc : SrcState} (hA : ∀ (op : Op) (st st' : SrcState) (o : Obs), Like stc st → op.run st = .ok (o, st') →
    A st.error op o ∧ o.err = st'.error) : ∀ (ops : List Op) (st st' : SrcState) (os : List Obs), Like stc st → run ops st = .ok (os, st') →
      ErrorChain A st.error ops os := by
  intro ops
  induction ops with
  | nil =>
    intro st st' os _ h
    have h := ok_inj h; simp only [Prod.mk.injEq] at h
    rw [← h.1]; exact .nil _
  | cons op ops ih =>
    intro st st' os L h
    obtain ⟨⟨o, s1⟩, h1, h⟩ := bind_ok h
    obtain ⟨⟨os', s2⟩, h2, h⟩ := bind_ok h
    have h := ok_inj h; simp only [Prod.mk.injEq] at h
    rw [← h.1]
    obtain ⟨a, b⟩ := hA op st s1 o L h1
    refine .cons _ _ _ _ _ a ?_
    rw [b]
    exact ih _ _ _ (op_like L h1) h2

/-- A handle of the given type made by `src_new` or `src_callback_new`. -/
def MadeOf (cfg : Config) (type channels : ℤ) (st : SrcState) : Prop :=
  (∃ e, srcNew cfg type channels = .ok (e, some st)) ∨ ∃ func ud e, srcCallbackNew cfg func type channels ud = .ok (e, some st)

theorem made_created {cfg : Config} {type channels : ℤ} {st : SrcState} (h : MadeOf cfg type channels st) : Created cfg st := by
  rcases h with ⟨e, h⟩ | ⟨f, u, e, h⟩
  · exact .new _ _ _ _ h
  · exact .callbackNew _ _ _ _ _ _ h

theorem made_error {cfg : Config} {type channels : ℤ} {st : SrcState} (h : MadeOf cfg type channels st) : st.error = 0 := by
  rcases h with ⟨e, h⟩ | ⟨f, u, e, h⟩
  · rw [← new_reset h]; rfl
  · obtain ⟨_, st0, h0, rfl⟩ := callbackNew_inv h
    dsimp only
    rw [← new_reset h0]; rfl

/-- C40 for zero order hold and linear handles (of either mode): the error that `src_error` reports stays until `src_reset` or until
a `src_callback_read` fails with a newer error; a new handle has none. -/
theorem C40_interp (cfg : Config) (type channels : ℤ) (ht : type = SRC_ZERO_ORDER_HOLD ∨ type = SRC_LINEAR) (st st1 : SrcState)
    (h : MadeOf cfg type channels st) (ops : List Op) (os : List Obs) (hr : run ops st = .ok (os, st1)) :
    srcError (some st) = 0 ∧ ErrorChain StickyAfter 0 ops os := by
  have hvt : st.vt = .zoh ∨ st.vt = .linear := by
    rcases h with ⟨e, h⟩ | ⟨f, u, e, h⟩
    · exact new_vt_interp ht h
    · obtain ⟨_, st0, h0, rfl⟩ := callbackNew_inv h
      have := new_vt_interp ht h0
      exact this
  refine ⟨made_error h, ?_⟩
  rw [← made_error h]
  refine chain_of (stc := st) ?_ ops st st1 os (created_like (made_created h)) hr
  intro op s s' o L hs
  have hv : s.vt = .zoh ∨ s.vt = .linear := by rw [L.vt]; exact hvt
  cases op with
  | process m d =>
    obtain ⟨⟨e, m', s1, d'⟩, h1, hs⟩ := bind_ok hs
    obtain ⟨s2, rfl, _, _, h2, _⟩ := process_err h1
    have hs := ok_inj hs; simp only [Prod.mk.injEq] at hs
    obtain ⟨rfl, rfl⟩ := hs
    exact ⟨h2 hv, rfl⟩
  | read cb dummy fuel calls m ratio frames data =>
    obtain ⟨⟨n, m', s1, k⟩, h1, hs⟩ := bind_ok hs
    obtain ⟨s2, rfl, _, h2, _⟩ := read_errno h1
    have hs := ok_inj hs; simp only [Prod.mk.injEq] at hs
    obtain ⟨rfl, rfl⟩ := hs
    exact ⟨h2 hv, rfl⟩
  | setRatio r =>
    obtain ⟨a, b⟩ := setRatio_error hs
    exact ⟨b, b.trans a.symm⟩
  | reset =>
    have hs := ok_inj hs; simp only [Prod.mk.injEq] at hs
    obtain ⟨rfl, rfl⟩ := hs
    exact ⟨rfl, rfl⟩

/-- C40 for every converter: see `ErrorAfter`. -/
theorem C40 (cfg : Config) (type channels : ℤ) (st st1 : SrcState) (h : MadeOf cfg type channels st) (ops : List Op) (os : List Obs)
    (hr : run ops st = .ok (os, st1)) : srcError (some st) = 0 ∧ ErrorChain ErrorAfter 0 ops os := by
  refine ⟨made_error h, ?_⟩
  rw [← made_error h]
  refine chain_of (stc := st) ?_ ops st st1 os (created_like (made_created h)) hr
  intro op s s' o L hs
  cases op with
  | process m d =>
    obtain ⟨⟨e, m', s1, d'⟩, h1, hs⟩ := bind_ok hs
    obtain ⟨s2, rfl, h2, _, _, _⟩ := process_err h1
    have hs := ok_inj hs; simp only [Prod.mk.injEq] at hs
    obtain ⟨rfl, rfl⟩ := hs
    refine ⟨?_, rfl⟩
    rcases process_error_inv h1 with ⟨_, _, h3⟩ | ⟨h3, _⟩
    · cases h3; exact Or.inl rfl
    · rcases h2 with h2 | h2
      · exact Or.inl h2
      · refine Or.inr ⟨h2, ?_⟩
        rintro (h4 | h4 | h4 | h4 | h4) <;> (dsimp only at h4; rw [h4] at h3; rcases h3 with h | h | h | h <;> norm_num at h)
  | read cb dummy fuel calls m ratio frames data =>
    obtain ⟨⟨n, m', s1, k⟩, h1, hs⟩ := bind_ok hs
    obtain ⟨s2, rfl, h2, _⟩ := read_errno h1
    have hs := ok_inj hs; simp only [Prod.mk.injEq] at hs
    obtain ⟨rfl, rfl⟩ := hs
    exact ⟨h2, rfl⟩
  | setRatio r =>
    obtain ⟨a, b⟩ := setRatio_error hs
    exact ⟨b, b.trans a.symm⟩
  | reset =>
    have hs := ok_inj hs; simp only [Prod.mk.injEq] at hs
    obtain ⟨rfl, rfl⟩ := hs
    exact ⟨rfl, rfl⟩

set_option maxRecDepth 100000 in
/-- With a sinc converter the error is not sticky: a read with the ratio 1000 records `SRC_ERR_BAD_SRC_RATIO`, and the next read, at the end
of input, clears it, because the process functions assign the result of `prepare_data` to `state->error` (src_sinc.c:478).  Zero order hold
keeps it. -/
theorem C40_sinc_cleared :
    pullOutcome fastCfg SRC_SINC_FASTEST 1 [.read (listCb []) 1 20 0 (fun _ => zero32) (dbl 1000) 5 1,
      .read (listCb []) 1 20 0 (fun _ => zero32) one64 5 1] = .ok [(0, 6, 0), (0, 0, 1)] ∧
    pullOutcome fastCfg SRC_ZERO_ORDER_HOLD 1 [.read (listCb []) 1 20 0 (fun _ => zero32) (dbl 1000) 5 1,
      .read (listCb []) 1 20 0 (fun _ => zero32) one64 5 1] = .ok [(0, 6, 0), (0, 6, 1)] := by
  decide +kernel

end Verif
