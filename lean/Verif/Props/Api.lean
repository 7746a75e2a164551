import Verif.Proof.Errors

/-! Argument checking and tables of the public interface: C01, C02, C03, C29, C30. -/

namespace Verif
open Spec

theorem one_lt_emax : (1 : ℚ) < p2 f64.emax := by rw [← p2_zero]; exact p2_lt (by decide)

/-! ### C01 -/

/-- C01 for every double that is not NaN: `src_is_valid_ratio` is TRUE exactly on `[1/256, 256]`, `src_set_ratio` accepts exactly
those ratios and otherwise changes nothing, and `src_process`, if no earlier check fails, reports `SRC_ERR_BAD_SRC_RATIO`
exactly for the others.  NaN is accepted, see `C01_nan_accepted`; the full statement, with `src_callback_read`, is `C01` in Props/Callback.lean. -/
theorem C01_finite (r : F64) (hr : r ≠ .nan) :
    (srcIsValidRatio r = 1 ↔ GoodRatio r) ∧ (srcIsValidRatio r = 0 ↔ ¬ GoodRatio r) ∧
    (∀ s : SrcState, GoodRatio r → srcSetRatio (some s) r = (0, some { s with lastRatio := r })) ∧
    (∀ s : SrcState, ¬ GoodRatio r → srcSetRatio (some s) r = (6, some s)) ∧
    (∀ (m : Mem) (s : SrcState) (d : SrcData), s.mode = .process → ¬ MissingBuffer d → d.srcRatio = r → ¬ GoodRatio r →
      srcProcess m (some s) (some d) = .ok (6, m, some s, some d)) ∧
    (∀ (m m' : Mem) (s : SrcState) (d : SrcData) (s' : Option SrcState) (d' : Option SrcData) (e : ℤ), d.srcRatio = r → GoodRatio r →
      srcProcess m (some s) (some d) = .ok (e, m', s', d') → e ≠ 6) := by
  have key : BadRatio r ↔ ¬ GoodRatio r := by
    cases r with
    | nan => exact absurd rfl hr
    | inf s => simp [BadRatio, GoodRatio, Fl.val]
    | fin q h => simp [BadRatio, GoodRatio, Fl.val]; rw [← not_lt, imp_iff_not_or, not_not]
  have hb : isBadSrcRatio r = true ↔ ¬ GoodRatio r := (isBad_iff r).trans key
  refine ⟨?_, ?_, ?_, ?_, ?_, ?_⟩
  · unfold srcIsValidRatio
    split_ifs with h
    · simp [hb.1 h]
    · simp only [true_iff]; by_contra hh; exact h (hb.2 hh)
  · unfold srcIsValidRatio
    split_ifs with h
    · simp [hb.1 h]
    · simp only [one_ne_zero, false_iff]; exact fun hh => h (hb.2 hh)
  · intro s hg
    have : isBadSrcRatio r = false := by
      rw [Bool.eq_false_iff]; exact fun h => hb.1 h hg
    simp [srcSetRatio, this, Err.NO_ERROR]
  · intro s hg
    simp [srcSetRatio, hb.2 hg, Err.BAD_SRC_RATIO]
  · intro m s d hm hd hdr hg
    simp only [srcProcess]
    rw [if_neg (by simpa using hm)]
    unfold srcProcessData
    rw [if_neg (show ¬ (_ ∨ _) from hd), hdr, if_pos (hb.2 hg)]; rfl
  · intro m m' s d s' d' e hdr hg h he
    subst he
    rcases process_error_inv h with ⟨hf, _, _⟩ | ⟨hp, _⟩
    · cases hf with
      | ratio s x h1 h2 h3 h4 h5 =>
        have := Option.some.inj h3
        rw [← this, hdr] at h5
        exact key.1 h5 hg
    · rcases hp with h | h | h | h <;> norm_num at h

/-- The code violates C01 for NaN: `src_is_valid_ratio (NaN)` is TRUE and `src_set_ratio` stores a NaN. -/
theorem C01_nan_accepted : srcIsValidRatio .nan = 1 ∧ ¬ GoodRatio .nan ∧
    ∀ s : SrcState, srcSetRatio (some s) .nan = (0, some { s with lastRatio := .nan }) := by
  have h : isBadSrcRatio .nan = false := by
    rw [Bool.eq_false_iff, Ne, isBad_iff]; exact fun h => h
  refine ⟨by simp [srcIsValidRatio, h], by simp [GoodRatio, Fl.val], fun s => by simp [srcSetRatio, h, Err.NO_ERROR]⟩

/-- C01 is not vacuous: 1/256 and 2 are valid, 257 is not. -/
example : GoodRatio (Fl.round f64 (1 / 256)) ∧ GoodRatio (dbl 2) ∧ ¬ GoodRatio (dbl 257) ∧ dbl 257 ≠ .nan := by
  refine ⟨⟨1 / 256, ?_, by norm_num, by norm_num⟩, ⟨2, ?_, by norm_num, by norm_num⟩, ?_, ?_⟩
  · exact Fl.val_round_of_rep ⟨rep64_inv256, by
      rw [abs_of_pos (by norm_num)]; exact lt_trans (by norm_num) one_lt_emax⟩
  · have := dbl_val (n := 2) (by norm_num); rw [this]; norm_num
  · rintro ⟨q, h, _, h2⟩
    have := dbl_val (n := 257) (by norm_num)
    rw [this] at h
    norm_num at h; rw [← h] at h2; norm_num at h2
  · intro h
    have := dbl_val (n := 257) (by norm_num)
    rw [h] at this; simp [Fl.val] at this

/-! ### C02 -/

/-- C02: a returned argument error is the error of the first check that fails, and memory and handle are unchanged. -/
theorem C02 (m m' : Mem) (st st' : Option SrcState) (d d' : Option SrcData) (e : ℤ)
    (h : srcProcess m st d = .ok (e, m', st', d')) (he : e = 2 ∨ e = 18 ∨ e = 3 ∨ e = 4 ∨ e = 6 ∨ e = 16) :
    FirstFailing st d e ∧ m' = m ∧ st' = st := by
  rcases process_error_inv h with h | ⟨hp, _⟩
  · exact h
  · exfalso
    rcases hp with h | h | h | h <;> subst h <;> norm_num at he

/-- C02, converse: if some check fails, the call returns with its error (buffer sizes fit a `long`). -/
theorem C02_complete (m : Mem) (st : Option SrcState) (d : Option SrcData) (e : ℤ) (h : FirstFailing st d e)
    (hch : ∀ s x, st = some s → d = some x → 0 ≤ s.channels ∧ samples s.channels x.inputFrames < 2 ^ 63 ∧
      samples s.channels x.outputFrames < 2 ^ 63) :
    ∃ d', srcProcess m st d = .ok (e, m, st, d') := process_rejects h hch

/-- At most one code is possible, so the order of the checks is fixed by the specification. -/
theorem C02_unique (st : Option SrcState) (d : Option SrcData) (e e' : ℤ) (h : FirstFailing st d e) (h' : FirstFailing st d e') :
    e = e' := by
  cases h <;> cases h' <;> simp_all

/-! ### C03 -/

/-- Two ranges share a sample. -/
def Share (a n b k : ℤ) : Prop := ∃ x, a ≤ x ∧ x < a + n ∧ b ≤ x ∧ x < b + k

/-- C03, first half: if the two ranges share a sample no conversion is run: the call returns an argument error and the memory
and the handle are as before. -/
theorem C03_shared_rejected (m : Mem) (s : SrcState) (d : SrcData) (hmode : s.mode = .process)
    (hch : 0 ≤ s.channels) (h1 : samples s.channels d.inputFrames < 2 ^ 63) (h2 : samples s.channels d.outputFrames < 2 ^ 63)
    (hs : Share d.dataIn (samples s.channels d.inputFrames) d.dataOut (samples s.channels d.outputFrames)) :
    ∃ e d', srcProcess m (some s) (some d) = .ok (e, m, some s, d') ∧ (e = 4 ∨ e = 6 ∨ e = 16) := by
  have hc : Clash d.dataIn (samples s.channels d.inputFrames) d.dataOut (samples s.channels d.outputFrames) := by
    obtain ⟨x, a, b, c, e⟩ := hs
    unfold Clash; omega
  have hcc : ∀ s' x, some s = some s' → some d = some x → 0 ≤ s'.channels ∧ samples s'.channels x.inputFrames < 2 ^ 63 ∧
      samples s'.channels x.outputFrames < 2 ^ 63 := by
    intro s' x hs hx
    rw [← Option.some.inj hs, ← Option.some.inj hx]; exact ⟨hch, h1, h2⟩
  by_cases hb : MissingBuffer d
  · obtain ⟨d', h⟩ := process_rejects (m := m) (.buffer s d rfl hmode rfl hb) hcc
    exact ⟨4, d', h, by simp⟩
  by_cases hr : BadRatio d.srcRatio
  · obtain ⟨d', h⟩ := process_rejects (m := m) (.ratio s d rfl hmode rfl hb hr) hcc
    exact ⟨6, d', h, by simp⟩
  · obtain ⟨d', h⟩ := process_rejects (m := m) (.overlap s d rfl hmode rfl hb hr hc) hcc
    exact ⟨16, d', h, by simp⟩

/-- C03, second half: `SRC_ERR_DATA_OVERLAP` on two non-empty ranges means that they share a sample. -/
theorem C03_reported_shared (m m' : Mem) (s : SrcState) (d : SrcData) (s' : Option SrcState) (d' : Option SrcData)
    (h : srcProcess m (some s) (some d) = .ok (16, m', s', d'))
    (h1 : 0 < samples s.channels d.inputFrames) (h2 : 0 < samples s.channels d.outputFrames) :
    Share d.dataIn (samples s.channels d.inputFrames) d.dataOut (samples s.channels d.outputFrames) := by
  rcases process_error_inv h with ⟨hf, _, _⟩ | ⟨hp, _⟩
  · cases hf with
    | overlap s1 x h1 h2 h3 h4 h5 h6 =>
      rw [← Option.some.inj h1, ← Option.some.inj h3] at h6
      rcases h6 with ⟨a, b⟩ | ⟨a, b⟩
      · exact ⟨d.dataOut, by omega, by omega, by omega, by omega⟩
      · exact ⟨d.dataIn, by omega, by omega, by omega, by omega⟩
  · rcases hp with h | h | h | h <;> norm_num at h

/-- A handle for examples. -/
def sampleHandle : SrcState :=
  { vt := .zoh, lastRatio := zero64, lastPosition := zero64, error := 0, channels := 2, mode := .process, callbackFunc := none,
    userData := 0, savedFrames := 0, savedData := 0,
    priv := .zoh { dirty := false, inCount := 0, inUsed := 0, outCount := 0, outGen := 0, lastValue := [zero32, zero32] } }

/-- Two overlapping ranges meet the hypotheses of C03. -/
example : Share 100 (samples sampleHandle.channels 10) 119 (samples sampleHandle.channels 5) ∧
    samples sampleHandle.channels 10 < 2 ^ 63 := by
  constructor
  · exact ⟨119, by decide, by decide, by decide, by decide⟩
  · decide

/-- The six kinds of rejection all occur. -/
example (x : SrcData) (hx : x.dataIn = 0) (hx2 : x.inputFrames = 3) :
    FirstFailing none none 2 ∧ FirstFailing (some { sampleHandle with mode := .callback }) none 18 ∧
    FirstFailing (some sampleHandle) none 3 ∧ FirstFailing (some sampleHandle) (some x) 4 ∧
    FirstFailing (some sampleHandle) (some { x with dataIn := 10, dataOut := 100, srcRatio := .inf false }) 6 ∧
    FirstFailing (some sampleHandle) (some { x with dataIn := 10, dataOut := 12, srcRatio := .fin 1 ⟨by simpa using rep64_int (n := 1) (by norm_num), by
      rw [abs_one]; exact one_lt_emax⟩ }) 16 := by
  refine ⟨.state rfl, .mode _ rfl (by decide), .data _ rfl rfl rfl, .buffer _ _ rfl rfl rfl (Or.inl ⟨hx, by omega⟩),
    .ratio _ _ rfl rfl rfl ?_ trivial, .overlap _ _ rfl rfl rfl ?_ ?_ ?_⟩
  · simp [MissingBuffer]
  · simp [MissingBuffer]
  · simp [BadRatio]; norm_num
  · left; simp only [samples, hx2, sampleHandle]; norm_num

/-! ### C29 -/

/-- C29: `src_strerror` has a text exactly for the codes 0..23, different codes have different texts, and the text
for 0 says that there is no error. -/
theorem C29 (e : ℤ) : (srcStrerror e ≠ none ↔ 0 ≤ e ∧ e ≤ 23) ∧
    (∀ e', srcStrerror e ≠ none → srcStrerror e = srcStrerror e' → e = e') ∧ srcStrerror 0 = some "No error." := by
  have dom : ∀ e : ℤ, srcStrerror e ≠ none → 0 ≤ e ∧ e ≤ 23 := by
    intro e h
    by_contra hh
    apply h
    unfold srcStrerror
    simp only [Err.NO_ERROR, Err.MALLOC_FAILED, Err.BAD_STATE, Err.BAD_DATA, Err.BAD_DATA_PTR, Err.NO_PRIVATE, Err.BAD_SRC_RATIO,
      Err.BAD_SINC_STATE, Err.BAD_PROC_PTR, Err.SHIFT_BITS, Err.FILTER_LEN, Err.BAD_CONVERTER, Err.BAD_CHANNEL_COUNT,
      Err.SINC_BAD_BUFFER_LEN, Err.SIZE_INCOMPATIBILITY, Err.BAD_PRIV_PTR, Err.DATA_OVERLAP, Err.BAD_CALLBACK, Err.BAD_MODE,
      Err.NULL_CALLBACK, Err.NO_VARIABLE_RATIO, Err.SINC_PREPARE_DATA_BAD_LEN, Err.BAD_INTERNAL_STATE, Err.MAX_ERROR]
    simp only [show e ≠ 0 by omega, show e ≠ 1 by omega, show e ≠ 2 by omega, show e ≠ 3 by omega, show e ≠ 4 by omega, show e ≠ 5 by omega, show e ≠ 6 by omega, show e ≠ 7 by omega, show e ≠ 8 by omega, show e ≠ 9 by omega, show e ≠ 10 by omega, show e ≠ 11 by omega, show e ≠ 12 by omega, show e ≠ 13 by omega, show e ≠ 14 by omega, show e ≠ 15 by omega, show e ≠ 16 by omega, show e ≠ 17 by omega, show e ≠ 18 by omega, show e ≠ 19 by omega, show e ≠ 20 by omega, show e ≠ 21 by omega, show e ≠ 22 by omega, show e ≠ 23 by omega, if_false]
  have tbl : ∀ a b : Fin 24, srcStrerror (a.val : ℤ) ≠ none ∧
      (srcStrerror (a.val : ℤ) = srcStrerror (b.val : ℤ) → a = b) := by decide +kernel
  refine ⟨⟨dom e, fun h => ?_⟩, fun e' h1 h2 => ?_, rfl⟩
  · have := (tbl ⟨e.toNat, by omega⟩ 0).1
    simpa [Int.toNat_of_nonneg h.1] using this
  · have d1 := dom e h1
    have d2 := dom e' (h2 ▸ h1)
    have := (tbl ⟨e.toNat, by omega⟩ ⟨e'.toNat, by omega⟩).2
      (by simpa [Int.toNat_of_nonneg d1.1, Int.toNat_of_nonneg d2.1] using h2)
    have := congrArg Fin.val this
    simp only at this
    omega

/-! ### C30 (names and descriptions; `src_new` is in `Verif.Props.Heap`) -/

/-- C30, tables: names and descriptions exist exactly for the converter types 0..4, names are distinct, and
name and description of a type are those of the documented kind. -/
theorem C30_tables (n : ℤ) : (srcGetName n ≠ none ↔ 0 ≤ n ∧ n ≤ 4) ∧ (srcGetDescription n ≠ none ↔ 0 ≤ n ∧ n ≤ 4) ∧
    (∀ n', srcGetName n ≠ none → srcGetName n = srcGetName n' → n = n') ∧
    ∀ k : Fin 5, (∃ s t, srcGetName k = some s ∧ srcGetDescription k = some t ∧
      (converterKind k).1.toList <+: s.toList ∧ (converterKind k).2.toList <+: t.toList) := by
  have dom : ∀ n : ℤ, ¬ (0 ≤ n ∧ n ≤ 4) → srcGetName n = none ∧ srcGetDescription n = none := by
    intro n h
    constructor
    · simp only [srcGetName, sincGetName, zohGetName, linearGetName, SRC_SINC_BEST_QUALITY, SRC_SINC_MEDIUM_QUALITY, SRC_SINC_FASTEST,
        SRC_ZERO_ORDER_HOLD, SRC_LINEAR]
      simp only [show n ≠ 0 by omega, show n ≠ 1 by omega, show n ≠ 2 by omega, show n ≠ 3 by omega, show n ≠ 4 by omega, if_false]
    · simp only [srcGetDescription, sincGetDescription, zohGetDescription, linearGetDescription, SRC_SINC_BEST_QUALITY,
        SRC_SINC_MEDIUM_QUALITY, SRC_SINC_FASTEST, SRC_ZERO_ORDER_HOLD, SRC_LINEAR]
      simp only [show n ≠ 0 by omega, show n ≠ 1 by omega, show n ≠ 2 by omega, show n ≠ 3 by omega, show n ≠ 4 by omega, if_false]
  have tbl : ∀ a b : Fin 5, srcGetName (a.val : ℤ) ≠ none ∧ srcGetDescription (a.val : ℤ) ≠ none ∧
      (srcGetName (a.val : ℤ) = srcGetName (b.val : ℤ) → a = b) := by decide +kernel
  have hin : ∀ n : ℤ, 0 ≤ n ∧ n ≤ 4 → srcGetName n ≠ none ∧ srcGetDescription n ≠ none := by
    intro n h
    have := tbl ⟨n.toNat, by omega⟩ 0
    simp only [Int.toNat_of_nonneg h.1] at this
    exact ⟨this.1, this.2.1⟩
  refine ⟨⟨fun h => ?_, fun h => (hin n h).1⟩, ⟨fun h => ?_, fun h => (hin n h).2⟩, fun n' h1 h2 => ?_, fun k => ?_⟩
  rotate_right
  · have key : ∀ k : Fin 5, ((srcGetName (k.val : ℤ)).any fun s => (converterKind k).1.toList.isPrefixOf s.toList) = true ∧
        ((srcGetDescription (k.val : ℤ)).any fun s => (converterKind k).2.toList.isPrefixOf s.toList) = true := by decide +kernel
    obtain ⟨k1, k2⟩ := key k
    simp only [Option.any_eq_true, List.isPrefixOf_iff_prefix] at k1 k2
    obtain ⟨s, h1, h2⟩ := k1
    obtain ⟨t, h3, h4⟩ := k2
    exact ⟨s, t, h1, h3, h2, h4⟩
  · by_contra hh; exact h (dom n hh).1
  · by_contra hh; exact h (dom n hh).2
  · have d1 : 0 ≤ n ∧ n ≤ 4 := by by_contra hh; exact h1 (dom n hh).1
    have d2 : 0 ≤ n' ∧ n' ≤ 4 := by by_contra hh; exact (h2 ▸ h1) (dom n' hh).1
    have := (tbl ⟨n.toNat, by omega⟩ ⟨n'.toNat, by omega⟩).2.2
      (by simpa [Int.toNat_of_nonneg d1.1, Int.toNat_of_nonneg d2.1] using h2)
    have := congrArg Fin.val this
    simp only at this
    omega

end Verif
