import Verif.Props.Convert
import Verif.Props.Recording
import Verif.Spec.Pcm

/-! Conversion of 16 bit audio (C72). -/

namespace Verif
open Spec

section
variable {cfg : Config} {ch : ℕ} {m : Mem} {d : SrcData} {r : ℚ} {x : List ℤ} {type : ℤ}

/-- The input buffer of the program. -/
theorem short_input (m : Mem) (d : SrcData) (x : List ℤ) : ∃ y, srcShortToFloatArray x (List.replicate x.length zero32) x.length = .ok y ∧
    ∀ i v, x[i]? = some v → stored m d.dataIn y (d.dataIn + ((i : ℕ) : ℤ)) = shortToFloat v := by
  obtain ⟨y, h1, h2, h3, -⟩ := convLoop_spec shortToFloat x (List.replicate x.length zero32) x.length le_rfl (by simp)
  refine ⟨y, h1, fun i v hv => ?_⟩
  have hi : i < x.length := by
    by_contra h
    rw [List.getElem?_eq_none (by omega)] at hv
    cases hv
  unfold stored
  rw [if_pos (by omega), show (d.dataIn + (i : ℤ) - d.dataIn).toNat = i by omega, h3 i (by omega), hv]
  rfl

/-- What the program does if `src_simple` succeeds. -/
theorem short_output {y : List F32} {m' : Mem} {d' : SrcData} (h1 : srcShortToFloatArray x (List.replicate x.length zero32) x.length = .ok y)
    (h2 : srcSimple cfg (stored m d.dataIn y) (some d) type ch = .ok (0, m', some d')) (h0 : 0 ≤ d'.outputFramesGen) :
    ∃ w, shortProgram cfg m x d type ch = .ok (0, some d', w) ∧ (w.length : ℤ) = d'.outputFramesGen * ch ∧
      ∀ j c : ℕ, (j : ℤ) < d'.outputFramesGen → c < ch → w[ch * j + c]? = some (floatToShort (m' (d.dataOut + ((ch * j + c : ℕ) : ℤ)))) := by
  set n : ℕ := (d'.outputFramesGen * ch).toNat with hn
  have hn' : (n : ℤ) = d'.outputFramesGen * ch := by rw [hn]; exact Int.toNat_of_nonneg (by positivity)
  obtain ⟨w, w1, w2, w3, -⟩ := convLoop_spec floatToShort (loaded m' d.dataOut n) (List.replicate n 0) n (by simp [loaded]) (by simp)
  refine ⟨w, ?_, by rw [w2, List.length_replicate, hn'], fun j c hj hc => ?_⟩
  · unfold shortProgram
    rw [h1]
    simp only [bind, Except.bind]
    rw [h2]
    simp only [Option.getD_some]
    rw [← hn]
    unfold srcFloatToShortArray
    rw [w1]
    rfl
  · have hi : ch * j + c < n := by
      have : ((ch * j + c : ℕ) : ℤ) < d'.outputFramesGen * ch := by
        push_cast
        have : ((c : ℕ) : ℤ) < ch := by exact_mod_cast hc
        nlinarith
      omega
    rw [w3 _ (by exact_mod_cast hi)]
    unfold loaded
    rw [List.getElem?_map, List.getElem?_range hi]
    rfl

/-- The short at a place within the input. -/
theorem short_at (hlen : (x.length : ℤ) = d.inputFrames * ch) {k c : ℕ} (hk : (k : ℤ) < d.inputFrames) (hc : c < ch) : ∃ v, v ∈ x ∧ x[ch * k + c]? = some v := by
  have hi : ch * k + c < x.length := by
    have : ((ch * k + c : ℕ) : ℤ) < d.inputFrames * ch := by
      push_cast
      have : ((c : ℕ) : ℤ) < ch := by exact_mod_cast hc
      nlinarith
    omega
  exact ⟨_, List.getElem_mem hi, List.getElem?_eq_getElem hi⟩

/-- The input signal of the program. -/
theorem short_signal {y : List F32} (hx : ∀ s ∈ x, IsShort s) (hlen : (x.length : ℤ) = d.inputFrames * ch)
    (hy : ∀ i v, x[i]? = some v → stored m d.dataIn y (d.dataIn + ((i : ℕ) : ℤ)) = shortToFloat v) {k c : ℕ} (hk : (k : ℤ) < d.inputFrames) (hc : c < ch) :
    ∃ v, x[ch * k + c]? = some v ∧ inputOf ch (stored m d.dataIn y) d k c = shortToFloat v ∧ floatToShort (inputOf ch (stored m d.dataIn y) d k c) = v ∧
      (inputOf ch (stored m d.dataIn y) d k c).val = some ((v : ℚ) / 32768) := by
  obtain ⟨v, h1, h2⟩ := short_at hlen hk hc
  have hv := hx v h1
  have e : inputOf ch (stored m d.dataIn y) d k c = shortToFloat v := by
    unfold inputOf
    rw [if_pos hk]
    exact hy _ _ h2
  refine ⟨v, h2, e, ?_, ?_⟩
  · rw [e]; exact short_roundtrip hv.1 hv.2
  · rw [e]; exact shortToFloat_val (by rw [_root_.abs_le]; exact ⟨hv.1, hv.2.trans (by norm_num)⟩)

/-- A sample close to a value within full scale gives a short close to it. -/
theorem short_near {v : F32} {y : ℚ} {t e : ℝ} (hv : v.val = some y) (hy : |(y : ℝ) - t| ≤ e) (ht : |t| ≤ 1) (he : 1 / 65536 ≤ e) :
    |(floatToShort v : ℝ) - 32768 * t| ≤ 32768 * e + 1 / 2 := by
  have hq := floatToShort_quantised v
  obtain ⟨s, hs⟩ := Fl.eq_fin_of_val hv
  rw [hs] at hq
  obtain ⟨k, hk, hn⟩ := hq
  rw [hs]
  have hk' := nearestEven_unique hk (rne_nearestEven _)
  have hb := abs_rne_sub_le (32768 * y)
  rw [← hk'] at hb
  have hb2 : |(k : ℝ) - 32768 * (y : ℝ)| ≤ 1 / 2 := by
    have := Alias.abs_cast hb
    push_cast at this
    exact this
  rw [hn]
  have h1 := _root_.abs_le.1 hb2
  have h2 := _root_.abs_le.1 hy
  have h3 := _root_.abs_le.1 ht
  have e0 := (abs_nonneg _).trans hy
  push_cast
  rw [_root_.abs_le]
  rcases le_total (32767 : ℝ) k with h | h
  · rw [min_eq_left h, max_eq_right (by norm_num)]
    constructor <;> linarith
  · rw [min_eq_right h]
    rcases le_total (-32768 : ℝ) k with h' | h'
    · rw [max_eq_right h']
      constructor <;> linarith
    · rw [max_eq_left h']
      constructor <;> linarith

/-- A 16 bit recording in the input buffer of the program. -/
theorem short_recording {y : List F32} (hx : ∀ s ∈ x, IsShort s) (hlen : (x.length : ℤ) = d.inputFrames * ch)
    (hy : ∀ i v, x[i]? = some v → stored m d.dataIn y (d.dataIn + ((i : ℕ) : ℤ)) = shortToFloat v) {c : ℕ} (hc : c < ch) {s : ℝ → ℝ}
    (h : ShortRecording ch x d.inputFrames c s) : RecordingOf ch (stored m d.dataIn y) d c s (1 / 65536) := by
  intro k hk
  obtain ⟨v, h1, h2, -, h4⟩ := short_signal (m := m) hx hlen hy hk hc
  obtain ⟨v', h5, h6⟩ := h k hk
  rw [h1] at h5
  cases h5
  unfold inputOf at h4
  rw [if_pos hk] at h4
  refine ⟨_, h4, ?_⟩
  have := _root_.abs_le.1 h6
  push_cast
  rw [_root_.abs_le]
  constructor <;> linarith

end

/-- C72, zero order hold: the program gives shorts of the input only, unchanged: each output short is the short of the same channel of an input frame at most one frame, and the rounding of the clock, from one frame before the
time of the output frame. -/
theorem C72_zoh (cfg : Config) (hL : LibraryTables cfg) (ch : ℕ) (h1 : 1 ≤ ch) (h2 : ch ≤ 8355967) (m : Mem) (d : SrcData) (r : ℚ) (hA : ProperArgs ch r d)
    (x : List ℤ) (hx : ∀ s ∈ x, IsShort s) (hlen : (x.length : ℤ) = d.inputFrames * ch) :
    ∃ d' w, shortProgram cfg m x d SRC_ZERO_ORDER_HOLD ch = .ok (0, some d', w) ∧ (w.length : ℤ) = d'.outputFramesGen * ch ∧
      ∀ j c : ℕ, (j : ℤ) < d'.outputFramesGen → c < ch → ∃ (k : ℕ) (v : ℤ), (k : ℤ) < d.inputFrames ∧ |(k : ℚ) - behind (j / r)| ≤ 1 + j / 2 ^ 44 ∧
        x[ch * k + c]? = some v ∧ w[ch * j + c]? = some v := by
  obtain ⟨y, y1, y2⟩ := short_input m d x
  obtain ⟨m', d', a1, a2, -, -, a5⟩ := C60_interp cfg hL _ (Or.inl rfl) ch h1 h2 (stored m d.dataIn y) d r hA (fun h => absurd h (by decide))
  obtain ⟨w, w1, w2, w3⟩ := short_output y1 a1 a2.gen0
  refine ⟨d', w, w1, w2, fun j c hj hc => ?_⟩
  obtain ⟨τ, c1, c0, c2⟩ := a2.frames j c hj hc
  have hk := a5 j hj
  rw [← c0] at hk
  have hin := hA.input
  have hk' : ((⌊τ⌋₊ - 1 : ℕ) : ℤ) < d.inputFrames := by omega
  obtain ⟨v, v1, -, v3, -⟩ := short_signal (m := m) hx hlen y2 hk' hc
  refine ⟨⌊τ⌋₊ - 1, v, hk', ?_, v1, ?_⟩
  · have hb := behind_drift c1
    have t0 : 0 ≤ τ := c0 ▸ time_nonneg _ j
    have f1 := Nat.floor_le t0
    have f2 := Nat.lt_floor_add_one τ
    have : |((⌊τ⌋₊ - 1 : ℕ) : ℚ) - behind τ| ≤ 1 := by
      unfold behind
      rcases Nat.eq_zero_or_pos ⌊τ⌋₊ with h | h
      · rw [h] at f2 ⊢
        rw [max_eq_left (by norm_num at f2; linarith)]
        norm_num
      · have h' : (1 : ℚ) ≤ ⌊τ⌋₊ := by exact_mod_cast h
        rw [Nat.cast_sub h, max_eq_right (by linarith), _root_.abs_le]
        push_cast
        constructor <;> linarith
    exact (abs_sub_le _ _ _).trans (add_le_add this hb)
  · rw [w3 j c hj hc, c2]
    unfold idealAt
    rw [if_pos (by rfl), v3]

/-- C72, ratio 1: with zero order hold, and with linear on at least three frames, the output is the input delayed by one frame, bit for bit. -/
theorem C72_same_rate (cfg : Config) (hL : LibraryTables cfg) (type : ℤ) (ht : type = SRC_ZERO_ORDER_HOLD ∨ type = SRC_LINEAR) (ch : ℕ) (h1 : 1 ≤ ch) (h2 : ch ≤ 8355967) (m : Mem) (d : SrcData)
    (hA : ProperArgs ch 1 d) (h3 : 3 ≤ d.inputFrames) (x : List ℤ) (hx : ∀ s ∈ x, IsShort s) (hlen : (x.length : ℤ) = d.inputFrames * ch) :
    ∃ d' w, shortProgram cfg m x d type ch = .ok (0, some d', w) ∧ (w.length : ℤ) = d'.outputFramesGen * ch ∧
      ∀ j c : ℕ, (j : ℤ) < d'.outputFramesGen → c < ch → ∃ v : ℤ, x[ch * (j - 1) + c]? = some v ∧ w[ch * j + c]? = some v := by
  obtain ⟨y, y1, y2⟩ := short_input m d x
  obtain ⟨m', d', a1, a2, -, -, a5⟩ := C60_interp cfg hL type ht ch h1 h2 (stored m d.dataIn y) d 1 hA (fun _ => h3)
  obtain ⟨w, w1, w2, w3⟩ := short_output y1 a1 a2.gen0
  refine ⟨d', w, w1, w2, fun j c hj hc => ?_⟩
  obtain ⟨τ, -, c0, c2⟩ := a2.frames j c hj hc
  have hk := a5 j hj
  have et : timeAt (fun _ => (1 : ℚ)) j = j := by unfold timeAt; rw [posAt_one]; simp
  rw [et] at hk c0
  rw [Nat.floor_natCast] at hk
  have hin := hA.input
  have hk' : ((j - 1 : ℕ) : ℤ) < d.inputFrames := by omega
  obtain ⟨v, v1, v2, v3, v4⟩ := short_signal (m := m) hx hlen y2 hk' hc
  refine ⟨v, v1, ?_⟩
  rw [w3 j c hj hc, c2, c0]
  unfold idealAt
  rw [Nat.floor_natCast]
  split_ifs
  · rw [v3]
  · obtain ⟨q, hq⟩ : ∃ q : ℚ, (inputOf ch (stored m d.dataIn y) d j c).val = some q := by
      by_cases hjN : (j : ℤ) < d.inputFrames
      · obtain ⟨v', -, -, -, h⟩ := short_signal (m := m) hx hlen y2 hjN hc
        exact ⟨_, h⟩
      · unfold inputOf
        rw [if_neg hjN]
        exact ⟨0, zero32_val⟩
    rw [Int.fract_natCast, linearSample_zero v4 hq, v3]

/-- The number of frames generated is not negative. -/
theorem simple_gen0 {cfg : Config} (hL : LibraryTables cfg) {type : ℤ} (ht : SincType type) (hF : (cfg.table type).isSome) {ch : ℕ} (h1 : 1 ≤ ch) (h2 : ch ≤ 128) {m m' : Mem} {d d' : SrcData} {r : ℚ}
    (hA : ProperArgs ch r d) (hr : 1 / 180 ≤ r) (h : srcSimple cfg m (some d) type ch = .ok (0, m', some d')) : 0 ≤ d'.outputFramesGen := by
  obtain ⟨t, hT⟩ := Option.isSome_iff_exists.1 hF
  obtain ⟨m2, d2, a1, a2, -⟩ := C60_sinc cfg hL type ht t hT ch h1 h2 m d r hA hr
  rw [h] at a1
  have := ok_inj a1
  simp only [Prod.mk.injEq, Option.some.injEq, true_and] at this
  rw [this.2]
  exact a2.gen0

/-- C72, fast sinc converter, ratio at least 1: a 16 bit recording of tones up to 2 radians per frame and full scale comes out as a 16 bit recording of the same tones at the new rate, each short at
most 5 units (of 65536), and the rounding of the clock, from the exact value. -/
theorem C72_fastest_up (cfg : Config) (hL : LibraryTables cfg) (hP : ShippedTables cfg) (hF : (cfg.table SRC_SINC_FASTEST).isSome) (ch : ℕ) (h1 : 1 ≤ ch) (h2 : ch ≤ 128) (m : Mem) (d : SrcData) (r : ℚ)
    (hA : ProperArgs ch r d) (hr : 1 ≤ r) (hroom : (d.inputFrames + d.outputFrames / 2 ^ 44) * r + 1 < (d.outputFrames : ℚ)) (x : List ℤ) (hx : ∀ s ∈ x, IsShort s)
    (hlen : (x.length : ℤ) = d.inputFrames * ch) :
    ∃ d' w, shortProgram cfg m x d SRC_SINC_FASTEST ch = .ok (0, some d', w) ∧ d'.inputFramesUsed = d.inputFrames ∧ (w.length : ℤ) = d'.outputFramesGen * ch ∧
      |(d'.outputFramesGen : ℚ) - d.inputFrames * r| ≤ 1 + (d'.outputFramesGen / 2 ^ 44 + 1 / 10 ^ 6) * r ∧
      ∀ j c n A ω θ, (j : ℕ) < d'.outputFramesGen → c < ch → ToneLimits n A ω 2 → loudness n A ≤ 1 → ShortRecording ch x d.inputFrames c (tones n A ω θ) →
        22 ≤ (j : ℚ) / r → (j : ℚ) / r + 22 ≤ d.inputFrames → ∃ v : ℤ, w[ch * j + c]? = some v ∧ |(v : ℝ) - 32768 * tones n A ω θ (j / r)| ≤ 5 + j / 2 ^ 28 := by
  obtain ⟨y, y1, y2⟩ := short_input m d x
  obtain ⟨m', d', a1, a2, a3, a4⟩ := C68_fastest_up cfg hL hP hF ch h1 h2 (stored m d.dataIn y) d r hA hr hroom
  have g0 : 0 ≤ d'.outputFramesGen := simple_gen0 hL (Or.inr (Or.inr rfl)) hF h1 h2 hA (by linarith) a1
  obtain ⟨w, w1, w2, w3⟩ := short_output y1 a1 g0
  refine ⟨d', w, w1, a2, w2, a3, fun j c n A ω θ hj hc hLim hl hs hE1 hE2 => ⟨_, w3 j c hj hc, ?_⟩⟩
  have l0 := loudness_nonneg hLim
  obtain ⟨z, z1, z2⟩ := a4 j c n A ω θ (1 / 65536) hj hc hLim (by norm_num) (by norm_num; linarith) (short_recording hx hlen y2 hc hs) hE1 hE2
  refine (short_near z1 z2 ((tones_le hLim θ _).trans hl) ?_).trans ?_
  · have := mul_nonneg l0 (show (0 : ℝ) ≤ 1 / 10000 + 2 * ((j : ℝ) / 2 ^ 44) by positivity)
    linarith
  have j0 : (0 : ℝ) ≤ j := Nat.cast_nonneg _
  have := mul_le_mul_of_nonneg_right hl (show (0 : ℝ) ≤ 1 / 10000 + 2 * (j / 2 ^ 44) by positivity)
  linarith

/-- C72, medium sinc converter, ratio at least 1: tones up to 2.6 radians per frame, 3 units. -/
theorem C72_medium_up (cfg : Config) (hL : LibraryTables cfg) (hP : ShippedTables cfg) (hF : (cfg.table SRC_SINC_MEDIUM_QUALITY).isSome) (ch : ℕ) (h1 : 1 ≤ ch) (h2 : ch ≤ 128) (m : Mem) (d : SrcData) (r : ℚ)
    (hA : ProperArgs ch r d) (hr : 1 ≤ r) (hroom : (d.inputFrames + d.outputFrames / 2 ^ 44) * r + 1 < (d.outputFrames : ℚ)) (x : List ℤ) (hx : ∀ s ∈ x, IsShort s)
    (hlen : (x.length : ℤ) = d.inputFrames * ch) :
    ∃ d' w, shortProgram cfg m x d SRC_SINC_MEDIUM_QUALITY ch = .ok (0, some d', w) ∧ d'.inputFramesUsed = d.inputFrames ∧ (w.length : ℤ) = d'.outputFramesGen * ch ∧
      |(d'.outputFramesGen : ℚ) - d.inputFrames * r| ≤ 1 + (d'.outputFramesGen / 2 ^ 44 + 1 / 10 ^ 6) * r ∧
      ∀ j c n A ω θ, (j : ℕ) < d'.outputFramesGen → c < ch → ToneLimits n A ω (13 / 5) → loudness n A ≤ 1 → ShortRecording ch x d.inputFrames c (tones n A ω θ) →
        48 ≤ (j : ℚ) / r → (j : ℚ) / r + 48 ≤ d.inputFrames → ∃ v : ℤ, w[ch * j + c]? = some v ∧ |(v : ℝ) - 32768 * tones n A ω θ (j / r)| ≤ 3 + j / 2 ^ 27 := by
  obtain ⟨y, y1, y2⟩ := short_input m d x
  obtain ⟨m', d', a1, a2, a3, a4⟩ := C68_medium_up cfg hL hP hF ch h1 h2 (stored m d.dataIn y) d r hA hr hroom
  have g0 : 0 ≤ d'.outputFramesGen := simple_gen0 hL (Or.inr (Or.inl rfl)) hF h1 h2 hA (by linarith) a1
  obtain ⟨w, w1, w2, w3⟩ := short_output y1 a1 g0
  refine ⟨d', w, w1, a2, w2, a3, fun j c n A ω θ hj hc hLim hl hs hE1 hE2 => ⟨_, w3 j c hj hc, ?_⟩⟩
  have l0 := loudness_nonneg hLim
  obtain ⟨z, z1, z2⟩ := a4 j c n A ω θ (1 / 65536) hj hc hLim (by norm_num) (by norm_num; linarith) (short_recording hx hlen y2 hc hs) hE1 hE2
  refine (short_near z1 z2 ((tones_le hLim θ _).trans hl) ?_).trans ?_
  · have := mul_nonneg l0 (show (0 : ℝ) ≤ 1 / 30000 + 13 / 5 * ((j : ℝ) / 2 ^ 44) by positivity)
    linarith
  have j0 : (0 : ℝ) ≤ j := Nat.cast_nonneg _
  have := mul_le_mul_of_nonneg_right hl (show (0 : ℝ) ≤ 1 / 30000 + 13 / 5 * (j / 2 ^ 44) by positivity)
  linarith

theorem bands_loudness {n : ℕ} {A ω : ℕ → ℝ} {lo hi : ℝ} (h : ToneBands n A ω lo hi) : 0 ≤ loudness n A := Finset.sum_nonneg fun k hk => (h k (Finset.mem_range.1 hk)).1

theorem upTo_le {n : ℕ} {A ω : ℕ → ℝ} {lo hi : ℝ} (h : ToneBands n A ω lo hi) (θ : ℕ → ℝ) (t : ℝ) : |tonesUpTo lo n A ω θ t| ≤ loudness n A := by
  unfold tonesUpTo loudness
  refine (Finset.abs_sum_le_sum_abs _ _).trans (Finset.sum_le_sum (fun k hk => ?_))
  have hA := (h k (Finset.mem_range.1 hk)).1
  split_ifs
  · rw [abs_mul, abs_of_nonneg hA]
    exact mul_le_of_le_one_right hA (Real.abs_cos_le_one _)
  · rwa [abs_zero]

/-- C72, fast sinc converter, ratio from 1/180 to 1: the tones the new rate can represent come out, each short at most 12 units, `1 / (30 r)` and the rounding of the clock from the exact value. -/
theorem C72_fastest_down (cfg : Config) (hL : LibraryTables cfg) (hP : ShippedTables cfg) (hF : (cfg.table SRC_SINC_FASTEST).isSome) (ch : ℕ) (h1 : 1 ≤ ch) (h2 : ch ≤ 128) (m : Mem) (d : SrcData) (r : ℚ)
    (hA : ProperArgs ch r d) (hr : 1 / 180 ≤ r) (hr1 : r ≤ 1) (hroom : (d.inputFrames + d.outputFrames / 2 ^ 44) * r + 1 < (d.outputFrames : ℚ)) (x : List ℤ) (hx : ∀ s ∈ x, IsShort s)
    (hlen : (x.length : ℤ) = d.inputFrames * ch) :
    ∃ d' w, shortProgram cfg m x d SRC_SINC_FASTEST ch = .ok (0, some d', w) ∧ d'.inputFramesUsed = d.inputFrames ∧ (w.length : ℤ) = d'.outputFramesGen * ch ∧
      |(d'.outputFramesGen : ℚ) - d.inputFrames * r| ≤ 1 + (d'.outputFramesGen / 2 ^ 44 + 1 / 10 ^ 6) * r ∧
      ∀ j c n A ω θ, (j : ℕ) < d'.outputFramesGen → c < ch → ToneBands n A ω (1999 / 1000 * r) (1001 / 1000 * Real.pi * r) → loudness n A ≤ 1 →
        ShortRecording ch x d.inputFrames c (tones n A ω θ) → 21 / r + 1 ≤ (j : ℚ) / r → (j : ℚ) / r + 21 / r + 1 ≤ d.inputFrames →
        ∃ v : ℤ, w[ch * j + c]? = some v ∧ |(v : ℝ) - 32768 * tonesUpTo (1999 / 1000 * r) n A ω θ (j / r)| ≤ 12 + 1 / (30 * r) + j / 2 ^ 28 := by
  obtain ⟨y, y1, y2⟩ := short_input m d x
  obtain ⟨m', d', a1, a2, a3, a4⟩ := C68_fastest_down cfg hL hP hF ch h1 h2 (stored m d.dataIn y) d r hA hr hr1 hroom
  have g0 : 0 ≤ d'.outputFramesGen := simple_gen0 hL (Or.inr (Or.inr rfl)) hF h1 h2 hA (by linarith) a1
  obtain ⟨w, w1, w2, w3⟩ := short_output y1 a1 g0
  refine ⟨d', w, w1, a2, w2, a3, fun j c n A ω θ hj hc hLim hl hs hE1 hE2 => ⟨_, w3 j c hj hc, ?_⟩⟩
  have l0 := bands_loudness hLim
  obtain ⟨z, z1, z2⟩ := a4 j c n A ω θ (1 / 65536) hj hc hLim (by norm_num) (by norm_num; linarith) (short_recording hx hlen y2 hc hs) hE1 hE2
  refine (short_near z1 z2 ((upTo_le hLim θ _).trans hl) ?_).trans ?_
  · have r0 : (0 : ℝ) < r := by exact_mod_cast (by linarith : 0 < r)
    have := mul_nonneg l0 (show (0 : ℝ) ≤ 1 / 4000 + 1 / (1000000 * (r : ℝ)) + 1999 / 1000 * r * (j / 2 ^ 44) by positivity)
    linarith
  have j0 : (0 : ℝ) ≤ j := Nat.cast_nonneg _
  have r0 : (0 : ℝ) < r := by exact_mod_cast (by linarith : 0 < r)
  have r1 : (r : ℝ) ≤ 1 := by exact_mod_cast hr1
  have k1 := mul_le_mul_of_nonneg_right hl (show (0 : ℝ) ≤ 1 / 4000 + 1 / (1000000 * r) + 1999 / 1000 * r * (j / 2 ^ 44) by positivity)
  have k2 : 1999 / 1000 * (r : ℝ) * (j / 2 ^ 44) ≤ 1999 / 1000 * (j / 2 ^ 44) := by
    have := mul_le_mul_of_nonneg_right r1 (show (0 : ℝ) ≤ 1999 / 1000 * (j / 2 ^ 44) by positivity)
    linarith
  have k3 : 1 / (1000000 * (r : ℝ)) = 1 / r * (1 / 1000000) := by field_simp
  have k4 : 1 / (30 * (r : ℝ)) = 1 / r * (1 / 30) := by field_simp
  have k5 : 0 < 1 / (r : ℝ) := by positivity
  rw [k3] at k1 ⊢
  rw [k4]
  linarith

/-- C72, medium sinc converter, ratio from 1/180 to 1: 24 units. -/
theorem C72_medium_down (cfg : Config) (hL : LibraryTables cfg) (hP : ShippedTables cfg) (hF : (cfg.table SRC_SINC_MEDIUM_QUALITY).isSome) (ch : ℕ) (h1 : 1 ≤ ch) (h2 : ch ≤ 128) (m : Mem) (d : SrcData) (r : ℚ)
    (hA : ProperArgs ch r d) (hr : 1 / 180 ≤ r) (hr1 : r ≤ 1) (hroom : (d.inputFrames + d.outputFrames / 2 ^ 44) * r + 1 < (d.outputFrames : ℚ)) (x : List ℤ) (hx : ∀ s ∈ x, IsShort s)
    (hlen : (x.length : ℤ) = d.inputFrames * ch) :
    ∃ d' w, shortProgram cfg m x d SRC_SINC_MEDIUM_QUALITY ch = .ok (0, some d', w) ∧ d'.inputFramesUsed = d.inputFrames ∧ (w.length : ℤ) = d'.outputFramesGen * ch ∧
      |(d'.outputFramesGen : ℚ) - d.inputFrames * r| ≤ 1 + (d'.outputFramesGen / 2 ^ 44 + 1 / 10 ^ 6) * r ∧
      ∀ j c n A ω θ, (j : ℕ) < d'.outputFramesGen → c < ch → ToneBands n A ω (2598 / 1000 * r) (1001 / 1000 * Real.pi * r) → loudness n A ≤ 1 →
        ShortRecording ch x d.inputFrames c (tones n A ω θ) → 47 / r + 1 ≤ (j : ℚ) / r → (j : ℚ) / r + 47 / r + 1 ≤ d.inputFrames →
        ∃ v : ℤ, w[ch * j + c]? = some v ∧ |(v : ℝ) - 32768 * tonesUpTo (2598 / 1000 * r) n A ω θ (j / r)| ≤ 24 + 1 / (30 * r) + j / 2 ^ 27 := by
  obtain ⟨y, y1, y2⟩ := short_input m d x
  obtain ⟨m', d', a1, a2, a3, a4⟩ := C68_medium_down cfg hL hP hF ch h1 h2 (stored m d.dataIn y) d r hA hr hr1 hroom
  have g0 : 0 ≤ d'.outputFramesGen := simple_gen0 hL (Or.inr (Or.inl rfl)) hF h1 h2 hA (by linarith) a1
  obtain ⟨w, w1, w2, w3⟩ := short_output y1 a1 g0
  refine ⟨d', w, w1, a2, w2, a3, fun j c n A ω θ hj hc hLim hl hs hE1 hE2 => ⟨_, w3 j c hj hc, ?_⟩⟩
  have l0 := bands_loudness hLim
  obtain ⟨z, z1, z2⟩ := a4 j c n A ω θ (1 / 65536) hj hc hLim (by norm_num) (by norm_num; linarith) (short_recording hx hlen y2 hc hs) hE1 hE2
  refine (short_near z1 z2 ((upTo_le hLim θ _).trans hl) ?_).trans ?_
  · have r0 : (0 : ℝ) < r := by exact_mod_cast (by linarith : 0 < r)
    have := mul_nonneg l0 (show (0 : ℝ) ≤ 1 / 1700 + 1 / (1000000 * (r : ℝ)) + 2598 / 1000 * r * (j / 2 ^ 44) by positivity)
    linarith
  have j0 : (0 : ℝ) ≤ j := Nat.cast_nonneg _
  have r0 : (0 : ℝ) < r := by exact_mod_cast (by linarith : 0 < r)
  have r1 : (r : ℝ) ≤ 1 := by exact_mod_cast hr1
  have k1 := mul_le_mul_of_nonneg_right hl (show (0 : ℝ) ≤ 1 / 1700 + 1 / (1000000 * r) + 2598 / 1000 * r * (j / 2 ^ 44) by positivity)
  have k2 : 2598 / 1000 * (r : ℝ) * (j / 2 ^ 44) ≤ 2598 / 1000 * (j / 2 ^ 44) := by
    have := mul_le_mul_of_nonneg_right r1 (show (0 : ℝ) ≤ 2598 / 1000 * (j / 2 ^ 44) by positivity)
    linarith
  have k3 : 1 / (1000000 * (r : ℝ)) = 1 / r * (1 / 1000000) := by field_simp
  have k4 : 1 / (30 * (r : ℝ)) = 1 / r * (1 / 30) := by field_simp
  have k5 : 0 < 1 / (r : ℝ) := by positivity
  rw [k3] at k1 ⊢
  rw [k4]
  linarith

theorem two_val : (dbl 2).val = some 2 := by simpa using dbl_val (n := 2) (by norm_num)

/-- Hundred stereo frames of a tone of a quarter of the sampling rate, half of full scale. -/
def quarterShorts : List ℤ := (List.range 200).map fun i => if i / 2 % 4 = 0 then 16384 else if i / 2 % 4 = 2 then -16384 else 0

theorem quarterShorts_length : quarterShorts.length = 200 := by simp [quarterShorts]

theorem quarterShorts_short : ∀ s ∈ quarterShorts, IsShort s := by
  intro s hs
  obtain ⟨i, -, rfl⟩ := List.mem_map.1 hs
  split_ifs <;> norm_num [IsShort]

theorem quarterShorts_recording {c : ℕ} (hc : c < 2) : ShortRecording 2 quarterShorts 100 c (tones 1 (fun _ => 1 / 2) (fun _ => Real.pi / 2) (fun _ => 0)) := by
  intro k hk
  have hk : k < 100 := by exact_mod_cast hk
  refine ⟨if k % 4 = 0 then 16384 else if k % 4 = 2 then -16384 else 0, ?_, ?_⟩
  · unfold quarterShorts
    rw [List.getElem?_map, List.getElem?_range (by omega), Option.map_some, show (2 * k + c) / 2 = k by omega]
  obtain ⟨q, q1, q2⟩ := quarter_val hk 0
  have e : tones 1 (fun _ => 1 / 2) (fun _ => Real.pi / 2) (fun _ => 0) (k : ℝ) = 1 / 2 * q := by simp [tones, q2]
  rw [e]
  have one : (Fl.ofInt f32 1).val = some 1 := by simpa using Fl.val_ofInt (f := f32) (n := 1) (by norm_num [f32])
  have neg : (Fl.ofInt f32 (-1)).val = some (-1) := by simpa using Fl.val_ofInt (f := f32) (n := -1) (by norm_num [f32])
  have hz := zero32_val
  unfold quarter at q1
  rw [if_pos hk] at q1
  split_ifs at q1 ⊢ with h h' <;> first | rw [one] at q1 | rw [neg] at q1 | rw [hz] at q1
  all_goals cases q1; norm_num

/-- The hypotheses of `C72_fastest_up` are met by this recording: frame 50 of the output is -16384 up to 5 units. -/
example (m : Mem) : ∃ d' w v, shortProgram libCfg m quarterShorts (simpleArgs one64 100 102) SRC_SINC_FASTEST (2 : ℕ) = .ok (0, some d', w) ∧ w[101]? = some v ∧ |v + 16384| ≤ 5 := by
  obtain ⟨d', w, h1, -, -, h3, h4⟩ := C72_fastest_up libCfg libCfg_tables libCfg_shipped rfl 2 (by norm_num) (by norm_num) m _ 1 simpleArgs_proper le_rfl (by norm_num [simpleArgs])
    quarterShorts quarterShorts_short (by rw [quarterShorts_length]; rfl)
  have h10 : (98 : ℚ) < d'.outputFramesGen := by
    have h8 := (_root_.abs_le.1 h3).1
    simp only [simpleArgs] at h8
    push_cast at h8
    norm_num at h8 ⊢
    linarith
  have h11 : 98 < d'.outputFramesGen := by exact_mod_cast h10
  have hpi := Real.pi_le_four
  obtain ⟨v, v1, v2⟩ := h4 50 1 1 (fun _ => 1 / 2) (fun _ => Real.pi / 2) (fun _ => 0) (by push_cast; omega) (by norm_num) (fun k _ => ⟨by norm_num, by positivity, by linarith⟩)
    (by norm_num [loudness]) (quarterShorts_recording (by norm_num)) (by norm_num) (by norm_num [simpleArgs])
  refine ⟨d', w, v, h1, v1, ?_⟩
  have e : tones 1 (fun _ => 1 / 2) (fun _ => Real.pi / 2) (fun _ => 0) (((50 : ℕ) : ℝ) / ((1 : ℚ) : ℝ)) = -1 / 2 := by
    simp only [tones, Finset.sum_range_one, add_zero]
    rw [show Real.pi / 2 * (((50 : ℕ) : ℝ) / ((1 : ℚ) : ℝ)) = Real.pi + ((12 : ℕ) : ℝ) * (2 * Real.pi) by push_cast; ring, Real.cos_add_nat_mul_two_pi, Real.cos_pi]
    norm_num
  rw [e] at v2
  have : |((v + 16384 : ℤ) : ℝ)| < 6 := by
    push_cast
    rw [show (v : ℝ) - 32768 * (-1 / 2) = v + 16384 by ring] at v2
    exact lt_of_le_of_lt v2 (by norm_num)
  have : |v + 16384| < 6 := by exact_mod_cast this
  omega

/-- The hypotheses of `C72_zoh` and `C72_same_rate` are met by it: with zero order hold at ratio 2 output frame 101 is one of the input, at ratio 1 with linear output frame 50 is input frame 49. -/
example (m : Mem) : (∃ d' w, shortProgram libCfg m quarterShorts (simpleArgs (dbl 2) 100 210) SRC_ZERO_ORDER_HOLD (2 : ℕ) = .ok (0, some d', w)) ∧
    ∃ d' w, shortProgram libCfg m quarterShorts (simpleArgs one64 100 50) SRC_LINEAR (2 : ℕ) = .ok (0, some d', w) := by
  obtain ⟨d', w, h1, -⟩ := C72_zoh libCfg libCfg_tables 2 (by norm_num) (by norm_num) m (simpleArgs (dbl 2) 100 210) 2
    ⟨by decide, by decide, two_val, by norm_num, by norm_num, by decide, by decide, Or.inl (by decide), by decide, by decide⟩ quarterShorts quarterShorts_short (by rw [quarterShorts_length]; rfl)
  obtain ⟨e', v, k1, -⟩ := C72_same_rate libCfg libCfg_tables SRC_LINEAR (Or.inr rfl) 2 (by norm_num) (by norm_num) m (simpleArgs one64 100 50)
    ⟨by decide, by decide, one64_val, by norm_num, by norm_num, by decide, by decide, Or.inl (by decide), by decide, by decide⟩ (by decide) quarterShorts quarterShorts_short (by rw [quarterShorts_length]; rfl)
  exact ⟨⟨d', w, h1⟩, e', v, k1⟩

end Verif
