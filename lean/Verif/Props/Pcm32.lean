import Verif.Props.Pcm
import Verif.Props.Cascade

/-! Conversion of 32 bit audio (C75). -/

namespace Verif
open Spec

section
variable {cfg : Config} {cn : Bool} {ch : ℕ} {m : Mem} {d : SrcData} {r : ℚ} {x : List ℤ} {type : ℤ}

/-- The input buffer of the program. -/
theorem int_input (m : Mem) (d : SrcData) (x : List ℤ) : ∃ y, srcIntToFloatArray x (List.replicate x.length zero32) x.length = .ok y ∧
    ∀ i v, x[i]? = some v → stored m d.dataIn y (d.dataIn + ((i : ℕ) : ℤ)) = intToFloat v := by
  obtain ⟨y, h1, h2, h3, -⟩ := convLoop_spec intToFloat x (List.replicate x.length zero32) x.length le_rfl (by simp)
  refine ⟨y, h1, fun i v hv => ?_⟩
  have hi : i < x.length := by
    by_contra h
    rw [List.getElem?_eq_none (by omega)] at hv
    cases hv
  unfold stored
  rw [if_pos (by omega), show (d.dataIn + (i : ℤ) - d.dataIn).toNat = i by omega, h3 i (by omega), hv]
  rfl

/-- What the program does if `src_simple` succeeds. -/
theorem int_output {y : List F32} {m' : Mem} {d' : SrcData} (h1 : srcIntToFloatArray x (List.replicate x.length zero32) x.length = .ok y)
    (h2 : srcSimple cfg (stored m d.dataIn y) (some d) type ch = .ok (0, m', some d')) (h0 : 0 ≤ d'.outputFramesGen) :
    ∃ w, intProgram cfg cn m x d type ch = .ok (0, some d', w) ∧ (w.length : ℤ) = d'.outputFramesGen * ch ∧
      ∀ j c : ℕ, (j : ℤ) < d'.outputFramesGen → c < ch → w[ch * j + c]? = some ((floatToInt false cn) (m' (d.dataOut + ((ch * j + c : ℕ) : ℤ)))) := by
  set n : ℕ := (d'.outputFramesGen * ch).toNat with hn
  have hn' : (n : ℤ) = d'.outputFramesGen * ch := by rw [hn]; exact Int.toNat_of_nonneg (by positivity)
  obtain ⟨w, w1, w2, w3, -⟩ := convLoop_spec (floatToInt false cn) (loaded m' d.dataOut n) (List.replicate n 0) n (by simp [loaded]) (by simp)
  refine ⟨w, ?_, by rw [w2, List.length_replicate, hn'], fun j c hj hc => ?_⟩
  · unfold intProgram
    rw [h1]
    simp only [bind, Except.bind]
    rw [h2]
    simp only [Option.getD_some]
    rw [← hn]
    unfold srcFloatToIntArray
    rw [w1]
    rfl
  · have hi : ch * j + c < n := by
      have : ((ch * j + c : ℕ) : ℤ) < d'.outputFramesGen * ch := by
        push_cast
        have : ((c : ℕ) : ℤ) < ch := by exact_mod_cast hc
        nlinarith
      omega
    rw [w3 _ (by exact_mod_cast hi)]
    unfold loaded
    rw [List.getElem?_map, List.getElem?_range hi]
    rfl

/-- The value of a converted int. -/
theorem intToFloat_near {n : ℤ} (h : IsInt n) : ∃ q : ℚ, (intToFloat n).val = some q ∧ |q - (n : ℚ) / 2147483648| ≤ 1 / 2 ^ 25 := by
  refine ⟨_, intToFloat_val (by rw [_root_.abs_le]; exact ⟨h.1, h.2.trans (by norm_num)⟩), ?_⟩
  by_cases hm : n = -2147483648
  · rw [hm]
    have : Rep0 f32 (-1) := by
      have := rep0_int (f := f32) (n := -1) (by norm_num [f32]); simpa using this
    rw [show ((-2147483648 : ℤ) : ℚ) / 2147483648 = -1 by norm_num, rq_of_rep this, sub_self, abs_zero]
    norm_num
  · have := abs_rq_sub_le_of_lt (f := f32) (q := (n : ℚ) / 2147483648) (k := 0) (by
      rw [p2_zero, abs_div, abs_of_pos (show (0 : ℚ) < 2147483648 by norm_num), div_lt_one (by norm_num)]
      have : |n| < 2147483648 := by rw [_root_.abs_lt]; have := h.1; have := h.2; omega
      exact_mod_cast this) (by decide)
    rw [show (1 : ℚ) / 2 ^ 25 = p2 (-25) by norm_num [p2]]
    simpa [f32] using this

/-- The input signal of the program. -/
theorem int_signal {y : List F32} (cn : Bool) (hx : ∀ s ∈ x, IsInt s) (hlen : (x.length : ℤ) = d.inputFrames * ch)
    (hy : ∀ i v, x[i]? = some v → stored m d.dataIn y (d.dataIn + ((i : ℕ) : ℤ)) = intToFloat v) {k c : ℕ} (hk : (k : ℤ) < d.inputFrames) (hc : c < ch) :
    ∃ v, x[ch * k + c]? = some v ∧ inputOf ch (stored m d.dataIn y) d k c = intToFloat v ∧
      (|floatToInt false cn (inputOf ch (stored m d.dataIn y) d k c) - v| ≤ 64 ∧ (|v| ≤ 2 ^ 24 → floatToInt false cn (inputOf ch (stored m d.dataIn y) d k c) = v)) ∧
      ∃ q, (inputOf ch (stored m d.dataIn y) d k c).val = some q ∧ |q - (v : ℚ) / 2147483648| ≤ 1 / 2 ^ 25 := by
  obtain ⟨v, h1, h2⟩ := short_at hlen hk hc
  have hv := hx v h1
  have e : inputOf ch (stored m d.dataIn y) d k c = intToFloat v := by
    unfold inputOf
    rw [if_pos hk]
    exact hy _ _ h2
  refine ⟨v, h2, e, ?_, ?_⟩
  · rw [e]; exact ⟨int_roundtrip_near cn hv.1 hv.2, fun h => int_roundtrip_exact cn (by norm_num at h; exact h)⟩
  · rw [e]; exact intToFloat_near hv

/-- A sample close to a value within full scale gives an int close to it. -/
theorem int_near (cn : Bool) {v : F32} {y : ℚ} {t e : ℝ} (hv : v.val = some y) (hy : |(y : ℝ) - t| ≤ e) (ht : |t| ≤ 1) (he : 1 / 2 ^ 32 ≤ e) :
    |(floatToInt false cn v : ℝ) - 2 ^ 31 * t| ≤ 2 ^ 31 * e + 1 / 2 := by
  have hq := floatToInt_quantised cn v
  obtain ⟨s, hs⟩ := Fl.eq_fin_of_val hv
  rw [hs] at hq
  obtain ⟨k, hk, hn⟩ := hq
  rw [hs]
  have hk' := nearestEven_unique hk (rne_nearestEven _)
  have hb := abs_rne_sub_le (2147483648 * y)
  rw [← hk'] at hb
  have hb2 : |(k : ℝ) - 2147483648 * (y : ℝ)| ≤ 1 / 2 := by
    have := Alias.abs_cast hb
    push_cast at this
    exact this
  rw [hn]
  have h1 := _root_.abs_le.1 hb2
  have h2 := _root_.abs_le.1 hy
  have h3 := _root_.abs_le.1 ht
  have e0 := (abs_nonneg _).trans hy
  push_cast
  rw [_root_.abs_le]
  rcases le_total (2147483647 : ℝ) k with h | h
  · rw [min_eq_left h, max_eq_right (by norm_num)]
    constructor <;> linarith
  · rw [min_eq_right h]
    rcases le_total (-2147483648 : ℝ) k with h' | h'
    · rw [max_eq_right h']
      constructor <;> linarith
    · rw [max_eq_left h']
      constructor <;> linarith

/-- A 32 bit recording in the input buffer of the program. -/
theorem int_recording {y : List F32} (hx : ∀ s ∈ x, IsInt s) (hlen : (x.length : ℤ) = d.inputFrames * ch)
    (hy : ∀ i v, x[i]? = some v → stored m d.dataIn y (d.dataIn + ((i : ℕ) : ℤ)) = intToFloat v) {c : ℕ} (hc : c < ch) {s : ℝ → ℝ}
    (h : IntRecording ch x d.inputFrames c s) : RecordingOf ch (stored m d.dataIn y) d c s (1 / 2 ^ 24) := by
  intro k hk
  obtain ⟨v, h1, -, -, q, h4, h7⟩ := int_signal (m := m) false hx hlen hy hk hc
  obtain ⟨v', h5, h6⟩ := h k hk
  rw [h1] at h5
  cases h5
  unfold inputOf at h4
  rw [if_pos hk] at h4
  refine ⟨q, h4, ?_⟩
  have h7 := Alias.abs_cast h7
  push_cast at h7
  have h6 := _root_.abs_le.1 h6
  have h7 := _root_.abs_le.1 h7
  rw [_root_.abs_le]
  constructor <;> linarith

end

/-- C75, zero order hold: each output int is within 64 of the int of the same channel of an input frame (32 bits do not fit into a float), and equal to it if its size is at most 2^24; the input frame is at most one frame, and the rounding of the clock,
from one frame before the time of the output frame. -/
theorem C75_zoh (cfg : Config) (cn : Bool) (hL : LibraryTables cfg) (ch : ℕ) (h1 : 1 ≤ ch) (h2 : ch ≤ 8355967) (m : Mem) (d : SrcData) (r : ℚ) (hA : ProperArgs ch r d)
    (x : List ℤ) (hx : ∀ s ∈ x, IsInt s) (hlen : (x.length : ℤ) = d.inputFrames * ch) :
    ∃ d' w, intProgram cfg cn m x d SRC_ZERO_ORDER_HOLD ch = .ok (0, some d', w) ∧ (w.length : ℤ) = d'.outputFramesGen * ch ∧
      ∀ j c : ℕ, (j : ℤ) < d'.outputFramesGen → c < ch → ∃ (k : ℕ) (v u : ℤ), (k : ℤ) < d.inputFrames ∧ |(k : ℚ) - behind (j / r)| ≤ 1 + j / 2 ^ 44 ∧
        x[ch * k + c]? = some v ∧ w[ch * j + c]? = some u ∧ |u - v| ≤ 64 ∧ (|v| ≤ 2 ^ 24 → u = v) := by
  obtain ⟨y, y1, y2⟩ := int_input m d x
  obtain ⟨m', d', a1, a2, -, -, a5⟩ := C60_interp cfg hL _ (Or.inl rfl) ch h1 h2 (stored m d.dataIn y) d r hA (fun h => absurd h (by decide))
  obtain ⟨w, w1, w2, w3⟩ := int_output (cn := cn) y1 a1 a2.gen0
  refine ⟨d', w, w1, w2, fun j c hj hc => ?_⟩
  obtain ⟨τ, c1, c0, c2⟩ := a2.frames j c hj hc
  have hk := a5 j hj
  rw [← c0] at hk
  have hin := hA.input
  have hk' : ((⌊τ⌋₊ - 1 : ℕ) : ℤ) < d.inputFrames := by omega
  obtain ⟨v, v1, -, v3, -⟩ := int_signal (m := m) cn hx hlen y2 hk' hc
  refine ⟨⌊τ⌋₊ - 1, v, _, hk', ?_, v1, w3 j c hj hc, ?_⟩
  · have hb := behind_drift c1
    have t0 : 0 ≤ τ := c0 ▸ time_nonneg _ j
    have f1 := Nat.floor_le t0
    have f2 := Nat.lt_floor_add_one τ
    have : |((⌊τ⌋₊ - 1 : ℕ) : ℚ) - behind τ| ≤ 1 := by
      unfold behind
      rcases Nat.eq_zero_or_pos ⌊τ⌋₊ with h | h
      · rw [h] at f2 ⊢
        rw [max_eq_left (by norm_num at f2; linarith)]
        norm_num
      · have h' : (1 : ℚ) ≤ ⌊τ⌋₊ := by exact_mod_cast h
        rw [Nat.cast_sub h, max_eq_right (by linarith), _root_.abs_le]
        push_cast
        constructor <;> linarith
    exact (abs_sub_le _ _ _).trans (add_le_add this hb)
  · rw [c2]
    unfold idealAt
    rw [if_pos (by rfl)]
    exact v3

/-- C75, ratio 1: with zero order hold, and with linear on at least three frames, the output is the input delayed by one frame, to within 64, and exactly where the size is at most 2^24. -/
theorem C75_same_rate (cfg : Config) (cn : Bool) (hL : LibraryTables cfg) (type : ℤ) (ht : type = SRC_ZERO_ORDER_HOLD ∨ type = SRC_LINEAR) (ch : ℕ) (h1 : 1 ≤ ch) (h2 : ch ≤ 8355967) (m : Mem) (d : SrcData)
    (hA : ProperArgs ch 1 d) (h3 : 3 ≤ d.inputFrames) (x : List ℤ) (hx : ∀ s ∈ x, IsInt s) (hlen : (x.length : ℤ) = d.inputFrames * ch) :
    ∃ d' w, intProgram cfg cn m x d type ch = .ok (0, some d', w) ∧ (w.length : ℤ) = d'.outputFramesGen * ch ∧
      ∀ j c : ℕ, (j : ℤ) < d'.outputFramesGen → c < ch → ∃ v u : ℤ, x[ch * (j - 1) + c]? = some v ∧ w[ch * j + c]? = some u ∧ |u - v| ≤ 64 ∧ (|v| ≤ 2 ^ 24 → u = v) := by
  obtain ⟨y, y1, y2⟩ := int_input m d x
  obtain ⟨m', d', a1, a2, -, -, a5⟩ := C60_interp cfg hL type ht ch h1 h2 (stored m d.dataIn y) d 1 hA (fun _ => h3)
  obtain ⟨w, w1, w2, w3⟩ := int_output (cn := cn) y1 a1 a2.gen0
  refine ⟨d', w, w1, w2, fun j c hj hc => ?_⟩
  obtain ⟨τ, -, c0, c2⟩ := a2.frames j c hj hc
  have hk := a5 j hj
  have et : timeAt (fun _ => (1 : ℚ)) j = j := by unfold timeAt; rw [posAt_one]; simp
  rw [et] at hk c0
  rw [Nat.floor_natCast] at hk
  have hin := hA.input
  have hk' : ((j - 1 : ℕ) : ℤ) < d.inputFrames := by omega
  obtain ⟨v, v1, v2, v3, q0, v4, -⟩ := int_signal (m := m) cn hx hlen y2 hk' hc
  refine ⟨v, _, v1, w3 j c hj hc, ?_⟩
  rw [c2, c0]
  unfold idealAt
  rw [Nat.floor_natCast]
  split_ifs
  · exact v3
  · obtain ⟨q, hq⟩ : ∃ q : ℚ, (inputOf ch (stored m d.dataIn y) d j c).val = some q := by
      by_cases hjN : (j : ℤ) < d.inputFrames
      · obtain ⟨v', -, -, -, q, h, -⟩ := int_signal (m := m) cn hx hlen y2 hjN hc
        exact ⟨_, h⟩
      · unfold inputOf
        rw [if_neg hjN]
        exact ⟨0, zero32_val⟩
    rw [Int.fract_natCast, linearSample_zero v4 hq]
    exact v3

/-- C75, fast sinc converter, ratio from 1/180 to 256: a 32 bit recording of tones up to 0.63 of half the lower of the two sampling rates and full scale comes out as a recording of the same tones at the new rate, with an error of at most 1/4000 of
the loudness plus a millionth for each input frame per output frame, the rounding of the clock and 2^-21. -/
theorem C75_fastest (cfg : Config) (cn : Bool) (hL : LibraryTables cfg) (hP : ShippedTables cfg) (hF : (cfg.table SRC_SINC_FASTEST).isSome) (ch : ℕ) (h1 : 1 ≤ ch) (h2 : ch ≤ 128) (m : Mem) (d : SrcData) (r : ℚ)
    (hA : ProperArgs ch r d) (hr : 1 / 180 ≤ r) (hroom : (d.inputFrames + d.outputFrames / 2 ^ 44) * r + 1 < (d.outputFrames : ℚ)) (x : List ℤ) (hx : ∀ s ∈ x, IsInt s)
    (hlen : (x.length : ℤ) = d.inputFrames * ch) :
    ∃ d' w, intProgram cfg cn m x d SRC_SINC_FASTEST ch = .ok (0, some d', w) ∧ (w.length : ℤ) = d'.outputFramesGen * ch ∧
      |(d'.outputFramesGen : ℚ) - d.inputFrames * r| ≤ 1 + (d'.outputFramesGen / 2 ^ 44 + 1 / 10 ^ 6) * r ∧
      ∀ j c n A ω θ, (j : ℕ) < d'.outputFramesGen → c < ch → ToneLimits n A ω (1999 / 1000 * ((min 1 r : ℚ) : ℝ)) → loudness n A ≤ 1 → IntRecording ch x d.inputFrames c (tones n A ω θ) →
        21 / min 1 r + 1 ≤ (j : ℚ) / r → (j : ℚ) / r + 21 / min 1 r + 1 ≤ d.inputFrames →
        ∃ v : ℤ, w[ch * j + c]? = some v ∧ |(v : ℝ) / 2 ^ 31 - tones n A ω θ (j / r)| ≤ loudness n A * (1 / 4000 + 1 / (1000000 * ((min 1 r : ℚ) : ℝ)) + 2 * (j / 2 ^ 44)) + 1 / 2 ^ 21 := by
  obtain ⟨y, y1, y2⟩ := int_input m d x
  obtain ⟨m', d', a1, a3, a4⟩ := any_fastest cfg hL hP hF ch h1 h2 (stored m d.dataIn y) d r hA hr hroom
  have g0 : 0 ≤ d'.outputFramesGen := simple_gen0 hL (Or.inr (Or.inr rfl)) hF h1 h2 hA hr a1
  obtain ⟨w, w1, w2, w3⟩ := int_output (cn := cn) y1 a1 g0
  refine ⟨d', w, w1, w2, a3, fun j c n A ω θ hj hc hLim hl hs hE1 hE2 => ⟨_, w3 j c hj hc, ?_⟩⟩
  have l0 := loudness_nonneg hLim
  have p0 : (0 : ℚ) < min 1 r := lt_min one_pos (by linarith)
  have q0 : (0 : ℝ) < ((min 1 r : ℚ) : ℝ) := by exact_mod_cast p0
  obtain ⟨z, z1, z2⟩ := a4 j c n A ω θ (1 / 2 ^ 24) hj hc hLim (by norm_num) (by norm_num; linarith) (recordedNear_of (int_recording hx hlen y2 hc hs) _ _) hE1 hE2
  have e0 := mul_nonneg l0 (show (0 : ℝ) ≤ 1 / 4000 + 1 / (1000000 * ((min 1 r : ℚ) : ℝ)) + 2 * ((j : ℝ) / 2 ^ 44) by positivity)
  have := int_near cn z1 z2 ((tones_le hLim θ _).trans hl) (by linarith)
  rw [div_sub' (by norm_num), abs_div, div_le_iff₀ (by norm_num), abs_of_pos (show (0 : ℝ) < 2 ^ 31 by norm_num)]
  refine this.trans ?_
  rw [mul_comm]
  linarith

/-- C75, medium sinc converter. -/
theorem C75_medium (cfg : Config) (cn : Bool) (hL : LibraryTables cfg) (hP : ShippedTables cfg) (hF : (cfg.table SRC_SINC_MEDIUM_QUALITY).isSome) (ch : ℕ) (h1 : 1 ≤ ch) (h2 : ch ≤ 128) (m : Mem) (d : SrcData) (r : ℚ)
    (hA : ProperArgs ch r d) (hr : 1 / 180 ≤ r) (hroom : (d.inputFrames + d.outputFrames / 2 ^ 44) * r + 1 < (d.outputFrames : ℚ)) (x : List ℤ) (hx : ∀ s ∈ x, IsInt s)
    (hlen : (x.length : ℤ) = d.inputFrames * ch) :
    ∃ d' w, intProgram cfg cn m x d SRC_SINC_MEDIUM_QUALITY ch = .ok (0, some d', w) ∧ (w.length : ℤ) = d'.outputFramesGen * ch ∧
      |(d'.outputFramesGen : ℚ) - d.inputFrames * r| ≤ 1 + (d'.outputFramesGen / 2 ^ 44 + 1 / 10 ^ 6) * r ∧
      ∀ j c n A ω θ, (j : ℕ) < d'.outputFramesGen → c < ch → ToneLimits n A ω (2598 / 1000 * ((min 1 r : ℚ) : ℝ)) → loudness n A ≤ 1 → IntRecording ch x d.inputFrames c (tones n A ω θ) →
        47 / min 1 r + 1 ≤ (j : ℚ) / r → (j : ℚ) / r + 47 / min 1 r + 1 ≤ d.inputFrames →
        ∃ v : ℤ, w[ch * j + c]? = some v ∧ |(v : ℝ) / 2 ^ 31 - tones n A ω θ (j / r)| ≤ loudness n A * (1 / 1700 + 1 / (1000000 * ((min 1 r : ℚ) : ℝ)) + (13 / 5) * (j / 2 ^ 44)) + 1 / 2 ^ 21 := by
  obtain ⟨y, y1, y2⟩ := int_input m d x
  obtain ⟨m', d', a1, a3, a4⟩ := any_medium cfg hL hP hF ch h1 h2 (stored m d.dataIn y) d r hA hr hroom
  have g0 : 0 ≤ d'.outputFramesGen := simple_gen0 hL (Or.inr (Or.inl rfl)) hF h1 h2 hA hr a1
  obtain ⟨w, w1, w2, w3⟩ := int_output (cn := cn) y1 a1 g0
  refine ⟨d', w, w1, w2, a3, fun j c n A ω θ hj hc hLim hl hs hE1 hE2 => ⟨_, w3 j c hj hc, ?_⟩⟩
  have l0 := loudness_nonneg hLim
  have p0 : (0 : ℚ) < min 1 r := lt_min one_pos (by linarith)
  have q0 : (0 : ℝ) < ((min 1 r : ℚ) : ℝ) := by exact_mod_cast p0
  obtain ⟨z, z1, z2⟩ := a4 j c n A ω θ (1 / 2 ^ 24) hj hc hLim (by norm_num) (by norm_num; linarith) (recordedNear_of (int_recording hx hlen y2 hc hs) _ _) hE1 hE2
  have e0 := mul_nonneg l0 (show (0 : ℝ) ≤ 1 / 1700 + 1 / (1000000 * ((min 1 r : ℚ) : ℝ)) + (13 / 5) * ((j : ℝ) / 2 ^ 44) by positivity)
  have := int_near cn z1 z2 ((tones_le hLim θ _).trans hl) (by linarith)
  rw [div_sub' (by norm_num), abs_div, div_le_iff₀ (by norm_num), abs_of_pos (show (0 : ℝ) < 2 ^ 31 by norm_num)]
  refine this.trans ?_
  rw [mul_comm]
  linarith

/-- The recording of `quarterShorts` with 32 bits. -/
def quarterInts : List ℤ := quarterShorts.map (65536 * ·)

theorem quarterInts_length : quarterInts.length = 200 := by simp [quarterInts, quarterShorts_length]

theorem quarterInts_int : ∀ s ∈ quarterInts, IsInt s := by
  intro s hs
  obtain ⟨v, hv, rfl⟩ := List.mem_map.1 hs
  have := quarterShorts_short v hv
  unfold IsShort at this
  unfold IsInt
  constructor <;> omega

theorem quarterInts_recording {c : ℕ} (hc : c < 2) : IntRecording 2 quarterInts 100 c (tones 1 (fun _ => 1 / 2) (fun _ => Real.pi / 2) (fun _ => 0)) := by
  intro k hk
  obtain ⟨v, h1, h2⟩ := quarterShorts_recording hc k hk
  refine ⟨65536 * v, by unfold quarterInts; rw [List.getElem?_map, h1]; rfl, ?_⟩
  have hk : k < 100 := by exact_mod_cast hk
  obtain ⟨q, q1, q2⟩ := quarter_val hk 0
  have e : tones 1 (fun _ => 1 / 2) (fun _ => Real.pi / 2) (fun _ => 0) (k : ℝ) = 1 / 2 * q := by simp [tones, q2]
  rw [e] at h2 ⊢
  -- the tone is -1, 0 or 1 at the frames
  obtain ⟨z, hz⟩ : ∃ z : ℤ, q = z := by
    have one : (Fl.ofInt f32 1).val = some 1 := by simpa using Fl.val_ofInt (f := f32) (n := 1) (by norm_num [f32])
    have neg : (Fl.ofInt f32 (-1)).val = some (-1) := by simpa using Fl.val_ofInt (f := f32) (n := -1) (by norm_num [f32])
    have hz := zero32_val
    unfold quarter at q1
    rw [if_pos hk] at q1
    split_ifs at q1 with h h' <;> first | rw [one] at q1 | rw [neg] at q1 | rw [hz] at q1
    · cases q1; exact ⟨1, by norm_num⟩
    · cases q1; exact ⟨-1, by norm_num⟩
    · cases q1; exact ⟨0, by norm_num⟩
  rw [hz] at h2 ⊢
  push_cast at h2 ⊢
  have h3 : |((v - 16384 * z : ℤ) : ℝ)| < 1 := by
    push_cast
    rw [show (v : ℝ) - 16384 * z = v - 32768 * (1 / 2 * z) by ring]
    linarith
  have h4 : |v - 16384 * z| < 1 := by exact_mod_cast h3
  have h5 : v = 16384 * z := by have := _root_.abs_lt.1 h4; omega
  rw [h5]
  push_cast
  rw [show (65536 : ℝ) * (16384 * z) - 2 ^ 31 * (1 / 2 * z) = 0 by ring]
  norm_num

/-- The hypotheses of `C75_fastest` are met by this recording: frame 50 of the output is within 1/3900 of half of full scale (negative). -/
example (m : Mem) : ∃ d' w, ∃ v : ℤ, intProgram libCfg true m quarterInts (simpleArgs one64 100 102) SRC_SINC_FASTEST (2 : ℕ) = .ok (0, some d', w) ∧ w[101]? = some v ∧ |(v : ℝ) / 2 ^ 31 + 1 / 2| ≤ 1 / 3900 := by
  obtain ⟨d', w, h1, -, h3, h4⟩ := C75_fastest libCfg true libCfg_tables libCfg_shipped rfl 2 (by norm_num) (by norm_num) m _ 1 simpleArgs_proper (by norm_num) (by norm_num [simpleArgs])
    quarterInts quarterInts_int (by rw [quarterInts_length]; rfl)
  have h10 : (98 : ℚ) < d'.outputFramesGen := by
    have h8 := (_root_.abs_le.1 h3).1
    simp only [simpleArgs] at h8
    push_cast at h8
    norm_num at h8 ⊢
    linarith
  have h11 : 98 < d'.outputFramesGen := by exact_mod_cast h10
  have hpi := Real.pi_lt_d2
  obtain ⟨v, v1, v2⟩ := h4 50 1 1 (fun _ => 1 / 2) (fun _ => Real.pi / 2) (fun _ => 0) (by push_cast; omega) (by norm_num) (fun k _ => ⟨by norm_num, by positivity, by norm_num; linarith⟩)
    (by norm_num [loudness]) (quarterInts_recording (by norm_num)) (by norm_num) (by norm_num [simpleArgs])
  refine ⟨d', w, v, h1, v1, ?_⟩
  have e : tones 1 (fun _ => 1 / 2) (fun _ => Real.pi / 2) (fun _ => 0) (((50 : ℕ) : ℝ) / ((1 : ℚ) : ℝ)) = -1 / 2 := by
    simp only [tones, Finset.sum_range_one, add_zero]
    rw [show Real.pi / 2 * (((50 : ℕ) : ℝ) / ((1 : ℚ) : ℝ)) = Real.pi + ((12 : ℕ) : ℝ) * (2 * Real.pi) by push_cast; ring, Real.cos_add_nat_mul_two_pi, Real.cos_pi]
    norm_num
  rw [e, show (v : ℝ) / 2 ^ 31 - -1 / 2 = v / 2 ^ 31 + 1 / 2 by ring] at v2
  exact v2.trans (by norm_num [loudness])

/-- The hypotheses of `C75_zoh` and `C75_same_rate` are met by it. -/
example (m : Mem) : (∃ d' w, intProgram libCfg false m quarterInts (simpleArgs (dbl 2) 100 210) SRC_ZERO_ORDER_HOLD (2 : ℕ) = .ok (0, some d', w)) ∧
    ∃ d' w, intProgram libCfg false m quarterInts (simpleArgs one64 100 50) SRC_LINEAR (2 : ℕ) = .ok (0, some d', w) := by
  obtain ⟨d', w, h1, -⟩ := C75_zoh libCfg false libCfg_tables 2 (by norm_num) (by norm_num) m (simpleArgs (dbl 2) 100 210) 2
    ⟨by decide, by decide, two_val, by norm_num, by norm_num, by decide, by decide, Or.inl (by decide), by decide, by decide⟩ quarterInts quarterInts_int (by rw [quarterInts_length]; rfl)
  obtain ⟨e', v, k1, -⟩ := C75_same_rate libCfg false libCfg_tables SRC_LINEAR (Or.inr rfl) 2 (by norm_num) (by norm_num) m (simpleArgs one64 100 50)
    ⟨by decide, by decide, one64_val, by norm_num, by norm_num, by decide, by decide, Or.inl (by decide), by decide, by decide⟩ (by decide) quarterInts quarterInts_int (by rw [quarterInts_length]; rfl)
  exact ⟨⟨d', w, h1⟩, e', v, k1⟩

end Verif
