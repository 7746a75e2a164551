import Verif.Props.Mix
import Verif.Proof.Chord

/-! Smooth signals through the interpolating converters (C67). -/

namespace Verif
open Spec

theorem interp_stream {cfg : Config} {type : ℤ} (ht : type = SRC_ZERO_ORDER_HOLD ∨ type = SRC_LINEAR) {ch : ℕ}
    (hc : ch ≤ 8355967) {e : ℤ} {st st1 : SrcState} (h : srcNew cfg type ch = .ok (e, some st)) {x : ℕ → ℕ → F32} {ops : List Op} {os : List Obs} {V : ℕ}
    (hO : ∀ op ∈ ops, OrdinaryOp 1 ch op) (hr : run ops st = .ok (os, st1)) (hF : Fed x ch 0 ops os V) :
    ∃ ρ : ℕ → ℚ, (∀ j < (outputs ch os).length, 1 / 256 ≤ ρ j ∧ ρ j ≤ 256) ∧ ratiosFrom ratioAt ch 0 ops os = (List.range (outputs ch os).length).map ρ ∧
      (∀ r, (∀ op ∈ ops, AtRatio r op) → ∀ j < (outputs ch os).length, ρ j = r) ∧
      outputs ch os = (List.range (outputs ch os).length).map (fun j => frameOf ch (idealAt type x (timeAt ρ j))) := by
  obtain ⟨K, rfl⟩ := kind_of ht
  obtain ⟨ρ, h1, h2, h3, -, hR, -⟩ := stream_new h hc hO hF hr
  refine ⟨ρ, h1, hR, h3, ?_⟩
  conv_lhs => rw [h2]
  exact List.map_congr_left (fun j _ => by rw [ideal_eq])

/-- The clock at a constant ratio. -/
theorem time_at_ratio {ρ : ℕ → ℚ} {r : ℚ} {n : ℕ} (hv : ∀ j < n, ValidRatio (ρ j)) (h : ∀ j < n, ρ j = r) : ∀ j ≤ n, |timeAt ρ j - j / r| ≤ j / 2 ^ 44
  | 0, _ => by simp [timeAt, posAt]
  | j + 1, hj => by
    have ih := _root_.abs_le.1 (time_at_ratio hv h j (by omega))
    have hr := h j (by omega)
    have v := hv j (by omega)
    have hr0 : 0 < r := by rw [← hr]; exact lt_of_lt_of_le (by norm_num) v.1
    obtain ⟨s1, s2⟩ := time_between v hr0 ⟨hr.ge, hr.le⟩
    have hp : p2 (-44) = 1 / 2 ^ 44 := by norm_num [p2]
    rw [hp] at s1 s2
    rw [_root_.abs_le]
    push_cast
    rw [add_div, add_div]
    constructor <;> linarith [ih.1, ih.2]

theorem floor_behind {t : ℚ} (ht : 0 ≤ t) : (⌊t⌋₊ = 0 ∧ t < 1 ∧ behind t = 0) ∨
    (1 ≤ ⌊t⌋₊ ∧ behind t = ((⌊t⌋₊ - 1 : ℕ) : ℚ) + Int.fract t ∧ ((⌊t⌋₊ : ℕ) : ℚ) = ((⌊t⌋₊ - 1 : ℕ) : ℚ) + 1) := by
  rcases Nat.eq_zero_or_pos ⌊t⌋₊ with h0 | h0
  · have : t < 1 := Nat.floor_eq_zero.1 h0
    exact Or.inl ⟨h0, this, max_eq_left (by linarith)⟩
  · have h1 : 1 ≤ t := (Nat.one_le_floor_iff t).1 h0
    refine Or.inr ⟨h0, ?_, ?_⟩
    · unfold behind
      rw [max_eq_right (by linarith), Nat.cast_sub h0]
      have e1 := Int.floor_add_fract t
      have e2 : ((⌊t⌋₊ : ℕ) : ℤ) = ⌊t⌋ := Int.natCast_floor_eq_floor ht
      have e3 : ((⌊t⌋₊ : ℕ) : ℚ) = (⌊t⌋ : ℤ) := by exact_mod_cast e2
      rw [e3]
      push_cast
      linarith
    · rw [Nat.cast_sub h0]; push_cast; ring

theorem time_nonneg (ρ : ℕ → ℚ) (j : ℕ) : 0 ≤ timeAt ρ j := by
  have := (posAt_frac0 ρ j).1
  unfold timeAt
  positivity

/-- The frames next to the position. -/
theorem next_frames {t : ℚ} (ht : 0 ≤ t) : |((⌊t⌋₊ - 1 : ℕ) : ℚ) - behind t| < 2 ∧ |((⌊t⌋₊ : ℕ) : ℚ) - behind t| < 2 := by
  have f0 := Int.fract_nonneg t
  have f1 := Int.fract_lt_one t
  rcases floor_behind ht with ⟨h0, h1, h2⟩ | ⟨h1, h2, h3⟩
  · rw [h0, h2]; norm_num
  · rw [h3, h2, _root_.abs_lt, _root_.abs_lt]
    refine ⟨⟨?_, ?_⟩, ?_, ?_⟩ <;> linarith

theorem cast_behind {q : ℚ} {k : ℕ} {s : ℚ} (h : q = (k : ℚ) + s) : ((q : ℚ) : ℝ) = (k : ℝ) + ((s : ℚ) : ℝ) := by
  rw [h]; push_cast; ring

theorem zoh_sample {x : ℕ → ℕ → F32} {c : ℕ} {t : ℚ} (ht : 0 ≤ t) {g : ℝ → ℝ} {M η : ℝ} (hg : SlopeAtMost g M) (hx : SampledFrom x c (behind t) 2 g η) :
    ∃ y : ℚ, (idealAt SRC_ZERO_ORDER_HOLD x t c).val = some y ∧ |(y : ℝ) - g (behind t)| ≤ M + η := by
  obtain ⟨q, hq, hq'⟩ := hx _ (next_frames ht).1
  refine ⟨q, by unfold idealAt; rw [if_pos (by rfl)]; exact hq, ?_⟩
  have hs := hg ((⌊t⌋₊ - 1 : ℕ) : ℝ) ((behind t : ℚ) : ℝ)
  have hM : 0 ≤ M := by
    have := (abs_nonneg _).trans (hg 1 0)
    simpa using this
  have hd : |(((⌊t⌋₊ - 1 : ℕ) : ℝ)) - ((behind t : ℚ) : ℝ)| ≤ 1 := by
    have f0 := Int.fract_nonneg t
    have f1 := Int.fract_lt_one t
    rcases floor_behind ht with ⟨h0, h1, h2⟩ | ⟨h1, h2, h3⟩
    · rw [h0, h2]; norm_num
    · rw [cast_behind h2, sub_add_cancel_left, abs_neg]
      have : |((Int.fract t : ℚ))| ≤ 1 := by rw [abs_of_nonneg f0]; exact f1.le
      exact_mod_cast this
  calc |(q : ℝ) - g (behind t)| ≤ |(q : ℝ) - g ((⌊t⌋₊ - 1 : ℕ) : ℝ)| + |g ((⌊t⌋₊ - 1 : ℕ) : ℝ) - g (behind t)| := abs_sub_le _ _ _
    _ ≤ η + M * 1 := add_le_add hq' (hs.trans (mul_le_mul_of_nonneg_left hd hM))
    _ = M + η := by ring

/-- C67, zero order hold: the output follows a signal whose slope is at most `M` per input frame up to `M + η`, one frame behind, if the samples near the position are those of the
signal up to `η`. -/
theorem C67_zoh (cfg : Config) (ch : ℕ) (hc : ch ≤ 8355967) (e : ℤ) (st st1 : SrcState)
    (h : srcNew cfg SRC_ZERO_ORDER_HOLD ch = .ok (e, some st)) (x : ℕ → ℕ → F32) (ops : List Op) (os : List Obs)
    (V : ℕ) (hO : ∀ op ∈ ops, OrdinaryOp 1 ch op) (hr : run ops st = .ok (os, st1)) (hF : Fed x ch 0 ops os V) :
    ∃ ρ : ℕ → ℚ, (∀ j < (outputs ch os).length, 1 / 256 ≤ ρ j ∧ ρ j ≤ 256) ∧ ratiosFrom ratioAt ch 0 ops os = (List.range (outputs ch os).length).map ρ ∧
      (∀ r, (∀ op ∈ ops, AtRatio r op) → ∀ j ≤ (outputs ch os).length, |timeAt ρ j - j / r| ≤ j / 2 ^ 44) ∧
      ∀ j f c s g M η, (outputs ch os)[j]? = some f → f[c]? = some s → SlopeAtMost g M → SampledFrom x c (behind (timeAt ρ j)) 2 g η →
        ∃ y : ℚ, s.val = some y ∧ |(y : ℝ) - g (behind (timeAt ρ j))| ≤ M + η := by
  obtain ⟨ρ, h1, hR, hk, h2⟩ := interp_stream (Or.inl rfl) hc h hO hr hF
  refine ⟨ρ, h1, hR, fun r hr => time_at_ratio h1 (hk r hr), fun j f c s g M η hf hs hg hx => ?_⟩
  obtain ⟨hj, rfl⟩ := getElem?_of_map h2 hf
  obtain ⟨-, rfl⟩ := getElem?_of_map (n := ch) rfl hs
  exact zoh_sample (time_nonneg ρ j) hg hx

theorem linear_sample {x : ℕ → ℕ → F32} {c : ℕ} {ρ : ℕ → ℚ} {n : ℕ} (h1 : ∀ j < n, 1 / 256 ≤ ρ j ∧ ρ j ≤ 256) {j : ℕ} (hj : j < n) {g : ℝ → ℝ} {M η : ℝ} {u : ℚ} (hg : BendAtMost g M)
    (hx : SampledFrom x c (behind (timeAt ρ j)) 2 g η) (hu : Around x c (behind (timeAt ρ j)) 2 (Within u)) :
    ∃ y : ℚ, (idealAt SRC_LINEAR x (timeAt ρ j) c).val = some y ∧ |(y : ℝ) - g (behind (timeAt ρ j))| ≤ M / 8 + η + u / 2 ^ 23 + 1 / 2 ^ 149 := by
  have ht := time_nonneg ρ j
  obtain ⟨n0, n1⟩ := next_frames ht
  obtain ⟨y, hy, hy'⟩ := linear_near_at h1 hj (hu _ n0) (hu _ n1)
  refine ⟨y, hy, ?_⟩
  clear hy hj
  generalize timeAt ρ j = t at *
  obtain ⟨p, hp, hp'⟩ := hx _ n0
  obtain ⟨q, hq, hq'⟩ := hx _ n1
  have hM : 0 ≤ M := by
    have := (abs_nonneg _).trans (hg.2 1 0)
    simpa using this
  have f0 := Int.fract_nonneg t
  have f1 := Int.fract_lt_one t
  have hb := floor_behind ht
  unfold exactLinear at hy'
  generalize (Int.fract t : ℚ) = a at *
  have hy2 : |(y : ℝ) - ((1 - (a : ℝ)) * p + (a : ℝ) * q : ℝ)| ≤ u / 2 ^ 23 + 1 / 2 ^ 149 := by
    rw [valOf_eq hp, valOf_eq hq, ← Rat.cast_le (K := ℝ), Rat.cast_abs] at hy'
    push_cast at hy'
    exact hy'
  have a0 : (0 : ℝ) ≤ (a : ℝ) := by exact_mod_cast f0
  have a1 : (a : ℝ) ≤ 1 := by exact_mod_cast f1.le
  have key : |((1 - (a : ℝ)) * p + (a : ℝ) * q : ℝ) - g (behind t)| ≤ M / 8 + η := by
    have hmix : |((1 - (a : ℝ)) * p + (a : ℝ) * q : ℝ) - ((1 - (a : ℝ)) * g ((⌊t⌋₊ - 1 : ℕ) : ℝ) + (a : ℝ) * g ((⌊t⌋₊ : ℕ) : ℝ))| ≤ η := by
      rw [show ((1 - (a : ℝ)) * p + (a : ℝ) * q : ℝ) - ((1 - (a : ℝ)) * g ((⌊t⌋₊ - 1 : ℕ) : ℝ) + (a : ℝ) * g ((⌊t⌋₊ : ℕ) : ℝ)) =
        (1 - (a : ℝ)) * (p - g ((⌊t⌋₊ - 1 : ℕ) : ℝ)) + (a : ℝ) * (q - g ((⌊t⌋₊ : ℕ) : ℝ)) by ring]
      have m1 := mul_le_mul_of_nonneg_left hp' (show 0 ≤ 1 - (a : ℝ) by linarith)
      have m2 := mul_le_mul_of_nonneg_left hq' a0
      refine (abs_add_le _ _).trans ?_
      rw [abs_mul, abs_mul, abs_of_nonneg (show 0 ≤ 1 - (a : ℝ) by linarith), abs_of_nonneg a0]
      linarith
    have hch : |((1 - (a : ℝ)) * g ((⌊t⌋₊ - 1 : ℕ) : ℝ) + (a : ℝ) * g ((⌊t⌋₊ : ℕ) : ℝ)) - g (behind t)| ≤ M / 8 := by
      rcases hb with ⟨h0, h1, h2⟩ | ⟨h1, h2, h3⟩
      · rw [h0, h2]
        simp only [Nat.zero_sub, Nat.cast_zero, Rat.cast_zero]
        rw [show (1 - (a : ℝ)) * g 0 + (a : ℝ) * g 0 - g 0 = 0 by ring, abs_zero]
        positivity
      · have e3 : ((⌊t⌋₊ : ℕ) : ℝ) = ((⌊t⌋₊ - 1 : ℕ) : ℝ) + 1 := by exact_mod_cast h3
        rw [e3, cast_behind h2]
        exact chord_near hg _ a0 a1
    refine (abs_sub_le _ _ _).trans ((add_le_add hmix hch).trans (by linarith))
  refine (abs_sub_le _ _ _).trans ((add_le_add hy2 key).trans (by linarith))

/-- C67, linear: the output follows a signal whose slope changes by at most `M` per input frame up to `M / 8 + η` and rounding, one frame behind, if the samples near the position
are those of the signal up to `η`; `u` bounds their magnitude. -/
theorem C67_linear (cfg : Config) (ch : ℕ) (hc : ch ≤ 8355967) (e : ℤ) (st st1 : SrcState)
    (h : srcNew cfg SRC_LINEAR ch = .ok (e, some st)) (x : ℕ → ℕ → F32) (ops : List Op) (os : List Obs)
    (V : ℕ) (hO : ∀ op ∈ ops, OrdinaryOp 1 ch op) (hr : run ops st = .ok (os, st1)) (hF : Fed x ch 0 ops os V) :
    ∃ ρ : ℕ → ℚ, (∀ j < (outputs ch os).length, 1 / 256 ≤ ρ j ∧ ρ j ≤ 256) ∧ ratiosFrom ratioAt ch 0 ops os = (List.range (outputs ch os).length).map ρ ∧
      (∀ r, (∀ op ∈ ops, AtRatio r op) → ∀ j ≤ (outputs ch os).length, |timeAt ρ j - j / r| ≤ j / 2 ^ 44) ∧
      ∀ j f c s g M η u, (outputs ch os)[j]? = some f → f[c]? = some s → BendAtMost g M → SampledFrom x c (behind (timeAt ρ j)) 2 g η →
        Around x c (behind (timeAt ρ j)) 2 (Within u) →
        ∃ y : ℚ, s.val = some y ∧ |(y : ℝ) - g (behind (timeAt ρ j))| ≤ M / 8 + η + u / 2 ^ 23 + 1 / 2 ^ 149 := by
  obtain ⟨ρ, h1, hR, hk, h2⟩ := interp_stream (Or.inr rfl) hc h hO hr hF
  refine ⟨ρ, h1, hR, fun r hr => time_at_ratio h1 (hk r hr), fun j f c s g M η u hf hs hg hx hu => ?_⟩
  obtain ⟨hj, rfl⟩ := getElem?_of_map h2 hf
  obtain ⟨-, rfl⟩ := getElem?_of_map (n := ch) rfl hs
  exact linear_sample h1 hj hg hx hu

end Verif
