import Mathlib.Analysis.Real.Pi.Bounds
import Verif.Props.Sine
import Verif.Proof.BandGrid

/-! The bandwidth of the sinc converters (C70). -/

namespace Verif
open Spec

theorem fastest_band (n : ℕ) (A ω θ : ℕ → ℝ) (η : ℝ) (ρ τ : ℚ) (D : ℤ) (x : ℕ → ℕ → F32) (c : ℕ) (hL : ToneLimits n A ω (4 / 5 * Real.pi)) (hρ : 1 ≤ ρ)
    (hD : sincReach (Fastest.table.count - 2) Fastest.table.increment 1 ≤ D) (hτ : filterReach Fastest.table 1 ≤ τ)
    (hx : SampledFrom x c τ (filterReach Fastest.table 1) (tones n A ω θ) η) :
    |(exactIdeal Fastest.table x D ρ τ c : ℝ) - tones n (fun k => A k * Fastest.gain (ω k)) ω θ τ| ≤ loudness n A * (110 / 1000000) + 1888 / 1000 * η := by
  obtain ⟨B, G, -⟩ := table_geom (t := Fastest.table) (Or.inl ⟨rfl, rfl⟩)
  have η0 : 0 ≤ η := by
    have hR : (1 : ℚ) ≤ filterReach Fastest.table 1 := by
      unfold filterReach
      rw [show Fastest.table.count = 2464 from rfl, show Fastest.table.increment = 128 from rfl]
      norm_num
    have hτ0 : (0 : ℚ) ≤ τ := by linarith
    obtain ⟨q, -, h⟩ := hx ⌊τ⌋₊ (by
      have a := Nat.floor_le hτ0
      have b := Nat.lt_floor_add_one τ
      rw [_root_.abs_lt]
      constructor <;> linarith)
    exact (abs_nonneg _).trans h
  have hΩ : 4 / 5 * Real.pi ≤ 644 / 256 := by have := Real.pi_lt_d4; linarith
  have hL' : ToneLimits n A ω (644 / 256) := fun k hk => ⟨(hL k hk).1, (hL k hk).2.1, (hL k hk).2.2.trans hΩ⟩
  have key := exact_tones Fastest.checked G (by norm_num) (by norm_num) (by norm_num) (by norm_num) (b := 18871 / 10000) (by norm_num) (γ := 57 / 1000000) hL' (g := Fastest.gain)
    (fun a a0 a1 => ⟨le_trans (by norm_num) (Fastest.gain_mem a0 a1).1, (Fastest.gain_mem a0 a1).2⟩)
    (fun a a0 a1 p hp ψ => Fastest.wave_gain a0 (a1.trans (by norm_num)) hp ψ) hρ hD hτ hx
  refine key.trans ?_
  rw [Fastest.rows_length]
  have l0 := loudness_nonneg hL
  have h1 : (57 / 1000000 + (20 : ℕ) / 15000000 + (644 / 256 / (128 : ℕ)) ^ 2 / 8 + 644 / 256 / (128 : ℕ) / 8000 + 1 / 3000000 : ℝ) ≤ 110 / 1000000 := by norm_num
  have h2 : (((18871 / 10000 : ℚ) : ℝ) + (20 : ℕ) / 15000000 : ℝ) ≤ 1888 / 1000 := by norm_num
  exact add_le_add (mul_le_mul_of_nonneg_left h1 l0) (mul_le_mul_of_nonneg_right h2 η0)

theorem mid_band (n : ℕ) (A ω θ : ℕ → ℝ) (η : ℝ) (ρ τ : ℚ) (D : ℤ) (x : ℕ → ℕ → F32) (c : ℕ) (hL : ToneLimits n A ω (9 / 10 * Real.pi)) (hρ : 1 ≤ ρ)
    (hD : sincReach (MidQual.table.count - 2) MidQual.table.increment 1 ≤ D) (hτ : filterReach MidQual.table 1 ≤ τ)
    (hx : SampledFrom x c τ (filterReach MidQual.table 1) (tones n A ω θ) η) :
    |(exactIdeal MidQual.table x D ρ τ c : ℝ) - tones n (fun k => A k * MidQual.gain (ω k)) ω θ τ| ≤ loudness n A * (326 / 10000000) + 2364 / 1000 * η := by
  obtain ⟨B, G, -⟩ := table_geom (t := MidQual.table) (Or.inr (Or.inl ⟨rfl, rfl⟩))
  have η0 : 0 ≤ η := by
    have hR : (1 : ℚ) ≤ filterReach MidQual.table 1 := by
      unfold filterReach
      rw [show MidQual.table.count = 22438 from rfl, show MidQual.table.increment = 491 from rfl]
      norm_num
    have hτ0 : (0 : ℚ) ≤ τ := by linarith
    obtain ⟨q, -, h⟩ := hx ⌊τ⌋₊ (by
      have a := Nat.floor_le hτ0
      have b := Nat.lt_floor_add_one τ
      rw [_root_.abs_lt]
      constructor <;> linarith)
    exact (abs_nonneg _).trans h
  have hΩ : 9 / 10 * Real.pi ≤ 1810 / 640 := by have := Real.pi_lt_d4; linarith
  have hL' : ToneLimits n A ω (1810 / 640) := fun k hk => ⟨(hL k hk).1, (hL k hk).2.1, (hL k hk).2.2.trans hΩ⟩
  have key := exact_tones MidQual.checked G (by norm_num) (by norm_num) (by norm_num) (by norm_num) (b := 2363 / 1000) (by norm_num) (γ := 243 / 10000000) hL' (g := MidQual.gain)
    (fun a a0 a1 => ⟨le_trans (by norm_num) (MidQual.gain_mem a0 a1).1, (MidQual.gain_mem a0 a1).2⟩)
    (fun a a0 a1 p hp ψ => MidQual.wave_gain a0 a1 hp ψ) hρ hD hτ hx
  refine key.trans ?_
  rw [MidQual.rows_length]
  have l0 := loudness_nonneg hL
  have h1 : (243 / 10000000 + (46 : ℕ) / 15000000 + (1810 / 640 / (491 : ℕ)) ^ 2 / 8 + 1810 / 640 / (491 : ℕ) / 8000 + 1 / 3000000 : ℝ) ≤ 326 / 10000000 := by norm_num
  have h2 : (((2363 / 1000 : ℚ) : ℝ) + (46 : ℕ) / 15000000 : ℝ) ≤ 2364 / 1000 := by norm_num
  exact add_le_add (mul_le_mul_of_nonneg_left h1 l0) (mul_le_mul_of_nonneg_right h2 η0)

/-- C70, fast converter: it has the bandwidth of 80 % its description states. There is a gain `g`, depending on nothing but the angle per frame of a tone, at least
0.70795 (less than 3 dB below 1) and at most 1 up to 0.8 of half the sampling rate and equal to 1 up to 2 radians per frame, such that where the ratio is at least 1
a sum of tones below 0.8 of half the sampling rate comes out as the sum of the same tones with their amplitudes multiplied by their gains, sampled at the
times of the output frames, up to 1/9000 of the sum of the amplitudes. -/
theorem C70_fastest : ∃ g : ℝ → ℝ, (∀ a, 0 ≤ a → a ≤ 4 / 5 * Real.pi → 70795 / 100000 ≤ g a ∧ g a ≤ 1) ∧ (∀ a, 0 ≤ a → a ≤ 2 → g a = 1) ∧
    ∀ (cfg : Config) (_ : LibraryTables cfg) (_ : ShippedTables cfg) (ch : ℕ) (e : ℤ) (st st1 : SrcState) (_ : srcNew cfg SRC_SINC_FASTEST ch = .ok (e, some st))
      (x : ℕ → ℕ → F32) (len : Option ℕ) (_ : EndsAt x len) (ops : List Op) (os : List Obs) (V : ℕ) (_ : ∀ op ∈ ops, SizedOp ch op) (_ : run ops st = .ok (os, st1))
      (_ : FedTo x ch len 0 ops os V),
      ∃ ρ : ℕ → ℚ, (∀ j < (outputs ch os).length, 1 / 256 ≤ ρ j ∧ ρ j ≤ 256) ∧
        (∀ a b, (∀ op ∈ ops, RatioIn a b op) → ∀ j < (outputs ch os).length, a ≤ ρ j ∧ ρ j ≤ b) ∧
        ratiosFrom sincRatioAt ch 0 ops os = (List.range (outputs ch os).length).map ρ ∧
        ∀ j f c s n A ω θ η, (outputs ch os)[j]? = some f → f[c]? = some s → 1 ≤ ρ j → 21 ≤ timeAt ρ j → ToneLimits n A ω (4 / 5 * Real.pi) → 0 ≤ η → loudness n A + η ≤ 2 ^ 62 →
          SampledFrom x c (timeAt ρ j) 21 (tones n A ω θ) η →
          ∃ y : ℚ, s.val = some y ∧ |(y : ℝ) - tones n (fun k => A k * g (ω k)) ω θ (timeAt ρ j)| ≤ loudness n A * (1 / 9000) + 2 * η + 1 / 2 ^ 148 := by
  refine ⟨Fastest.gain, fun a h0 h1 => Fastest.gain_mem h0 (h1.trans (by have := Real.pi_lt_d4; linarith)), fun a h0 h1 => Fastest.gain_one h0 h1,
    fun cfg hL hP ch e st st1 h x len hx ops os V hS hr hF => ?_⟩
  have ht : SincType SRC_SINC_FASTEST := Or.inr (Or.inr rfl)
  obtain ⟨t, hT, -⟩ := sinc_table hL ht h
  have := (shipped_good hP hT).1 rfl
  subst this
  exact tones_of cfg hL _ ht ch e st st1 h x len hx ops os V hS hr hF hT fastest_good (by norm_num) fastest_reach fastest_band (by norm_num) (by norm_num)

/-- C70, medium converter: 0.9 of half the sampling rate, gain 1 up to 2.6 radians per frame, 47 frames, `loudness / 29000 + 2.4 η`. -/
theorem C70_medium : ∃ g : ℝ → ℝ, (∀ a, 0 ≤ a → a ≤ 9 / 10 * Real.pi → 70795 / 100000 ≤ g a ∧ g a ≤ 1) ∧ (∀ a, 0 ≤ a → a ≤ 13 / 5 → g a = 1) ∧
    ∀ (cfg : Config) (_ : LibraryTables cfg) (_ : ShippedTables cfg) (ch : ℕ) (e : ℤ) (st st1 : SrcState) (_ : srcNew cfg SRC_SINC_MEDIUM_QUALITY ch = .ok (e, some st))
      (x : ℕ → ℕ → F32) (len : Option ℕ) (_ : EndsAt x len) (ops : List Op) (os : List Obs) (V : ℕ) (_ : ∀ op ∈ ops, SizedOp ch op) (_ : run ops st = .ok (os, st1))
      (_ : FedTo x ch len 0 ops os V),
      ∃ ρ : ℕ → ℚ, (∀ j < (outputs ch os).length, 1 / 256 ≤ ρ j ∧ ρ j ≤ 256) ∧
        (∀ a b, (∀ op ∈ ops, RatioIn a b op) → ∀ j < (outputs ch os).length, a ≤ ρ j ∧ ρ j ≤ b) ∧
        ratiosFrom sincRatioAt ch 0 ops os = (List.range (outputs ch os).length).map ρ ∧
        ∀ j f c s n A ω θ η, (outputs ch os)[j]? = some f → f[c]? = some s → 1 ≤ ρ j → 47 ≤ timeAt ρ j → ToneLimits n A ω (9 / 10 * Real.pi) → 0 ≤ η → loudness n A + η ≤ 2 ^ 62 →
          SampledFrom x c (timeAt ρ j) 47 (tones n A ω θ) η →
          ∃ y : ℚ, s.val = some y ∧ |(y : ℝ) - tones n (fun k => A k * g (ω k)) ω θ (timeAt ρ j)| ≤ loudness n A * (1 / 29000) + 12 / 5 * η + 1 / 2 ^ 148 := by
  refine ⟨MidQual.gain, fun a h0 h1 => MidQual.gain_mem h0 (h1.trans (by have := Real.pi_lt_d4; linarith)), fun a h0 h1 => MidQual.gain_one h0 h1,
    fun cfg hL hP ch e st st1 h x len hx ops os V hS hr hF => ?_⟩
  have ht : SincType SRC_SINC_MEDIUM_QUALITY := Or.inr (Or.inl rfl)
  obtain ⟨t, hT, -⟩ := sinc_table hL ht h
  have := (shipped_good hP hT).2 rfl
  subst this
  exact tones_of cfg hL _ ht ch e st st1 h x len hx ops os V hS hr hF hT mid_good (by norm_num) mid_reach mid_band (by norm_num) (by norm_num)

/-- A hundred frames of a tone of a third of the sampling rate, 2/3 of half of it: 2, -1, -1, ... -/
def third (k _c : ℕ) : F32 := if k < 100 then (if k % 3 = 0 then Fl.ofInt f32 2 else Fl.ofInt f32 (-1)) else zero32

/-- These frames in memory, two channels, from address 1 on. -/
def thirdMem (a : ℤ) : F32 := third ((a - 1) / 2).toNat 0

theorem third_val {k : ℕ} (hk : k < 100) (c : ℕ) : ∃ q : ℚ, (third k c).val = some q ∧ (q : ℝ) = 2 * Real.cos (2 / 3 * Real.pi * k + 0) := by
  have two : (Fl.ofInt f32 2).val = some 2 := by simpa using Fl.val_ofInt (f := f32) (n := 2) (by norm_num [f32])
  have neg : (Fl.ofInt f32 (-1)).val = some (-1) := by simpa using Fl.val_ofInt (f := f32) (n := -1) (by norm_num [f32])
  have e : (k : ℝ) = 3 * ((k / 3 : ℕ) : ℝ) + ((k % 3 : ℕ) : ℝ) := by exact_mod_cast (Nat.div_add_mod k 3).symm
  have c3 : Real.cos (2 / 3 * Real.pi * k + 0) = Real.cos (2 / 3 * Real.pi * ((k % 3 : ℕ) : ℝ)) := by
    rw [e, show 2 / 3 * Real.pi * (3 * ((k / 3 : ℕ) : ℝ) + ((k % 3 : ℕ) : ℝ)) + 0 = 2 / 3 * Real.pi * ((k % 3 : ℕ) : ℝ) + ((k / 3 : ℕ) : ℝ) * (2 * Real.pi) by ring,
      Real.cos_add_nat_mul_two_pi]
  rw [c3]
  unfold third
  rw [if_pos hk]
  have h3 : k % 3 = 0 ∨ k % 3 = 1 ∨ k % 3 = 2 := by omega
  rcases h3 with h | h | h <;> rw [h]
  · exact ⟨2, by simpa using two, by simp⟩
  · exact ⟨-1, by simpa using neg, by
      rw [show 2 / 3 * Real.pi * ((1 : ℕ) : ℝ) = Real.pi - Real.pi / 3 by push_cast; ring, Real.cos_pi_sub, Real.cos_pi_div_three]; norm_num⟩
  · exact ⟨-1, by simpa using neg, by
      rw [show 2 / 3 * Real.pi * ((2 : ℕ) : ℝ) = Real.pi / 3 + Real.pi by push_cast; ring, Real.cos_add_pi, Real.cos_pi_div_three]; norm_num⟩

/-- The hypotheses of C70 are met by a call with a hundred frames of this tone, which is above the limit of C64: by C70 output frame 51 of this call, where the tone
has its maximum 2, is between 1.41 and 2.01. -/
example : ∃ (st st1 : SrcState) (os : List Obs) (f : List F32) (s : F32) (y : ℚ), srcNew libCfg SRC_SINC_FASTEST (2 : ℕ) = .ok (0, some st) ∧
    run [.process thirdMem (some sincCall)] st = .ok (os, st1) ∧ FedTo third 2 (some 100) 0 [.process thirdMem (some sincCall)] os 100 ∧
    (outputs 2 os)[51]? = some f ∧ f[1]? = some s ∧ s.val = some y ∧ (141 / 100 : ℝ) ≤ y ∧ (y : ℝ) ≤ 201 / 100 := by
  obtain ⟨st, o, st1, d', h1, h2, h3, h4, h5, -, h7⟩ := sinc_one_call_of libCfg_tables (t := Fastest.table)
    (by simp [Config.table, libCfg, SRC_SINC_FASTEST, SRC_SINC_MEDIUM_QUALITY, SRC_SINC_BEST_QUALITY])
  have hr : run [.process (fun _ => zero32) (some sincCall)] st = .ok ([o], st1) := by
    simp only [run, h2]; rfl
  obtain ⟨os', st1', hr', hs⟩ := C17 libCfg st (.new _ _ _ _ h1) _ [.process thirdMem (some sincCall)] (.cons (.process _ _ _) .nil) _ _ hr
  cases hs with
  | cons hs hnil =>
  rename_i o' l
  cases hnil
  have hret : o'.ret = 0 := by rw [hs.ret]; exact h3
  have hdat : o'.data = some d' := by rw [hs.data]; exact h4
  have hF : FedTo third 2 (some 100) 0 [.process thirdMem (some sincCall)] [o'] 100 := by
    have := FedTo.call 0 100 thirdMem sincCall d' o' [] [] (x := third) (ch := 2) (len := some 100) (fun k c hk hc => by
      have e : ((sincCall.dataIn + (2 * (k : ℤ) + c) - 1) / 2).toNat = k := by
        simp only [sincCall]
        omega
      simp [thirdMem, third, e]) (fun _ => rfl) hret hdat (by rw [h5]; exact .nil _)
    exact this
  have hS : ∀ op ∈ [Op.process thirdMem (some sincCall)], SizedOp (2 : ℕ) op := by
    intro op hop
    rw [List.mem_singleton.1 hop]
    exact sincCall_sized
  have hx : EndsAt third (some 100) := by
    intro n hn k hk c
    cases hn
    simp [third, hk]
  obtain ⟨g, g1, -, hC⟩ := C70_fastest
  obtain ⟨ρ, -, r2, -, r3⟩ := hC libCfg libCfg_tables libCfg_shipped 2 _ st _ h1 third _ hx _ _ _ hS hr' hF
  have hlen : 98 ≤ (outputs 2 [o']).length := by
    simp only [run] at hr'
    obtain ⟨⟨o1, s1⟩, r1, hr'⟩ := bind_ok hr'
    obtain ⟨⟨o2, s2⟩, -, hr'⟩ := bind_ok hr'
    have hr' := ok_inj hr'
    simp only [Prod.mk.injEq, List.cons.injEq] at hr'
    obtain ⟨⟨rfl, _⟩, rfl⟩ := hr'
    simp only [Op.run] at r1
    obtain ⟨⟨e, m', st', d1⟩, -, r1⟩ := bind_ok r1
    have r1 := ok_inj r1
    simp only [Prod.mk.injEq] at r1
    obtain ⟨rfl, -⟩ := r1
    have hdat : d1 = some d' := hdat
    subst hdat
    simp [outputs, outOf]
    omega
  have hr1 : ∀ j < (outputs 2 [o']).length, ρ j = 1 := fun j hj => by
    obtain ⟨a, b⟩ := r2 1 1 (by
      intro op hop
      rw [List.mem_singleton.1 hop]
      intro r hr
      have h1 : sincCall.srcRatio.val = some 1 := one64_val
      rw [h1] at hr
      cases hr
      norm_num) j hj
    exact le_antisymm b a
  have hτ : timeAt ρ 51 = 51 := by
    have : ∀ j ≤ 51, posAt ⟨0, 0⟩ ρ j = ⟨j, 0⟩ := by
      intro j
      induction j with
      | zero => intro _; rfl
      | succ j ih =>
        intro hj
        rw [← posAt_one (j + 1)]
        simp only [posAt]
        rw [ih (by omega), posAt_one, hr1 j (by omega)]
    simp [timeAt, this 51 le_rfl]
  obtain ⟨f, ho⟩ : ∃ f, (outputs 2 [o'])[51]? = some f := ⟨_, List.getElem?_eq_getElem (by omega)⟩
  have hf1 : f.length = 2 := by
    have hm := List.mem_of_getElem? ho
    simp only [outputs, List.mem_flatMap, List.mem_singleton] at hm
    obtain ⟨_, rfl, hm⟩ := hm
    unfold outOf at hm
    split at hm
    · obtain ⟨_, _, rfl⟩ := List.mem_map.1 hm
      simp [frameOf]
    · cases hm
  obtain ⟨s, hs1⟩ : ∃ s, f[1]? = some s := ⟨_, List.getElem?_eq_getElem (by rw [hf1]; norm_num)⟩
  have hpi := Real.pi_pos
  obtain ⟨y, hy, hy1⟩ := r3 51 _ 1 s 1 (fun _ => 2) (fun _ => 2 / 3 * Real.pi) (fun _ => 0) 0 ho hs1 (hr1 51 (by omega)).ge (by rw [hτ]; norm_num)
    (fun k _ => ⟨by norm_num, by positivity, by linarith⟩) le_rfl (by simp [loudness]; norm_num) (by
      intro k hk
      rw [hτ, abs_lt] at hk
      have : (k : ℚ) < 100 := by linarith [hk.2]
      have : k < 100 := by exact_mod_cast this
      obtain ⟨q, q1, q2⟩ := third_val this 1
      exact ⟨q, q1, by simp [tones, q2]⟩)
  refine ⟨st, st1', _, _, s, y, h1, hr', hF, ho, hs1, hy, ?_⟩
  obtain ⟨g2, g3⟩ := g1 (2 / 3 * Real.pi) (by positivity) (by linarith)
  have e : tones 1 (fun _ => 2 * g (2 / 3 * Real.pi)) (fun _ => 2 / 3 * Real.pi) (fun _ => 0) ((timeAt ρ 51 : ℚ) : ℝ) = 2 * g (2 / 3 * Real.pi) := by
    rw [hτ]
    simp only [tones, Finset.sum_range_one, add_zero]
    rw [show 2 / 3 * Real.pi * ((51 : ℚ) : ℝ) = ((17 : ℕ) : ℝ) * (2 * Real.pi) by push_cast; ring, Real.cos_nat_mul_two_pi, mul_one]
  rw [e] at hy1
  simp only [loudness, Finset.sum_range_one] at hy1
  have w : (1 : ℝ) / 2 ^ 148 ≤ 1 / 1000000 := by norm_num
  rw [_root_.abs_le] at hy1
  constructor <;> linarith [hy1.1, hy1.2]

end Verif
