import Verif.Props.Alias
import Verif.Props.Band
import Verif.Proof.ResponseTap

/-! The frequency response of the sinc converters (C71). -/

namespace Verif
open Spec

/-- The exact filter of a checked table at ratios up to 1. -/
theorem exact_response {rows : List (List ℤ)} {inc cnt : ℕ} {lo hi top : ℤ} {S V d M z : ℕ} (C : Coeffs.Checked rows inc cnt lo hi top S V d M z) {B : ℤ}
    (G : Geom ((cnt : ℤ) - 2) inc B) (hN : (cnt : ℤ) - 2 ≤ 143 * inc) (hM : M ≤ 95 * 10 ^ 25) (hz : z ≤ 13 * 10 ^ 19) (h128 : 128 ≤ inc) {m : ℚ}
    (hm : 2 * (4097 / 4096 * ((S / 10 ^ 27 + cnt * (1 / 30000000)) / inc) + (V / 10 ^ 27 + cnt * (1 / 15000000))) ≤ m)
    {γ κ : ℝ} {L : ℕ} (hL : L + 2 = cnt) (H : Alias.Decays (fun i => (rows.flatten.getD i 0 : ℝ) / 10 ^ 27) L inc γ κ) (g0 : 0 ≤ γ) (k0 : 0 ≤ κ)
    {g : ℝ → ℝ} {Ω Ω' γ0 δ Λ : ℝ} (hg : ∀ a, 0 ≤ a → 0 ≤ g a ∧ g a ≤ 1) (hπ : Real.pi ≤ Ω) (hΩ : Ω ≤ inc) (hΩ' : 0 ≤ Ω')
    (hw : ∀ a, 0 ≤ a → a ≤ Ω → ∀ p ≤ inc, ∀ ψ, |Sine.wave (fun i => (rows.flatten.getD i 0 : ℝ) / 10 ^ 27) inc rows.length (a / inc) ψ p - g a * Real.cos ψ| ≤ γ0)
    (h0 : ∀ a, Ω' ≤ a → g a = 0) (hδ : ∀ a, Ω ≤ a → g a ≤ δ) (hl : ∀ a b, 0 ≤ a → 0 ≤ b → |g a - g b| ≤ Λ * |a - b|) (Λ0 : 0 ≤ Λ)
    {X Y Z W q : ℝ} (hX : 2 * (γ * (5 / 4) / (98 / 10) + 2 * κ / ((2 * inc - 1) ^ 2 * (98 / 10))) + (2 * (L + 1) / inc + 1) * (1 / 5000000) ≤ X)
    (hY1 : γ0 + 5 / 48 * (Ω / inc) ^ 2 ≤ Y) (hY2 : γ / (98 / 10) + κ / ((2 * inc - 1) ^ 2 * (98 / 10)) + δ ≤ Y) (hZ : Ω * (1001 / 1000) / (4096 * inc) ≤ Z) (hXY : X + Y ≤ 1 / 1000)
    (hq : Λ * Ω' / (8189 * inc) ≤ q) (hW : X + Y + Z ≤ W) {ρ τ : ℚ} (hρ : 1 / 256 ≤ ρ) (hρ1 : ρ ≤ 1) {n : ℕ} {A ω θ : ℕ → ℝ} {η : ℝ}
    (hT : ToneLimits n A ω Real.pi) {x : ℕ → ℕ → F32} {c : ℕ} (hτ : filterReach (Coeffs.ofRows inc cnt rows) ρ ≤ τ)
    (hx : SampledFrom x c τ (filterReach (Coeffs.ofRows inc cnt rows) ρ) (tones n A ω θ) η) :
    |(exactIdeal (Coeffs.ofRows inc cnt rows) x (allHistory (Coeffs.ofRows inc cnt rows)) ρ τ c : ℝ) - tones n (fun k => A k * g (ω k / ρ)) ω θ τ| ≤
      loudness n A * (W + q / ρ + 1 / (1040000 * ρ)) + m * η := by
  have q1 : (128 : ℝ) ≤ inc := by exact_mod_cast h128
  have ρr : (1 : ℝ) / 256 ≤ ρ := by
    have := Rat.cast_le (K := ℝ).2 hρ
    push_cast at this
    exact this
  have half : (1 : ℝ) / 2 ≤ inc * ρ := by nlinarith
  rw [exactIdeal_eq C hM]
  have key := C.response G hM hz h128 hm hL H g0 k0 hX hXY (Z := Z + q / ρ) (W := W + q / ρ) (by linarith) hρ hρ1 (Int.fract_nonneg τ) (Int.fract_lt_one τ) (P := fun _ => True)
    (T := fun w θ => g (w / ρ) * Real.cos (w * ((Int.fract τ : ℚ) : ℝ) + θ))
    (fun s φ w θ _ w0 _ s0 step hφ => Alias.one_gained (C.tail_zero hL) (C.below hL (by omega)) (by omega) H g0 k0 hg hπ hΩ hΩ' hw h0 hδ hl Λ0 hY1 hY2 hZ hq (by linarith) half w0 s0 step hφ)
    (D := allHistory (Coeffs.ofRows inc cnt rows)) le_rfl (n := n) (A := A) (ω := ω) (θ := fun t => ω t * (⌊τ⌋ : ℤ) + θ t) (η := η)
    (fun t ht => ⟨(hT t ht).1, (hT t ht).2.1, (hT t ht).2.2, trivial⟩) (ξ := fun z => valOf (signal x (⌊τ⌋ + z) c)) (fun k hk => sampled_under G hN h128 hρ hτ hx hk)
  have e5 : tones n (fun k => A k * g (ω k / ρ)) ω θ τ = ∑ t ∈ Finset.range n, A t * (g (ω t / ρ) * Real.cos (ω t * ((Int.fract τ : ℚ) : ℝ) + (ω t * (⌊τ⌋ : ℤ) + θ t))) :=
    Finset.sum_congr rfl (fun t _ => by rw [split_time]; ring)
  rw [e5]
  exact key

theorem pi_805 : Real.pi ≤ 805 / 256 := by have := Real.pi_lt_d4; linarith

theorem pi_2011 : Real.pi ≤ 2011 / 640 := by have := Real.pi_lt_d4; linarith

theorem fastest_down (n : ℕ) (A ω θ : ℕ → ℝ) (η : ℝ) (ρ τ : ℚ) (x : ℕ → ℕ → F32) (c : ℕ) (hT : ToneLimits n A ω Real.pi) (hρ : 1 / 256 ≤ ρ) (hρ1 : ρ ≤ 1)
    (hτ : filterReach Fastest.table ρ ≤ τ) (hx : SampledFrom x c τ (filterReach Fastest.table ρ) (tones n A ω θ) η) :
    |(exactIdeal Fastest.table x (allHistory Fastest.table) ρ τ c : ℝ) - tones n (fun k => A k * Fastest.gain (ω k / ρ)) ω θ τ| ≤
      loudness n A * (2880 / 10000000 + (72 / 10000000) / ρ + 1 / (1040000 * ρ)) + ((53 / 10 : ℚ) : ℝ) * η := by
  obtain ⟨B, G, -⟩ := table_geom (t := Fastest.table) (Or.inl ⟨rfl, rfl⟩)
  exact exact_response Fastest.checked G (by norm_num) (by norm_num) (by norm_num) (by norm_num) (by norm_num) (L := 2462) (by norm_num) Fastest.decays (by norm_num) (by norm_num)
    (fun a ha => Fastest.gain_all ha) pi_805 (Ω' := 805 / 256) (δ := 0) (by norm_num) (by norm_num) (fun a a0 a1 p hp ψ => Fastest.wave_gain a0 a1 hp ψ) (fun a ha => Fastest.gain_zero ha)
    (fun a ha => (Fastest.gain_zero ha).le) (fun a b ha hb => Fastest.gain_lip ha hb) (by norm_num) (X := 1616 / 10000000) (Y := 1200 / 10000000) (Z := 61 / 10000000)
    (by norm_num) (by norm_num) (by norm_num) (by norm_num) (by norm_num) (by norm_num) (by norm_num) hρ hρ1 hT hτ hx

theorem mid_down (n : ℕ) (A ω θ : ℕ → ℝ) (η : ℝ) (ρ τ : ℚ) (x : ℕ → ℕ → F32) (c : ℕ) (hT : ToneLimits n A ω Real.pi) (hρ : 1 / 256 ≤ ρ) (hρ1 : ρ ≤ 1)
    (hτ : filterReach MidQual.table ρ ≤ τ) (hx : SampledFrom x c τ (filterReach MidQual.table ρ) (tones n A ω θ) η) :
    |(exactIdeal MidQual.table x (allHistory MidQual.table) ρ τ c : ℝ) - tones n (fun k => A k * MidQual.gain (ω k / ρ)) ω θ τ| ≤
      loudness n A * (5864 / 10000000 + (41 / 10000000) / ρ + 1 / (1040000 * ρ)) + ((702 / 100 : ℚ) : ℝ) * η := by
  obtain ⟨B, G, -⟩ := table_geom (t := MidQual.table) (Or.inr (Or.inl ⟨rfl, rfl⟩))
  exact exact_response MidQual.checked G (by norm_num) (by norm_num) (by norm_num) (by norm_num) (by norm_num) (L := 22436) (by norm_num) MidQual.decays (by norm_num) (by norm_num)
    (fun a ha => MidQual.gain_all ha) pi_2011 (Ω' := 2012 / 640) (δ := 1 / 40000) (by norm_num) (by norm_num) (fun a a0 a1 p hp ψ => MidQual.wave_close a0 a1 hp ψ) (fun a ha => MidQual.gain_zero ha)
    (fun a ha => MidQual.gain_small ha) (fun a b ha hb => MidQual.gain_lip ha hb) (by norm_num) (X := 4053 / 10000000) (Y := 1793 / 10000000) (Z := 16 / 10000000)
    (by norm_num) (by norm_num) (by norm_num) (by norm_num) (by norm_num) (by norm_num) (by norm_num) hρ hρ1 hT hτ hx

theorem fastest_up (n : ℕ) (A ω θ : ℕ → ℝ) (η : ℝ) (ρ τ : ℚ) (D : ℤ) (x : ℕ → ℕ → F32) (c : ℕ) (hL : ToneLimits n A ω Real.pi) (hρ : 1 ≤ ρ)
    (hD : sincReach (Fastest.table.count - 2) Fastest.table.increment 1 ≤ D) (hτ : filterReach Fastest.table 1 ≤ τ)
    (hx : SampledFrom x c τ (filterReach Fastest.table 1) (tones n A ω θ) η) :
    |(exactIdeal Fastest.table x D ρ τ c : ℝ) - tones n (fun k => A k * Fastest.gain (ω k)) ω θ τ| ≤ loudness n A * (138 / 1000000) + 1888 / 1000 * η := by
  obtain ⟨B, G, -⟩ := table_geom (t := Fastest.table) (Or.inl ⟨rfl, rfl⟩)
  have η0 : 0 ≤ η := by
    have hR : (1 : ℚ) ≤ filterReach Fastest.table 1 := by
      unfold filterReach
      rw [show Fastest.table.count = 2464 from rfl, show Fastest.table.increment = 128 from rfl]
      norm_num
    have hτ0 : (0 : ℚ) ≤ τ := by linarith
    obtain ⟨q, -, h⟩ := hx ⌊τ⌋₊ (by
      have a := Nat.floor_le hτ0
      have b := Nat.lt_floor_add_one τ
      rw [_root_.abs_lt]
      constructor <;> linarith)
    exact (abs_nonneg _).trans h
  have hL' : ToneLimits n A ω (805 / 256) := fun k hk => ⟨(hL k hk).1, (hL k hk).2.1, (hL k hk).2.2.trans pi_805⟩
  have key := exact_tones Fastest.checked G (by norm_num) (by norm_num) (by norm_num) (by norm_num) (b := 18871 / 10000) (by norm_num) (γ := 57 / 1000000) hL' (g := Fastest.gain)
    (fun a a0 _ => Fastest.gain_all a0) (fun a a0 a1 p hp ψ => Fastest.wave_gain a0 a1 hp ψ) hρ hD hτ hx
  refine key.trans ?_
  rw [Fastest.rows_length]
  have l0 := loudness_nonneg hL
  have h1 : (57 / 1000000 + (20 : ℕ) / 15000000 + (805 / 256 / (128 : ℕ)) ^ 2 / 8 + 805 / 256 / (128 : ℕ) / 8000 + 1 / 3000000 : ℝ) ≤ 138 / 1000000 := by norm_num
  have h2 : (((18871 / 10000 : ℚ) : ℝ) + (20 : ℕ) / 15000000 : ℝ) ≤ 1888 / 1000 := by norm_num
  exact add_le_add (mul_le_mul_of_nonneg_left h1 l0) (mul_le_mul_of_nonneg_right h2 η0)

theorem mid_up (n : ℕ) (A ω θ : ℕ → ℝ) (η : ℝ) (ρ τ : ℚ) (D : ℤ) (x : ℕ → ℕ → F32) (c : ℕ) (hL : ToneLimits n A ω Real.pi) (hρ : 1 ≤ ρ)
    (hD : sincReach (MidQual.table.count - 2) MidQual.table.increment 1 ≤ D) (hτ : filterReach MidQual.table 1 ≤ τ)
    (hx : SampledFrom x c τ (filterReach MidQual.table 1) (tones n A ω θ) η) :
    |(exactIdeal MidQual.table x D ρ τ c : ℝ) - tones n (fun k => A k * MidQual.gain (ω k)) ω θ τ| ≤ loudness n A * (92 / 1000000) + 2364 / 1000 * η := by
  obtain ⟨B, G, -⟩ := table_geom (t := MidQual.table) (Or.inr (Or.inl ⟨rfl, rfl⟩))
  have η0 : 0 ≤ η := by
    have hR : (1 : ℚ) ≤ filterReach MidQual.table 1 := by
      unfold filterReach
      rw [show MidQual.table.count = 22438 from rfl, show MidQual.table.increment = 491 from rfl]
      norm_num
    have hτ0 : (0 : ℚ) ≤ τ := by linarith
    obtain ⟨q, -, h⟩ := hx ⌊τ⌋₊ (by
      have a := Nat.floor_le hτ0
      have b := Nat.lt_floor_add_one τ
      rw [_root_.abs_lt]
      constructor <;> linarith)
    exact (abs_nonneg _).trans h
  have hL' : ToneLimits n A ω (2011 / 640) := fun k hk => ⟨(hL k hk).1, (hL k hk).2.1, (hL k hk).2.2.trans pi_2011⟩
  have key := exact_tones MidQual.checked G (by norm_num) (by norm_num) (by norm_num) (by norm_num) (b := 2363 / 1000) (by norm_num) (γ := 814 / 10000000) hL' (g := MidQual.gain)
    (fun a a0 _ => MidQual.gain_all a0) (fun a a0 a1 p hp ψ => MidQual.wave_close a0 a1 hp ψ) hρ hD hτ hx
  refine key.trans ?_
  rw [MidQual.rows_length]
  have l0 := loudness_nonneg hL
  have h1 : (814 / 10000000 + (46 : ℕ) / 15000000 + (2011 / 640 / (491 : ℕ)) ^ 2 / 8 + 2011 / 640 / (491 : ℕ) / 8000 + 1 / 3000000 : ℝ) ≤ 92 / 1000000 := by norm_num
  have h2 : (((2363 / 1000 : ℚ) : ℝ) + (46 : ℕ) / 15000000 : ℝ) ≤ 2364 / 1000 := by norm_num
  exact add_le_add (mul_le_mul_of_nonneg_left h1 l0) (mul_le_mul_of_nonneg_right h2 η0)

/-- One output sample at any ratio. -/
theorem response_sample {m m1 : ℚ} {R : ℚ} {t : CoeffTable} (hG : Good t m m1) (hm : m ≤ 8) (hm1 : m1 ≤ 3) (hR : filterReach t 1 ≤ R) {W κ μ W' q q' μ' : ℝ} {g : ℝ → ℝ}
    (hdown : ∀ n A ω θ η (ρ τ : ℚ) x c, ToneLimits n A ω Real.pi → 1 / 256 ≤ ρ → ρ ≤ 1 → filterReach t ρ ≤ τ → SampledFrom x c τ (filterReach t ρ) (tones n A ω θ) η →
      |(exactIdeal t x (allHistory t) ρ τ c : ℝ) - tones n (fun k => A k * g (ω k / ρ)) ω θ τ| ≤ loudness n A * (W + q / ρ + 1 / (1040000 * ρ)) + m * η)
    (hup : ∀ n A ω θ η (ρ τ : ℚ) D x c, ToneLimits n A ω Real.pi → 1 ≤ ρ → sincReach (t.count - 2) t.increment 1 ≤ D → filterReach t 1 ≤ τ → SampledFrom x c τ (filterReach t 1) (tones n A ω θ) η →
      |(exactIdeal t x D ρ τ c : ℝ) - tones n (fun k => A k * g (ω k)) ω θ τ| ≤ loudness n A * κ + μ * η)
    (hW : W + 12 / 10000000 ≤ W') (hq : q + 1 / 1040000 ≤ q') (q0 : 0 ≤ q') (hμ : (m : ℝ) + 12 / 10000000 ≤ μ') (hκ : κ + 1 / 1000000 ≤ W') (hμ1 : μ + 1 / 1000000 ≤ μ')
    {x : ℕ → ℕ → F32} {ρ τ : ℚ} {c n : ℕ} {A ω θ : ℕ → ℝ} {η : ℝ} (hD : 0 ≤ allHistory t) (hD1 : sincReach (t.count - 2) t.increment 1 ≤ allHistory t)
    (ρ1 : 1 / 256 ≤ ρ) (hτ : R / min 1 ρ ≤ τ) (hLim : ToneLimits n A ω Real.pi) (η0 : 0 ≤ η) (hsum : loudness n A + η ≤ 2 ^ 62)
    (hu : SampledFrom x c τ (R / min 1 ρ) (tones n A ω θ) η) :
    ∃ y : ℚ, (sincIdeal t x (allHistory t) ρ τ c).val = some y ∧
      |(y : ℝ) - tones n (fun k => A k * g (ω k / ((min 1 ρ : ℚ) : ℝ))) ω θ τ| ≤ loudness n A * (W' + q' / ((min 1 ρ : ℚ) : ℝ)) + μ' * η + 1 / 2 ^ 148 := by
  have l0 := loudness_nonneg hLim
  rcases le_total ρ 1 with hρ | hρ
  · rw [min_eq_right hρ] at hτ hu ⊢
    obtain ⟨y, y1, y2⟩ := sample_near hG hm hR hμ hD ρ1 hρ hτ hLim η0 hsum hu (hdown n A ω θ η ρ τ x c hLim ρ1 hρ)
    refine ⟨y, y1, y2.trans ?_⟩
    have r0 : (0 : ℝ) < ρ := by
      have : 0 < ρ := by linarith
      exact_mod_cast this
    have e : q / ρ + 1 / (1040000 * (ρ : ℝ)) = (q + 1 / 1040000) / ρ := by field_simp
    have r1 : q / ρ + 1 / (1040000 * (ρ : ℝ)) ≤ q' / ρ := by rw [e]; gcongr
    have a8 := mul_le_mul_of_nonneg_left (add_le_add hW r1) l0
    linarith
  · rw [min_eq_left hρ] at hτ hu ⊢
    rw [div_one] at hτ hu
    obtain ⟨y, y1, y2⟩ := tones_sample (T := fun n A ω θ τ => tones n (fun k => A k * g (ω k)) ω θ τ) hG hm1 hR hup hκ hμ1 hD hD1 hρ hτ hLim η0 hsum hu
    refine ⟨y, y1, ?_⟩
    simp only [Rat.cast_one, div_one]
    have := mul_nonneg l0 q0
    rw [mul_add]
    linarith

/-- C71, fast converter: its frequency response. There is a gain `g` with values from 0 to 1, 1 up to 2, at least 0.70795 up to `0.8 π` and 0 from `1.001 π` on, such
that at every output frame, at any ratio `ρ`, in a history whose ratios do not drop, a sum of tones of any frequencies comes out as the same tones with their
amplitudes multiplied by `g (ω / min 1 ρ)`, sampled at the times of the output frames: the gain of a tone depends only on its frequency relative to the lower one of
the two sampling rates, also in the transition band. -/
theorem C71_fastest : ∃ g : ℝ → ℝ, (∀ a, 0 ≤ a → 0 ≤ g a ∧ g a ≤ 1) ∧ (∀ a, 0 ≤ a → a ≤ 2 → g a = 1) ∧ (∀ a, 0 ≤ a → a ≤ 4 / 5 * Real.pi → 70795 / 100000 ≤ g a) ∧
    (∀ a, 1001 / 1000 * Real.pi ≤ a → g a = 0) ∧
    ∀ (cfg : Config) (_ : LibraryTables cfg) (_ : ShippedTables cfg) (ch : ℕ) (e : ℤ) (st st1 : SrcState) (_ : srcNew cfg SRC_SINC_FASTEST ch = .ok (e, some st))
      (x : ℕ → ℕ → F32) (len : Option ℕ) (_ : EndsAt x len) (ops : List Op) (os : List Obs) (V : ℕ) (_ : ∀ op ∈ ops, SizedOp ch op) (_ : SincUse 0 ch (.rising 0) ops)
      (_ : run ops st = .ok (os, st1)) (_ : FedTo x ch len 0 ops os V),
      ∃ ρ : ℕ → ℚ, (∀ j < (outputs ch os).length, 1 / 256 ≤ ρ j ∧ ρ j ≤ 256) ∧
        (∀ a b, (∀ op ∈ ops, RatioIn a b op) → ∀ j < (outputs ch os).length, a ≤ ρ j ∧ ρ j ≤ b) ∧
        ratiosFrom sincRatioAt ch 0 ops os = (List.range (outputs ch os).length).map ρ ∧
        ∀ j f c s n A ω θ η, (outputs ch os)[j]? = some f → f[c]? = some s → 21 / min 1 (ρ j) ≤ timeAt ρ j → ToneLimits n A ω Real.pi → 0 ≤ η → loudness n A + η ≤ 2 ^ 62 →
          SampledFrom x c (timeAt ρ j) (21 / min 1 (ρ j)) (tones n A ω θ) η →
          ∃ y : ℚ, s.val = some y ∧ |(y : ℝ) - tones n (fun k => A k * g (ω k / ((min 1 (ρ j) : ℚ) : ℝ))) ω θ (timeAt ρ j)| ≤
            loudness n A * (1 / 3400 + 9 / 1000000 / ((min 1 (ρ j) : ℚ) : ℝ)) + 27 / 5 * η + 1 / 2 ^ 148 := by
  have pi3 := Real.pi_gt_d4
  have pi4 := Real.pi_lt_d4
  refine ⟨Fastest.gain, fun a h0 => Fastest.gain_all h0, fun a h0 h1 => Fastest.gain_one h0 h1, fun a h0 h1 => (Fastest.gain_mem h0 (by linarith)).1,
    fun a ha => Fastest.gain_zero (by linarith), fun cfg hL hP ch e st st1 h x len hx ops os V hS hU hr hF => ?_⟩
  have ht : SincType SRC_SINC_FASTEST := Or.inr (Or.inr rfl)
  obtain ⟨t, hT, hd⟩ := sinc_table hL ht h
  have := (shipped_good hP hT).1 rfl
  subst this
  obtain ⟨t', ρ, D, hT', h1, h2, hR', h3, -⟩ := C24_sinc cfg hL _ ht ch e st st1 h x len hx ops os V hS hr hF
  rw [hT] at hT'
  cases hT'
  refine ⟨ρ, fun j hj => ⟨(h1 j hj).1, (h1 j hj).2.1⟩, h2, hR', fun j f c s n A ω θ η hf hs hτ hLim η0 hsum hu => ?_⟩
  obtain ⟨hj, hc, rfl⟩ := sample_of h3 hf hs
  have hD1 := (h1 j hj).2.2.1
  have hDj := (h1 j hj).2.2.2 (Or.inr hU)
  rw [hDj] at hD1 ⊢
  have hD : 0 ≤ allHistory Fastest.table := by have := reach_nonneg hd; omega
  exact response_sample fastest_good (by norm_num) (by norm_num) fastest_reach fastest_down fastest_up (by norm_num) (by norm_num) (by norm_num) (by norm_num) (by norm_num) (by norm_num)
    hD hD1 (h1 j hj).1 hτ hLim η0 hsum hu

/-- C71, medium converter: 1 up to 2.6, at least 0.70795 up to `0.9 π`, `47 / min 1 ρ` frames, `loudness (1 / 1700 + 6 / (1000000 min 1 ρ)) + 7.1 η`. -/
theorem C71_medium : ∃ g : ℝ → ℝ, (∀ a, 0 ≤ a → 0 ≤ g a ∧ g a ≤ 1) ∧ (∀ a, 0 ≤ a → a ≤ 13 / 5 → g a = 1) ∧ (∀ a, 0 ≤ a → a ≤ 9 / 10 * Real.pi → 70795 / 100000 ≤ g a) ∧
    (∀ a, 1001 / 1000 * Real.pi ≤ a → g a = 0) ∧
    ∀ (cfg : Config) (_ : LibraryTables cfg) (_ : ShippedTables cfg) (ch : ℕ) (e : ℤ) (st st1 : SrcState) (_ : srcNew cfg SRC_SINC_MEDIUM_QUALITY ch = .ok (e, some st))
      (x : ℕ → ℕ → F32) (len : Option ℕ) (_ : EndsAt x len) (ops : List Op) (os : List Obs) (V : ℕ) (_ : ∀ op ∈ ops, SizedOp ch op) (_ : SincUse 0 ch (.rising 0) ops)
      (_ : run ops st = .ok (os, st1)) (_ : FedTo x ch len 0 ops os V),
      ∃ ρ : ℕ → ℚ, (∀ j < (outputs ch os).length, 1 / 256 ≤ ρ j ∧ ρ j ≤ 256) ∧
        (∀ a b, (∀ op ∈ ops, RatioIn a b op) → ∀ j < (outputs ch os).length, a ≤ ρ j ∧ ρ j ≤ b) ∧
        ratiosFrom sincRatioAt ch 0 ops os = (List.range (outputs ch os).length).map ρ ∧
        ∀ j f c s n A ω θ η, (outputs ch os)[j]? = some f → f[c]? = some s → 47 / min 1 (ρ j) ≤ timeAt ρ j → ToneLimits n A ω Real.pi → 0 ≤ η → loudness n A + η ≤ 2 ^ 62 →
          SampledFrom x c (timeAt ρ j) (47 / min 1 (ρ j)) (tones n A ω θ) η →
          ∃ y : ℚ, s.val = some y ∧ |(y : ℝ) - tones n (fun k => A k * g (ω k / ((min 1 (ρ j) : ℚ) : ℝ))) ω θ (timeAt ρ j)| ≤
            loudness n A * (1 / 1700 + 6 / 1000000 / ((min 1 (ρ j) : ℚ) : ℝ)) + 71 / 10 * η + 1 / 2 ^ 148 := by
  have pi3 := Real.pi_gt_d4
  have pi4 := Real.pi_lt_d4
  refine ⟨MidQual.gain, fun a h0 => MidQual.gain_all h0, fun a h0 h1 => MidQual.gain_one h0 h1, fun a h0 h1 => (MidQual.gain_mem h0 (by linarith)).1,
    fun a ha => MidQual.gain_zero (by linarith), fun cfg hL hP ch e st st1 h x len hx ops os V hS hU hr hF => ?_⟩
  have ht : SincType SRC_SINC_MEDIUM_QUALITY := Or.inr (Or.inl rfl)
  obtain ⟨t, hT, hd⟩ := sinc_table hL ht h
  have := (shipped_good hP hT).2 rfl
  subst this
  obtain ⟨t', ρ, D, hT', h1, h2, hR', h3, -⟩ := C24_sinc cfg hL _ ht ch e st st1 h x len hx ops os V hS hr hF
  rw [hT] at hT'
  cases hT'
  refine ⟨ρ, fun j hj => ⟨(h1 j hj).1, (h1 j hj).2.1⟩, h2, hR', fun j f c s n A ω θ η hf hs hτ hLim η0 hsum hu => ?_⟩
  obtain ⟨hj, hc, rfl⟩ := sample_of h3 hf hs
  have hD1 := (h1 j hj).2.2.1
  have hDj := (h1 j hj).2.2.2 (Or.inr hU)
  rw [hDj] at hD1 ⊢
  have hD : 0 ≤ allHistory MidQual.table := by have := reach_nonneg hd; omega
  exact response_sample mid_good (by norm_num) (by norm_num) mid_reach mid_down mid_up (by norm_num) (by norm_num) (by norm_num) (by norm_num) (by norm_num) (by norm_num)
    hD hD1 (h1 j hj).1 hτ hLim η0 hsum hu

/-- The ratio 1/2. -/
def half : F64 := Fl.round f64 (1 / 2)

theorem half_val : half.val = some (1 / 2) := by
  have : Rep f64 (1 / 2) := ⟨⟨1, -1, by norm_num [f64], by norm_num [f64], by norm_num [p2]⟩, by
    refine lt_of_lt_of_le (b := 1) (by norm_num) ?_
    simp only [f64, p2]
    exact one_le_zpow₀ (by norm_num) (by norm_num)⟩
  exact Fl.val_round_of_rep this

theorem posAt_half (j : ℕ) : posAt ⟨0, 0⟩ (fun _ => 1 / 2) j = ⟨2 * j, 0⟩ := by
  induction j with
  | zero => rfl
  | succ j ih =>
    simp only [posAt, ih, Pos.advance]
    have e1 : rq f64 ((1 : ℚ) / (1 / 2)) = 2 := by
      rw [show (1 : ℚ) / (1 / 2) = ((2 : ℤ) : ℚ) by norm_num]
      exact (rq_of_rep (rep0_int (by norm_num [f64]))).trans (by norm_num)
    have e2 : rq f64 (2 : ℚ) = 2 := by
      rw [show (2 : ℚ) = ((2 : ℤ) : ℚ) by norm_num]
      exact rq_of_rep (rep0_int (by norm_num [f64]))
    rw [e1, zero_add, e2]
    norm_num
    rw [show Int.toNat 2 = 2 from rfl]
    ring

/-- 200 frames of input, room for 1000 frames of output, ratio 1/2, end of input. -/
def halfCall : SrcData :=
  { dataIn := 1, dataOut := 1000, inputFrames := 200, outputFrames := 1000, inputFramesUsed := 0, outputFramesGen := 0, endOfInput := 1, srcRatio := half }

theorem halfCall_sized : SincSized (2 : ℕ) halfCall := by
  obtain ⟨h, he⟩ := Fl.eq_fin_of_val half_val
  exact ⟨by simp [halfCall, he], by norm_num [halfCall, samples], by norm_num [halfCall, samples]⟩

theorem halfCall_use (m : Mem) : SincUse 0 (2 : ℕ) (.rising 0) [.process m (some halfCall)] := by
  refine .riseCall _ _ _ _ halfCall_sized ?_ (.nil _)
  intro v hv _ _
  have h1 : halfCall.srcRatio.val = some (1 / 2) := half_val
  rw [h1] at hv
  cases hv
  norm_num

theorem halfCall_safe : SafeUse (2 : ℕ) .live [.process (fun _ => zero32) (some halfCall)] := by
  refine .call _ _ _ _ halfCall_sized ?_ (.nil _)
  intro v hv _ _
  have h1 : halfCall.srcRatio.val = some (1 / 2) := half_val
  rw [h1] at hv
  cases hv
  norm_num

/-- One call of `halfCall` on a new handle of the fast converter succeeds and puts out at least 90 frames. -/
theorem half_one_call : ∃ st o st1 d', srcNew libCfg SRC_SINC_FASTEST (2 : ℕ) = .ok (0, some st) ∧
    (Op.process (fun _ => zero32) (some halfCall)).run st = .ok (o, st1) ∧ o.ret = 0 ∧ o.data = some d' ∧
    d'.inputFramesUsed = 200 ∧ 90 ≤ d'.outputFramesGen := by
  have hL := libCfg_tables
  have ht : SincType SRC_SINC_FASTEST := Or.inr (Or.inr rfl)
  obtain ⟨st, hst⟩ := sinc_new_ok (t := Fastest.table) hL ht
    (by simp [Config.table, libCfg, SRC_SINC_FASTEST, SRC_SINC_MEDIUM_QUALITY, SRC_SINC_BEST_QUALITY]) (ch := 2) (by norm_num) (by norm_num)
  obtain ⟨t, B, _, H⟩ := sinc_new_hist hL ht hst (p := .live) (Or.inr (Or.inl rfl))
  obtain ⟨os, st1, u1, h1, hw, _⟩ := sinc_history_total halfCall_safe H
  obtain ⟨_, _, _, _, _, _, T, _⟩ := sinc_new_track hL ht hst (fun _ _ => zero32) none
  obtain ⟨f, D, W, -⟩ := T.view
  cases hw with
  | cons hw hnil =>
  cases hnil
  rename_i o
  simp only [run] at h1
  obtain ⟨⟨o1, s1⟩, r1, h1⟩ := bind_ok h1
  obtain ⟨⟨o2, s2⟩, r2, h1⟩ := bind_ok h1
  have r2 := ok_inj r2
  have h1 := ok_inj h1
  simp only [Prod.mk.injEq, List.cons.injEq] at h1 r2
  obtain ⟨⟨rfl, _⟩, rfl⟩ := h1
  have hret : o1.ret = 0 := by
    rcases hw with ⟨ha, _⟩ | ⟨h, _⟩
    · exfalso
      simp only [Op.run] at r1
      obtain ⟨⟨e, m', st', d'⟩, hp, r1⟩ := bind_ok r1
      have r1 := ok_inj r1
      simp only [Prod.mk.injEq] at r1
      rw [← r1.1] at ha
      have hf := (C02 _ _ _ _ _ _ _ hp (by
        have ha : e = 18 ∨ e = 3 ∨ e = 4 ∨ e = 6 ∨ e = 16 := ha
        omega)).1
      obtain ⟨h, he⟩ := Fl.eq_fin_of_val half_val
      cases hf with
      | state hh => simp at hh
      | mode s a b => cases a; exact b T.mode
      | data s a b c => cases c
      | buffer s y a b c d => cases c; simp [MissingBuffer, halfCall] at d
      | ratio s y a b c d e => cases c; simp only [halfCall, he, BadRatio] at e; norm_num at e
      | overlap s y a b c d e f => cases a; cases c; rw [W.hch] at f; simp [Clash, halfCall, samples] at f
    · exact h
  obtain ⟨d', hd'⟩ : ∃ d', o1.data = some d' := by
    rcases hw with ⟨ha, _⟩ | ⟨_, x, x', m', _, h, _⟩
    · rw [hret] at ha; simp [ArgError] at ha
    · exact ⟨x', h⟩
  have hx : EndsAt (fun _ _ => zero32) (some 200) := fun _ _ _ _ _ => rfl
  have hP : Presents (fun _ _ => zero32) 2 0 (fun _ => zero32) halfCall := fun k c _ _ => rfl
  have hroom : d'.outputFramesGen < 1000 := by
    obtain ⟨t, B, u, g, hT, Ge, hch1, hB, vr, e1, e2, e3, e4, e5⟩ := sinc_last hL ht hst (r := 1 / 2) (len := some 200) hx (by norm_num)
      (ops := []) (os := []) (by simp) rfl (.nil _) halfCall_sized half_val hP (fun _ => rfl) r1 hret hd'
    rw [e2]
    by_contra hc
    have hc : 1000 ≤ g := by omega
    have := (e4 999 (by simp [outputs]; omega)).1
    rw [posAt_half] at this
    simp only [halfCall] at e3
    dsimp only at this
    omega
  have := C48 _ hL _ ht 2 _ st st s1 hst _ 200 hx (1 / 2) (by norm_num) [] [] 0 (by simp) rfl (.nil _) _ _ d' _ halfCall_sized half_val hP
    (by simp [halfCall]) rfl (by simp [halfCall]) r1 hret hd' hroom _ rfl
  obtain ⟨a, b⟩ := this
  refine ⟨st, o1, s1, d', hst, r1, hret, hd', by simpa using a, ?_⟩
  rw [abs_le] at b
  simp only [outputs, List.flatMap_nil, List.length_nil, Nat.cast_zero, zero_add] at b
  have hb : (90 : ℚ) < (d'.outputFramesGen : ℚ) := by
    have h1 := b.1
    push_cast at h1
    have h2 : (d'.outputFramesGen : ℚ) ≤ 1000 := by exact_mod_cast hroom.le
    have h3 : (d'.outputFramesGen : ℚ) / 2 ^ 44 ≤ 1000 / 2 ^ 44 := by gcongr
    norm_num at h1 h3
    linarith
  have : (90 : ℤ) < d'.outputFramesGen := by exact_mod_cast hb
  omega

/-- Two hundred frames of a tone of a sixth of the sampling rate: 2, 1, -1, -2, -1, 1, ... -/
def sixth (k _c : ℕ) : F32 :=
  if k < 200 then (if k % 6 = 0 then Fl.ofInt f32 2 else if k % 6 = 3 then Fl.ofInt f32 (-2) else if k % 6 = 1 ∨ k % 6 = 5 then Fl.ofInt f32 1 else Fl.ofInt f32 (-1)) else zero32

/-- These frames in memory, two channels, from address 1 on. -/
def sixthMem (a : ℤ) : F32 := sixth ((a - 1) / 2).toNat 0

theorem sixth_val {k : ℕ} (hk : k < 200) (c : ℕ) : ∃ q : ℚ, (sixth k c).val = some q ∧ (q : ℝ) = 2 * Real.cos (Real.pi / 3 * k + 0) := by
  have v : ∀ n : ℤ, |n| ≤ 2 → (Fl.ofInt f32 n).val = some (n : ℚ) := fun n hn => Fl.val_ofInt (f := f32) (n := n) (le_trans hn (by norm_num [f32]))
  have e : (k : ℝ) = 6 * ((k / 6 : ℕ) : ℝ) + ((k % 6 : ℕ) : ℝ) := by exact_mod_cast (Nat.div_add_mod k 6).symm
  have c6 : Real.cos (Real.pi / 3 * k + 0) = Real.cos (Real.pi / 3 * ((k % 6 : ℕ) : ℝ)) := by
    rw [e, show Real.pi / 3 * (6 * ((k / 6 : ℕ) : ℝ) + ((k % 6 : ℕ) : ℝ)) + 0 = Real.pi / 3 * ((k % 6 : ℕ) : ℝ) + ((k / 6 : ℕ) : ℝ) * (2 * Real.pi) by ring,
      Real.cos_add_nat_mul_two_pi]
  rw [c6]
  unfold sixth
  rw [if_pos hk]
  have h6 : k % 6 = 0 ∨ k % 6 = 1 ∨ k % 6 = 2 ∨ k % 6 = 3 ∨ k % 6 = 4 ∨ k % 6 = 5 := by omega
  have c1 := Real.cos_pi_div_three
  rcases h6 with h | h | h | h | h | h <;> rw [h]
  · exact ⟨2, by simpa using v 2 (by norm_num), by simp⟩
  · exact ⟨1, by simpa using v 1 (by norm_num), by simp [c1]⟩
  · exact ⟨-1, by simpa using v (-1) (by norm_num), by
      rw [show Real.pi / 3 * ((2 : ℕ) : ℝ) = Real.pi - Real.pi / 3 by push_cast; ring, Real.cos_pi_sub, c1]; norm_num⟩
  · exact ⟨-2, by simpa using v (-2) (by norm_num), by
      rw [show Real.pi / 3 * ((3 : ℕ) : ℝ) = Real.pi by push_cast; ring, Real.cos_pi]; norm_num⟩
  · exact ⟨-1, by simpa using v (-1) (by norm_num), by
      rw [show Real.pi / 3 * ((4 : ℕ) : ℝ) = Real.pi / 3 + Real.pi by push_cast; ring, Real.cos_add_pi, c1]; norm_num⟩
  · exact ⟨1, by simpa using v 1 (by norm_num), by
      rw [show Real.pi / 3 * ((5 : ℕ) : ℝ) = 2 * Real.pi - Real.pi / 3 by push_cast; ring, Real.cos_two_pi_sub, c1]; norm_num⟩

/-- The hypotheses of C71 are met by a call with these frames at ratio 1/2, where the tone is at 2/3 of half the rate of the output, in the transition band, which C65
leaves out: by C71 output frame 30 of this call, at input frame 60, where the tone has its maximum 2, is between 1.41 and 2.01. -/
example : ∃ (st st1 : SrcState) (os : List Obs) (f : List F32) (s : F32) (y : ℚ), srcNew libCfg SRC_SINC_FASTEST (2 : ℕ) = .ok (0, some st) ∧
    run [.process sixthMem (some halfCall)] st = .ok (os, st1) ∧ FedTo sixth 2 (some 200) 0 [.process sixthMem (some halfCall)] os 200 ∧
    (outputs 2 os)[30]? = some f ∧ f[1]? = some s ∧ s.val = some y ∧ (141 / 100 : ℝ) ≤ y ∧ (y : ℝ) ≤ 201 / 100 := by
  obtain ⟨st, o, st1, d', h1, h2, h3, h4, h5, h7⟩ := half_one_call
  have hr : run [.process (fun _ => zero32) (some halfCall)] st = .ok ([o], st1) := by
    simp only [run, h2]; rfl
  obtain ⟨os', st1', hr', hs⟩ := C17 libCfg st (.new _ _ _ _ h1) _ [.process sixthMem (some halfCall)] (.cons (.process _ _ _) .nil) _ _ hr
  cases hs with
  | cons hs hnil =>
  rename_i o' l
  cases hnil
  have hret : o'.ret = 0 := by rw [hs.ret]; exact h3
  have hdat : o'.data = some d' := by rw [hs.data]; exact h4
  have hF : FedTo sixth 2 (some 200) 0 [.process sixthMem (some halfCall)] [o'] 200 := by
    have := FedTo.call 0 200 sixthMem halfCall d' o' [] [] (x := sixth) (ch := 2) (len := some 200) (fun k c hk hc => by
      have e : ((halfCall.dataIn + (2 * (k : ℤ) + c) - 1) / 2).toNat = k := by
        simp only [halfCall]
        omega
      simp [sixthMem, sixth, e]) (fun _ => rfl) hret hdat (by rw [h5]; exact .nil _)
    exact this
  have hS : ∀ op ∈ [Op.process sixthMem (some halfCall)], SizedOp (2 : ℕ) op := by
    intro op hop
    rw [List.mem_singleton.1 hop]
    exact halfCall_sized
  have hx : EndsAt sixth (some 200) := by
    intro n hn k hk c
    cases hn
    simp [sixth, hk]
  obtain ⟨g, g0, -, g1, -, hC⟩ := C71_fastest
  obtain ⟨ρ, -, r2, -, r3⟩ := hC libCfg libCfg_tables libCfg_shipped 2 _ st _ h1 sixth _ hx _ _ _ hS (halfCall_use _) hr' hF
  have hlen : 90 ≤ (outputs 2 [o']).length := by
    simp only [run] at hr'
    obtain ⟨⟨o1, s1⟩, r1, hr'⟩ := bind_ok hr'
    obtain ⟨⟨o2, s2⟩, -, hr'⟩ := bind_ok hr'
    have hr' := ok_inj hr'
    simp only [Prod.mk.injEq, List.cons.injEq] at hr'
    obtain ⟨⟨rfl, _⟩, rfl⟩ := hr'
    simp only [Op.run] at r1
    obtain ⟨⟨e, m', st', d1⟩, -, r1⟩ := bind_ok r1
    have r1 := ok_inj r1
    simp only [Prod.mk.injEq] at r1
    obtain ⟨rfl, -⟩ := r1
    have hdat : d1 = some d' := hdat
    subst hdat
    simp [outputs, outOf]
    omega
  have hr1 : ∀ j < (outputs 2 [o']).length, ρ j = 1 / 2 := fun j hj => by
    obtain ⟨a, b⟩ := r2 (1 / 2) (1 / 2) (by
      intro op hop
      rw [List.mem_singleton.1 hop]
      intro r hr
      have h1 : halfCall.srcRatio.val = some (1 / 2) := half_val
      rw [h1] at hr
      cases hr
      norm_num) j hj
    exact le_antisymm b a
  have hτ : timeAt ρ 30 = 60 := by
    have : ∀ j ≤ 30, posAt ⟨0, 0⟩ ρ j = ⟨2 * j, 0⟩ := by
      intro j
      induction j with
      | zero => intro _; rfl
      | succ j ih =>
        intro hj
        rw [← posAt_half (j + 1)]
        simp only [posAt]
        rw [ih (by omega), posAt_half, hr1 j (by omega)]
    simp [timeAt, this 30 le_rfl]
  have hρ := hr1 30 (by omega)
  obtain ⟨f, ho⟩ : ∃ f, (outputs 2 [o'])[30]? = some f := ⟨_, List.getElem?_eq_getElem (by omega)⟩
  have hf1 : f.length = 2 := by
    have hm := List.mem_of_getElem? ho
    simp only [outputs, List.mem_flatMap, List.mem_singleton] at hm
    obtain ⟨_, rfl, hm⟩ := hm
    unfold outOf at hm
    split at hm
    · obtain ⟨_, _, rfl⟩ := List.mem_map.1 hm
      simp [frameOf]
    · cases hm
  obtain ⟨s, hs1⟩ : ∃ s, f[1]? = some s := ⟨_, List.getElem?_eq_getElem (by rw [hf1]; norm_num)⟩
  have hpi := Real.pi_pos
  have hm : min 1 (ρ 30) = 1 / 2 := by rw [hρ]; norm_num
  obtain ⟨y, hy, hy1⟩ := r3 30 _ 1 s 1 (fun _ => 2) (fun _ => Real.pi / 3) (fun _ => 0) 0 ho hs1 (by rw [hτ, hm]; norm_num)
    (fun k _ => ⟨by norm_num, by positivity, by linarith⟩) le_rfl (by simp [loudness]; norm_num) (by
      intro k hk
      rw [hτ, hm, abs_lt] at hk
      have : (k : ℚ) < 200 := by linarith [hk.2]
      have : k < 200 := by exact_mod_cast this
      obtain ⟨q, q1, q2⟩ := sixth_val this 1
      exact ⟨q, q1, by simp [tones, q2]⟩)
  refine ⟨st, st1', _, _, s, y, h1, hr', hF, ho, hs1, hy, ?_⟩
  rw [hm] at hy1
  have ea : Real.pi / 3 / (((1 / 2 : ℚ) : ℚ) : ℝ) = 2 / 3 * Real.pi := by push_cast; ring
  rw [ea] at hy1
  have k1 := g1 (2 / 3 * Real.pi) (by positivity) (by linarith)
  have k2 := (g0 (2 / 3 * Real.pi) (by positivity)).2
  have e : tones 1 (fun _ => 2 * g (2 / 3 * Real.pi)) (fun _ => Real.pi / 3) (fun _ => 0) ((timeAt ρ 30 : ℚ) : ℝ) = 2 * g (2 / 3 * Real.pi) := by
    rw [hτ]
    simp only [tones, Finset.sum_range_one, add_zero]
    rw [show Real.pi / 3 * ((60 : ℚ) : ℝ) = ((10 : ℕ) : ℝ) * (2 * Real.pi) by push_cast; ring, Real.cos_nat_mul_two_pi, mul_one]
  rw [e] at hy1
  simp only [loudness, Finset.sum_range_one] at hy1
  have w : (1 : ℝ) / 2 ^ 148 ≤ 1 / 1000000 := by norm_num
  have w2 : (9 / 1000000 : ℝ) / (((1 / 2 : ℚ) : ℚ) : ℝ) = 18 / 1000000 := by push_cast; norm_num
  rw [w2, _root_.abs_le] at hy1
  constructor <;> linarith [hy1.1, hy1.2]

end Verif
