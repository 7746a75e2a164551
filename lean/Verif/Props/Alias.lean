import Verif.Props.Sine
import Verif.Proof.AliasFilter
import Verif.Proof.AliasGrid

/-! The sinc converters on sums of sinusoids at ratios up to 1 (C65). -/

namespace Verif
open Spec

/-- The samples under the filter, of a signal sampled from tones. -/
theorem sampled_under {inc cnt : ℕ} {rows : List (List ℤ)} {B : ℤ} (G : Geom ((cnt : ℤ) - 2) inc B) (hN : (cnt : ℤ) - 2 ≤ 143 * inc) (h128 : 128 ≤ inc) {ρ τ : ℚ} (hρ : 1 / 256 ≤ ρ)
    {n : ℕ} {A ω θ : ℕ → ℝ} {η : ℝ} {x : ℕ → ℕ → F32} {c : ℕ} (hτ : filterReach (Coeffs.ofRows inc cnt rows) ρ ≤ τ)
    (hx : SampledFrom x c τ (filterReach (Coeffs.ofRows inc cnt rows) ρ) (tones n A ω θ) η) {D k : ℤ} (hk : UnderFilter ((cnt : ℤ) - 2) inc ρ (Int.fract τ) D k) :
    |(valOf (signal x (⌊τ⌋ + k) c) : ℝ) - ∑ t ∈ Finset.range n, A t * Real.cos (ω t * k + (ω t * (⌊τ⌋ : ℤ) + θ t))| ≤ η := by
  have h128' : (128 : ℤ) ≤ inc := by exact_mod_cast h128
  have a := signal_near (t := Coeffs.ofRows inc cnt rows) G hN h128' hρ hk
  have h0 : 0 ≤ ⌊τ⌋ + k := by
    have a := a
    rw [_root_.abs_lt] at a
    have : (0 : ℚ) < ((⌊τ⌋ + k : ℤ) : ℚ) := by linarith
    exact_mod_cast this.le
  have e1 : (((⌊τ⌋ + k).toNat : ℕ) : ℤ) = ⌊τ⌋ + k := Int.toNat_of_nonneg h0
  have e2 : (((⌊τ⌋ + k).toNat : ℕ) : ℚ) = ((⌊τ⌋ + k : ℤ) : ℚ) := by exact_mod_cast e1
  have e3 : (((⌊τ⌋ + k).toNat : ℕ) : ℝ) = (⌊τ⌋ : ℤ) + (k : ℤ) := by exact_mod_cast e1
  obtain ⟨q, h1, h2⟩ := hx (⌊τ⌋ + k).toNat (by rwa [e2])
  rw [e3] at h2
  unfold signal
  rw [if_neg (by omega), valOf_eq h1]
  have e4 : tones n A ω θ ((⌊τ⌋ : ℤ) + (k : ℤ)) = ∑ t ∈ Finset.range n, A t * Real.cos (ω t * k + (ω t * (⌊τ⌋ : ℤ) + θ t)) :=
    Finset.sum_congr rfl (fun t _ => by congr 2; ring)
  rw [← e4]
  exact h2

/-- The exact filter of a table, by its entries. -/
theorem exactIdeal_eq {rows : List (List ℤ)} {inc cnt : ℕ} {lo hi top : ℤ} {S V d M z : ℕ} (C : Coeffs.Checked rows inc cnt lo hi top S V d M z) (hM : M ≤ 95 * 10 ^ 25)
    (x : ℕ → ℕ → F32) (D : ℤ) (ρ τ : ℚ) (c : ℕ) : exactIdeal (Coeffs.ofRows inc cnt rows) x D ρ τ c =
      exactAt (Coeffs.tabQ rows.flatten) ((cnt : ℤ) - 2) inc ρ (Int.fract τ) D (fun z => valOf (signal x (⌊τ⌋ + z) c)) := by
  have hv : ∀ i, valOf ((Coeffs.ofRows inc cnt rows).coeffs i) = Coeffs.tabQ rows.flatten i := fun i => valOf_eq (C.val hM i)
  unfold exactIdeal
  rw [funext hv]
  rfl

theorem split_time (τ : ℚ) (w θ : ℝ) : w * τ + θ = w * ((Int.fract τ : ℚ) : ℝ) + (w * (⌊τ⌋ : ℤ) + θ) := by
  have : (τ : ℝ) = (⌊τ⌋ : ℤ) + ((Int.fract τ : ℚ) : ℝ) := by
    have := Int.floor_add_fract τ
    exact_mod_cast this.symm
  rw [this]
  ring

/-- The exact filter of a checked table. -/
theorem exact_alias {rows : List (List ℤ)} {inc cnt : ℕ} {lo hi top : ℤ} {S V d M z : ℕ} (C : Coeffs.Checked rows inc cnt lo hi top S V d M z) {B : ℤ}
    (G : Geom ((cnt : ℤ) - 2) inc B) (hN : (cnt : ℤ) - 2 ≤ 143 * inc) (hM : M ≤ 95 * 10 ^ 25) (hz : z ≤ 13 * 10 ^ 19) (h128 : 128 ≤ inc) {g : ℚ}
    (hg : 2 * (4097 / 4096 * ((S / 10 ^ 27 + cnt * (1 / 30000000)) / inc) + (V / 10 ^ 27 + cnt * (1 / 15000000))) ≤ g)
    {γ κ : ℝ} {L : ℕ} (hL : L + 2 = cnt) (H : Alias.Decays (fun i => (rows.flatten.getD i 0 : ℝ) / 10 ^ 27) L inc γ κ) (g0 : 0 ≤ γ) (k0 : 0 ≤ κ)
    {Ω γ0 : ℝ} (Ω0 : 0 ≤ Ω) (hΩ : Ω ≤ inc)
    (hw : ∀ a, 0 ≤ a → a ≤ Ω → ∀ p ≤ inc, ∀ ψ, |Sine.wave (fun i => (rows.flatten.getD i 0 : ℝ) / 10 ^ 27) inc rows.length (a / inc) ψ p - Real.cos ψ| ≤ γ0)
    {X Y Z W : ℝ} (hX : 2 * (γ * (5 / 4) / (98 / 10) + 2 * κ / ((2 * inc - 1) ^ 2 * (98 / 10))) + (2 * (L + 1) / inc + 1) * (1 / 5000000) ≤ X)
    (hY1 : γ0 + 5 / 48 * (Ω / inc) ^ 2 ≤ Y) (hY2 : γ / (98 / 10) + κ / ((2 * inc - 1) ^ 2 * (98 / 10)) ≤ Y) (hZ : Ω * (1001 / 1000) / (4096 * inc) ≤ Z) (hXY : X + Y ≤ 1 / 1000)
    (hW : X + Y + Z ≤ W) {ρ τ : ℚ} (hρ : 1 / 256 ≤ ρ) (hρ1 : ρ ≤ 1) {n : ℕ} {A ω θ : ℕ → ℝ} {lim η : ℝ} (hlim : lim ≤ 1999 / 2000 * Ω * ρ)
    (hT : ToneBands n A ω lim (1001 / 1000 * Real.pi * ρ)) {x : ℕ → ℕ → F32} {c : ℕ} (hτ : filterReach (Coeffs.ofRows inc cnt rows) ρ ≤ τ)
    (hx : SampledFrom x c τ (filterReach (Coeffs.ofRows inc cnt rows) ρ) (tones n A ω θ) η) :
    |(exactIdeal (Coeffs.ofRows inc cnt rows) x (allHistory (Coeffs.ofRows inc cnt rows)) ρ τ c : ℝ) - tonesUpTo lim n A ω θ τ| ≤
      loudness n A * (W + 1 / (1040000 * ρ)) + g * η := by
  rw [exactIdeal_eq C hM]
  have key := C.alias G hM hz h128 hg hL H g0 k0 Ω0 hΩ hw hX hY1 hY2 hZ hXY hW hρ hρ1 (Int.fract_nonneg τ) (Int.fract_lt_one τ) (D := allHistory (Coeffs.ofRows inc cnt rows)) le_rfl
    (n := n) (A := A) (ω := ω) (θ := fun t => ω t * (⌊τ⌋ : ℤ) + θ t) (η := η) hlim hT (ξ := fun z => valOf (signal x (⌊τ⌋ + z) c)) (fun k hk => sampled_under G hN h128 hρ hτ hx hk)
  have e5 : tonesUpTo lim n A ω θ τ = ∑ t ∈ Finset.range n, if ω t ≤ lim then A t * Real.cos (ω t * ((Int.fract τ : ℚ) : ℝ) + (ω t * (⌊τ⌋ : ℤ) + θ t)) else 0 :=
    Finset.sum_congr rfl (fun t _ => by rw [split_time])
  rw [e5]
  exact key

theorem bands_limits {n : ℕ} {A ω : ℕ → ℝ} {lo hi : ℝ} (h : ToneBands n A ω lo hi) : ToneLimits n A ω Real.pi := fun k hk => ⟨(h k hk).1, (h k hk).2.1, (h k hk).2.2.1⟩

/-- From the exact filter to the output sample. -/
theorem sample_near {g g1 : ℚ} {R : ℚ} {t : CoeffTable} (hG : Good t g g1) (hg : g ≤ 8) (hR : filterReach t 1 ≤ R) {μ' E F : ℝ} (hμ : (g : ℝ) + 12 / 10000000 ≤ μ') {x : ℕ → ℕ → F32} {ρ τ : ℚ}
    {c n : ℕ} {A ω θ : ℕ → ℝ} {η : ℝ} (hD : 0 ≤ allHistory t) (ρ1 : 1 / 256 ≤ ρ) (hρ : ρ ≤ 1) (hτ : R / ρ ≤ τ) (hLim : ToneLimits n A ω Real.pi) (η0 : 0 ≤ η) (hsum : loudness n A + η ≤ 2 ^ 62)
    (hu : SampledFrom x c τ (R / ρ) (tones n A ω θ) η)
    (hE : filterReach t ρ ≤ τ → SampledFrom x c τ (filterReach t ρ) (tones n A ω θ) η → |(exactIdeal t x (allHistory t) ρ τ c : ℝ) - F| ≤ E + g * η) :
    ∃ y : ℚ, (sincIdeal t x (allHistory t) ρ τ c).val = some y ∧ |(y : ℝ) - F| ≤ E + loudness n A * (12 / 10000000) + μ' * η + 1 / 2 ^ 148 := by
  have l0 := loudness_nonneg hLim
  have w0 : (0 : ℝ) < 1 / 2 ^ 149 := by positivity
  have ρ0 : 0 < ρ := by linarith
  have reach : filterReach t ρ ≤ R / ρ := by
    rw [le_div_iff₀ ρ0]
    refine le_trans (le_of_eq ?_) hR
    unfold filterReach
    rw [min_eq_right hρ, min_self]
    field_simp
  obtain ⟨u, u1, u2⟩ := exists_rat_btwn (show loudness n A + η < loudness n A + η + 1 / 2 ^ 149 by linarith)
  have hu' : SampledFrom x c τ (filterReach t ρ) (tones n A ω θ) η := fun k hk => hu k (lt_of_lt_of_le hk reach)
  have hu2 : Around x c τ (filterReach t ρ) (Within u) := by
    intro k hk
    obtain ⟨q, q1, q2⟩ := hu' k hk
    refine ⟨q, q1, ?_⟩
    have q3 := tones_le hLim θ k
    have : |(q : ℝ)| ≤ u := by
      rw [abs_le] at *
      constructor <;> linarith
    exact_mod_cast this
  have u0 : 0 ≤ u := by
    have : (0 : ℝ) ≤ u := by linarith
    exact_mod_cast this
  have u3 : u ≤ 2 ^ 63 := by
    have : (u : ℝ) ≤ 2 ^ 63 := by
      have : (1 : ℝ) / 2 ^ 149 ≤ 1 := by norm_num
      have : (2 : ℝ) ^ 63 = 2 * 2 ^ 62 := by norm_num
      have : (1 : ℝ) ≤ 2 ^ 62 := by norm_num
      linarith
    exact_mod_cast this
  obtain ⟨y, a1, a2, a3, -⟩ := hG.near x c u u0 u3 _ hD _ ρ1 _ hu2
  have a4 := hE (reach.trans hτ) hu'
  refine ⟨y, a1, ?_⟩
  have a5 : |y - exactIdeal t x (allHistory t) ρ τ c| ≤ u * (12 / 10000000) + p2 (-149) := by
    have b1 : 601 * (p2 (-30) + p2 (-33)) + 8 / 16777216 ≤ 12 / 10000000 := by norm_num [p2]
    have b2 := mul_le_mul_of_nonneg_right b1 u0
    have b3 := mul_le_mul_of_nonneg_right hg u0
    generalize p2 (-149) = q at *
    generalize p2 (-30) + p2 (-33) = r at *
    linarith
  have a6 : |(y : ℝ) - (exactIdeal t x (allHistory t) ρ τ c : ℝ)| ≤ u * (12 / 10000000) + 1 / 2 ^ 149 := by
    have e : p2 (-149) = 1 / 2 ^ 149 := by norm_num [p2]
    rw [e] at a5
    have a5' := Alias.abs_cast a5
    push_cast at a5'
    exact a5'
  have a7 := abs_sub_le (y : ℝ) (exactIdeal t x (allHistory t) ρ τ c : ℝ) F
  have a9 := mul_le_mul_of_nonneg_right hμ η0
  have a10 : (1 : ℝ) / 2 ^ 149 * (12 / 10000000) + 1 / 2 ^ 149 ≤ 1 / 2 ^ 148 := by norm_num
  have a11 : (u : ℝ) * (12 / 10000000) ≤ (loudness n A + η + 1 / 2 ^ 149) * (12 / 10000000) := mul_le_mul_of_nonneg_right u2.le (by norm_num)
  generalize (1 : ℝ) / 2 ^ 149 = w at *
  generalize (1 : ℝ) / 2 ^ 148 = w' at *
  linarith

theorem alias_sample {g g1 : ℚ} {R : ℚ} {t : CoeffTable} (hG : Good t g g1) (hg : g ≤ 8) (hR : filterReach t 1 ≤ R) {Ω W W' μ' : ℝ}
    (hE : ∀ n A ω θ η (ρ τ : ℚ) x c, ToneBands n A ω (Ω * ρ) (1001 / 1000 * Real.pi * ρ) → 1 / 256 ≤ ρ → ρ ≤ 1 → filterReach t ρ ≤ τ →
      SampledFrom x c τ (filterReach t ρ) (tones n A ω θ) η → |(exactIdeal t x (allHistory t) ρ τ c : ℝ) - tonesUpTo (Ω * ρ) n A ω θ τ| ≤ loudness n A * (W + 1 / (1040000 * ρ)) + g * η)
    (hW : W + 12 / 10000000 ≤ W') (hμ : (g : ℝ) + 12 / 10000000 ≤ μ') {x : ℕ → ℕ → F32} {ρ τ : ℚ} {c n : ℕ} {A ω θ : ℕ → ℝ} {η : ℝ} (hD : 0 ≤ allHistory t)
    (ρ1 : 1 / 256 ≤ ρ) (hρ : ρ ≤ 1) (hτ : R / ρ ≤ τ) (hLim : ToneBands n A ω (Ω * ρ) (1001 / 1000 * Real.pi * ρ)) (η0 : 0 ≤ η) (hsum : loudness n A + η ≤ 2 ^ 62)
    (hu : SampledFrom x c τ (R / ρ) (tones n A ω θ) η) :
    ∃ y : ℚ, (sincIdeal t x (allHistory t) ρ τ c).val = some y ∧ |(y : ℝ) - tonesUpTo (Ω * ρ) n A ω θ τ| ≤ loudness n A * (W' + 1 / (1000000 * ρ)) + μ' * η + 1 / 2 ^ 148 := by
  obtain ⟨y, y1, y2⟩ := sample_near hG hg hR hμ hD ρ1 hρ hτ (bands_limits hLim) η0 hsum hu (hE n A ω θ η ρ τ x c hLim ρ1 hρ)
  refine ⟨y, y1, y2.trans ?_⟩
  have l0 := loudness_nonneg (bands_limits hLim)
  have r0 : (0 : ℝ) < ρ := by
    have : 0 < ρ := by linarith
    exact_mod_cast this
  have r1 : 1 / (1040000 * (ρ : ℝ)) ≤ 1 / (1000000 * ρ) := by gcongr; norm_num
  have a8 := mul_le_mul_of_nonneg_left hW l0
  have a8' := mul_le_mul_of_nonneg_left r1 l0
  rw [mul_add] at a8 ⊢
  rw [mul_add]
  linarith

theorem alias_of (cfg : Config) (hL : LibraryTables cfg) (type : ℤ) (ht : SincType type) (ch : ℕ) (e : ℤ) (st st1 : SrcState)
    (h : srcNew cfg type ch = .ok (e, some st)) (x : ℕ → ℕ → F32) (len : Option ℕ) (hx : EndsAt x len) (ops : List Op) (os : List Obs) (V : ℕ)
    (hS : ∀ op ∈ ops, SizedOp ch op) (hU : SincUse 0 ch (.rising 0) ops) (hr : run ops st = .ok (os, st1)) (hF : FedTo x ch len 0 ops os V)
    {g g1 : ℚ} {R : ℚ} {t : CoeffTable} (hT : cfg.table type = some t) (hG : Good t g g1) (hg : g ≤ 8) (hR : filterReach t 1 ≤ R) {Ω W W' μ' : ℝ}
    (hE : ∀ n A ω θ η (ρ τ : ℚ) x c, ToneBands n A ω (Ω * ρ) (1001 / 1000 * Real.pi * ρ) → 1 / 256 ≤ ρ → ρ ≤ 1 → filterReach t ρ ≤ τ →
      SampledFrom x c τ (filterReach t ρ) (tones n A ω θ) η → |(exactIdeal t x (allHistory t) ρ τ c : ℝ) - tonesUpTo (Ω * ρ) n A ω θ τ| ≤ loudness n A * (W + 1 / (1040000 * ρ)) + g * η)
    (hW : W + 12 / 10000000 ≤ W') (hμ : (g : ℝ) + 12 / 10000000 ≤ μ') :
    ∃ ρ : ℕ → ℚ, (∀ j < (outputs ch os).length, 1 / 256 ≤ ρ j ∧ ρ j ≤ 256) ∧
      (∀ a b, (∀ op ∈ ops, RatioIn a b op) → ∀ j < (outputs ch os).length, a ≤ ρ j ∧ ρ j ≤ b) ∧
      ratiosFrom sincRatioAt ch 0 ops os = (List.range (outputs ch os).length).map ρ ∧
      ∀ j f c s n A ω θ η, (outputs ch os)[j]? = some f → f[c]? = some s → ρ j ≤ 1 → R / ρ j ≤ timeAt ρ j → ToneBands n A ω (Ω * ρ j) (1001 / 1000 * Real.pi * ρ j) →
        0 ≤ η → loudness n A + η ≤ 2 ^ 62 → SampledFrom x c (timeAt ρ j) (R / ρ j) (tones n A ω θ) η →
        ∃ y : ℚ, s.val = some y ∧ |(y : ℝ) - tonesUpTo (Ω * ρ j) n A ω θ (timeAt ρ j)| ≤ loudness n A * (W' + 1 / (1000000 * ρ j)) + μ' * η + 1 / 2 ^ 148 := by
  obtain ⟨t', ρ, D, hT', h1, h2, hR', h3, -⟩ := C24_sinc cfg hL type ht ch e st st1 h x len hx ops os V hS hr hF
  rw [hT] at hT'
  cases hT'
  refine ⟨ρ, fun j hj => ⟨(h1 j hj).1, (h1 j hj).2.1⟩, h2, hR', fun j f c s n A ω θ η hf hs hρ hτ hLim η0 hsum hu => ?_⟩
  obtain ⟨hj, hc, rfl⟩ := sample_of h3 hf hs
  obtain ⟨t', hT', hd⟩ := sinc_table hL ht h
  rw [hT] at hT'
  cases hT'
  have hD : 0 ≤ D j := by have := reach_nonneg hd; have := (h1 j hj).2.2.1; omega
  have hDj := (h1 j hj).2.2.2 (Or.inr hU)
  rw [hDj] at hD ⊢
  exact alias_sample hG hg hR hE hW hμ hD (h1 j hj).1 hρ hτ hLim η0 hsum hu

theorem fastest_alias (n : ℕ) (A ω θ : ℕ → ℝ) (η : ℝ) (ρ τ : ℚ) (x : ℕ → ℕ → F32) (c : ℕ) (hT : ToneBands n A ω (1999 / 1000 * ρ) (1001 / 1000 * Real.pi * ρ)) (hρ : 1 / 256 ≤ ρ) (hρ1 : ρ ≤ 1)
    (hτ : filterReach Fastest.table ρ ≤ τ) (hx : SampledFrom x c τ (filterReach Fastest.table ρ) (tones n A ω θ) η) :
    |(exactIdeal Fastest.table x (allHistory Fastest.table) ρ τ c : ℝ) - tonesUpTo (1999 / 1000 * ρ) n A ω θ τ| ≤ loudness n A * (2480 / 10000000 + 1 / (1040000 * ρ)) + ((53 / 10 : ℚ) : ℝ) * η := by
  obtain ⟨B, G, -⟩ := table_geom (t := Fastest.table) (Or.inl ⟨rfl, rfl⟩)
  exact exact_alias Fastest.checked G (by norm_num) (by norm_num) (by norm_num) (by norm_num) (by norm_num) (L := 2462) (by norm_num) Fastest.decays (by norm_num) (by norm_num)
    (Ω := 2) (by norm_num) (by norm_num) (fun a a0 a1 p hp ψ => Fastest.wave_near a0 a1 hp ψ) (X := 1616 / 10000000) (Y := 825 / 10000000) (Z := 39 / 10000000)
    (by norm_num) (by norm_num) (by norm_num) (by norm_num) (by norm_num) (by norm_num) hρ hρ1 (by rw [show (1999 / 2000 * 2 : ℝ) = 1999 / 1000 by norm_num]) hT hτ hx

theorem mid_alias (n : ℕ) (A ω θ : ℕ → ℝ) (η : ℝ) (ρ τ : ℚ) (x : ℕ → ℕ → F32) (c : ℕ) (hT : ToneBands n A ω (2598 / 1000 * ρ) (1001 / 1000 * Real.pi * ρ)) (hρ : 1 / 256 ≤ ρ) (hρ1 : ρ ≤ 1)
    (hτ : filterReach MidQual.table ρ ≤ τ) (hx : SampledFrom x c τ (filterReach MidQual.table ρ) (tones n A ω θ) η) :
    |(exactIdeal MidQual.table x (allHistory MidQual.table) ρ τ c : ℝ) - tonesUpTo (2598 / 1000 * ρ) n A ω θ τ| ≤ loudness n A * (5610 / 10000000 + 1 / (1040000 * ρ)) + ((702 / 100 : ℚ) : ℝ) * η := by
  obtain ⟨B, G, -⟩ := table_geom (t := MidQual.table) (Or.inr (Or.inl ⟨rfl, rfl⟩))
  have ρ0 : (0 : ℝ) ≤ ρ := by
    have : (0 : ℚ) ≤ ρ := by linarith
    exact_mod_cast this
  exact exact_alias MidQual.checked G (by norm_num) (by norm_num) (by norm_num) (by norm_num) (by norm_num) (L := 22436) (by norm_num) MidQual.decays (by norm_num) (by norm_num)
    (Ω := 13 / 5) (by norm_num) (by norm_num) (fun a a0 a1 p hp ψ => MidQual.wave_near a0 a1 hp ψ) (X := 4053 / 10000000) (Y := 1542 / 10000000) (Z := 13 / 10000000)
    (by norm_num) (by norm_num) (by norm_num) (by norm_num) (by norm_num) (by norm_num) hρ hρ1 (mul_le_mul_of_nonneg_right (by norm_num) ρ0) hT hτ hx

/-- C65, fast converter: at a ratio `ρ ≤ 1`, in a history whose ratios do not drop, a sum of tones none of which is between `1.999 ρ` and `1.001 π ρ` radians per
input frame (half the rate of the output is `π ρ`) comes out as the sum of the tones below that gap, sampled at the times of the output frames: the tones above half
the rate of the output are removed and do not fold back.  If the input samples less than `21 / ρ` frames from the output position differ from the tones by at most `η`,
the output sample is finite and differs from the lower tones at its position by at most `loudness (1 / 4000 + 1 / (1000000 ρ)) + 5.4 η` (and `2^-148`). -/
theorem C65_fastest (cfg : Config) (hL : LibraryTables cfg) (hP : ShippedTables cfg) (ch : ℕ) (e : ℤ) (st st1 : SrcState)
    (h : srcNew cfg SRC_SINC_FASTEST ch = .ok (e, some st)) (x : ℕ → ℕ → F32) (len : Option ℕ) (hx : EndsAt x len) (ops : List Op) (os : List Obs) (V : ℕ)
    (hS : ∀ op ∈ ops, SizedOp ch op) (hU : SincUse 0 ch (.rising 0) ops) (hr : run ops st = .ok (os, st1)) (hF : FedTo x ch len 0 ops os V) :
    ∃ ρ : ℕ → ℚ, (∀ j < (outputs ch os).length, 1 / 256 ≤ ρ j ∧ ρ j ≤ 256) ∧
      (∀ a b, (∀ op ∈ ops, RatioIn a b op) → ∀ j < (outputs ch os).length, a ≤ ρ j ∧ ρ j ≤ b) ∧
      ratiosFrom sincRatioAt ch 0 ops os = (List.range (outputs ch os).length).map ρ ∧
      ∀ j f c s n A ω θ η, (outputs ch os)[j]? = some f → f[c]? = some s → ρ j ≤ 1 → 21 / ρ j ≤ timeAt ρ j → ToneBands n A ω (1999 / 1000 * ρ j) (1001 / 1000 * Real.pi * ρ j) →
        0 ≤ η → loudness n A + η ≤ 2 ^ 62 → SampledFrom x c (timeAt ρ j) (21 / ρ j) (tones n A ω θ) η →
        ∃ y : ℚ, s.val = some y ∧ |(y : ℝ) - tonesUpTo (1999 / 1000 * ρ j) n A ω θ (timeAt ρ j)| ≤ loudness n A * (1 / 4000 + 1 / (1000000 * ρ j)) + 27 / 5 * η + 1 / 2 ^ 148 := by
  have ht : SincType SRC_SINC_FASTEST := Or.inr (Or.inr rfl)
  obtain ⟨t, hT, -⟩ := sinc_table hL ht h
  have := (shipped_good hP hT).1 rfl
  subst this
  exact alias_of cfg hL _ ht ch e st st1 h x len hx ops os V hS hU hr hF hT fastest_good (by norm_num) fastest_reach fastest_alias (by norm_num) (by norm_num)

/-- C65, medium converter: no tone between `2.598 ρ` and `1.001 π ρ`, `47 / ρ` frames, `loudness (1 / 1700 + 1 / (1000000 ρ)) + 7.1 η`. -/
theorem C65_medium (cfg : Config) (hL : LibraryTables cfg) (hP : ShippedTables cfg) (ch : ℕ) (e : ℤ) (st st1 : SrcState)
    (h : srcNew cfg SRC_SINC_MEDIUM_QUALITY ch = .ok (e, some st)) (x : ℕ → ℕ → F32) (len : Option ℕ) (hx : EndsAt x len) (ops : List Op) (os : List Obs) (V : ℕ)
    (hS : ∀ op ∈ ops, SizedOp ch op) (hU : SincUse 0 ch (.rising 0) ops) (hr : run ops st = .ok (os, st1)) (hF : FedTo x ch len 0 ops os V) :
    ∃ ρ : ℕ → ℚ, (∀ j < (outputs ch os).length, 1 / 256 ≤ ρ j ∧ ρ j ≤ 256) ∧
      (∀ a b, (∀ op ∈ ops, RatioIn a b op) → ∀ j < (outputs ch os).length, a ≤ ρ j ∧ ρ j ≤ b) ∧
      ratiosFrom sincRatioAt ch 0 ops os = (List.range (outputs ch os).length).map ρ ∧
      ∀ j f c s n A ω θ η, (outputs ch os)[j]? = some f → f[c]? = some s → ρ j ≤ 1 → 47 / ρ j ≤ timeAt ρ j → ToneBands n A ω (2598 / 1000 * ρ j) (1001 / 1000 * Real.pi * ρ j) →
        0 ≤ η → loudness n A + η ≤ 2 ^ 62 → SampledFrom x c (timeAt ρ j) (47 / ρ j) (tones n A ω θ) η →
        ∃ y : ℚ, s.val = some y ∧ |(y : ℝ) - tonesUpTo (2598 / 1000 * ρ j) n A ω θ (timeAt ρ j)| ≤ loudness n A * (1 / 1700 + 1 / (1000000 * ρ j)) + 71 / 10 * η + 1 / 2 ^ 148 := by
  have ht : SincType SRC_SINC_MEDIUM_QUALITY := Or.inr (Or.inl rfl)
  obtain ⟨t, hT, -⟩ := sinc_table hL ht h
  have := (shipped_good hP hT).2 rfl
  subst this
  exact alias_of cfg hL _ ht ch e st st1 h x len hx ops os V hS hU hr hF hT mid_good (by norm_num) mid_reach mid_alias (by norm_num) (by norm_num)

/-! ### constant input (C53) at ratios up to 1 -/

theorem const_bands (v : ℚ) {lo hi : ℝ} (h : 0 ≤ lo) : ToneBands 1 (fun _ => |(v : ℝ)|) (fun _ => 0) lo hi :=
  fun _ _ => ⟨abs_nonneg _, le_rfl, Real.pi_pos.le, Or.inl h⟩

theorem const_cos (v : ℚ) : |(v : ℝ)| * Real.cos (if 0 ≤ v then 0 else Real.pi) = v := by
  split
  · rename_i h
    have : (0 : ℝ) ≤ v := by exact_mod_cast h
    rw [Real.cos_zero, mul_one, abs_of_nonneg this]
  · rename_i h
    have : (v : ℝ) ≤ 0 := by exact_mod_cast (not_le.1 h).le
    rw [Real.cos_pi, abs_of_nonpos this]
    ring

theorem const_upTo (v : ℚ) {lo : ℝ} (h : 0 ≤ lo) (t : ℝ) : tonesUpTo lo 1 (fun _ => |(v : ℝ)|) (fun _ => 0) (fun _ => if 0 ≤ v then 0 else Real.pi) t = v := by
  simp only [tonesUpTo, Finset.sum_range_one, if_pos h, zero_mul, zero_add]
  exact const_cos v

theorem const_loud {v : ℚ} (h : |v| ≤ 2 ^ 62) : loudness 1 (fun _ => |(v : ℝ)|) + 0 ≤ 2 ^ 62 := by
  simp only [loudness, Finset.sum_range_one, add_zero]
  exact_mod_cast h

theorem const_sampled {x : ℕ → ℕ → F32} {c : ℕ} {τ R : ℚ} {w : F32} {v : ℚ} (hw : w.val = some v) (hA : Around x c τ R (· = w)) :
    SampledFrom x c τ R (tones 1 (fun _ => |(v : ℝ)|) (fun _ => 0) (fun _ => if 0 ≤ v then 0 else Real.pi)) 0 := by
  intro k hk
  refine ⟨v, by rw [hA k hk]; exact hw, ?_⟩
  simp only [tones, Finset.sum_range_one, zero_mul, zero_add]
  rw [const_cos]
  simp

/-- C53 at ratios `ρ ≤ 1`, fast converter: in a history whose ratios do not drop, an output frame at a time of at least `21 / ρ`, of a channel whose input samples less
than `21 / ρ` frames away all have the value `v`, has the value `v`, up to `|v| (1 / 4000 + 1 / (1000000 ρ))` (and `2^-148`). -/
theorem C53_down_fastest (cfg : Config) (hL : LibraryTables cfg) (hP : ShippedTables cfg) (ch : ℕ) (e : ℤ) (st st1 : SrcState)
    (h : srcNew cfg SRC_SINC_FASTEST ch = .ok (e, some st)) (x : ℕ → ℕ → F32) (len : Option ℕ) (hx : EndsAt x len) (ops : List Op) (os : List Obs) (V : ℕ)
    (hS : ∀ op ∈ ops, SizedOp ch op) (hU : SincUse 0 ch (.rising 0) ops) (hr : run ops st = .ok (os, st1)) (hF : FedTo x ch len 0 ops os V) :
    ∃ ρ : ℕ → ℚ, (∀ j < (outputs ch os).length, 1 / 256 ≤ ρ j ∧ ρ j ≤ 256) ∧
      (∀ a b, (∀ op ∈ ops, RatioIn a b op) → ∀ j < (outputs ch os).length, a ≤ ρ j ∧ ρ j ≤ b) ∧
      ratiosFrom sincRatioAt ch 0 ops os = (List.range (outputs ch os).length).map ρ ∧
      ∀ j f c s w v, (outputs ch os)[j]? = some f → f[c]? = some s → ρ j ≤ 1 → 21 / ρ j ≤ timeAt ρ j → w.val = some v → |v| ≤ 2 ^ 62 →
        Around x c (timeAt ρ j) (21 / ρ j) (· = w) → ∃ y, s.val = some y ∧ |y - v| ≤ |v| * (1 / 4000 + 1 / (1000000 * ρ j)) + 1 / 2 ^ 148 := by
  obtain ⟨ρ, r1, r2, r3, r4⟩ := C65_fastest cfg hL hP ch e st st1 h x len hx ops os V hS hU hr hF
  refine ⟨ρ, r1, r2, r3, fun j f c s w v hf hs hρ hτ hw hv hA => ?_⟩
  have ρ0 : (0 : ℝ) ≤ ρ j := by
    have hj : j < (outputs ch os).length := (List.getElem?_eq_some_iff.1 hf).1
    have : (0 : ℚ) ≤ ρ j := by linarith [(r1 j hj).1]
    exact_mod_cast this
  obtain ⟨y, y1, y2⟩ := r4 j f c s 1 _ _ _ 0 hf hs hρ hτ (const_bands v (by positivity)) le_rfl (const_loud hv) (const_sampled hw hA)
  refine ⟨y, y1, ?_⟩
  rw [const_upTo v (by positivity)] at y2
  simp only [loudness, Finset.sum_range_one, mul_zero, add_zero] at y2
  rw [← Rat.cast_le (K := ℝ)]
  push_cast
  exact y2

/-- C53 at ratios `ρ ≤ 1`, medium converter. -/
theorem C53_down_medium (cfg : Config) (hL : LibraryTables cfg) (hP : ShippedTables cfg) (ch : ℕ) (e : ℤ) (st st1 : SrcState)
    (h : srcNew cfg SRC_SINC_MEDIUM_QUALITY ch = .ok (e, some st)) (x : ℕ → ℕ → F32) (len : Option ℕ) (hx : EndsAt x len) (ops : List Op) (os : List Obs) (V : ℕ)
    (hS : ∀ op ∈ ops, SizedOp ch op) (hU : SincUse 0 ch (.rising 0) ops) (hr : run ops st = .ok (os, st1)) (hF : FedTo x ch len 0 ops os V) :
    ∃ ρ : ℕ → ℚ, (∀ j < (outputs ch os).length, 1 / 256 ≤ ρ j ∧ ρ j ≤ 256) ∧
      (∀ a b, (∀ op ∈ ops, RatioIn a b op) → ∀ j < (outputs ch os).length, a ≤ ρ j ∧ ρ j ≤ b) ∧
      ratiosFrom sincRatioAt ch 0 ops os = (List.range (outputs ch os).length).map ρ ∧
      ∀ j f c s w v, (outputs ch os)[j]? = some f → f[c]? = some s → ρ j ≤ 1 → 47 / ρ j ≤ timeAt ρ j → w.val = some v → |v| ≤ 2 ^ 62 →
        Around x c (timeAt ρ j) (47 / ρ j) (· = w) → ∃ y, s.val = some y ∧ |y - v| ≤ |v| * (1 / 1700 + 1 / (1000000 * ρ j)) + 1 / 2 ^ 148 := by
  obtain ⟨ρ, r1, r2, r3, r4⟩ := C65_medium cfg hL hP ch e st st1 h x len hx ops os V hS hU hr hF
  refine ⟨ρ, r1, r2, r3, fun j f c s w v hf hs hρ hτ hw hv hA => ?_⟩
  have ρ0 : (0 : ℝ) ≤ ρ j := by
    have hj : j < (outputs ch os).length := (List.getElem?_eq_some_iff.1 hf).1
    have : (0 : ℚ) ≤ ρ j := by linarith [(r1 j hj).1]
    exact_mod_cast this
  obtain ⟨y, y1, y2⟩ := r4 j f c s 1 _ _ _ 0 hf hs hρ hτ (const_bands v (by positivity)) le_rfl (const_loud hv) (const_sampled hw hA)
  refine ⟨y, y1, ?_⟩
  rw [const_upTo v (by positivity)] at y2
  simp only [loudness, Finset.sum_range_one, mul_zero, add_zero] at y2
  rw [← Rat.cast_le (K := ℝ)]
  push_cast
  exact y2

/-- The ratio 1/4. -/
def fourth : F64 := Fl.round f64 (1 / 4)

theorem fourth_val : fourth.val = some (1 / 4) := by
  have : Rep f64 (1 / 4) := ⟨⟨1, -2, by norm_num [f64], by norm_num [f64], by norm_num [p2]⟩, by
    refine lt_of_lt_of_le (b := 1) (by norm_num) ?_
    simp only [f64, p2]
    exact one_le_zpow₀ (by norm_num) (by norm_num)⟩
  exact Fl.val_round_of_rep this

theorem posAt_fourth (j : ℕ) : posAt ⟨0, 0⟩ (fun _ => 1 / 4) j = ⟨4 * j, 0⟩ := by
  induction j with
  | zero => rfl
  | succ j ih =>
    simp only [posAt, ih, Pos.advance]
    have e1 : rq f64 ((1 : ℚ) / (1 / 4)) = 4 := by
      rw [show (1 : ℚ) / (1 / 4) = ((4 : ℤ) : ℚ) by norm_num]
      exact (rq_of_rep (rep0_int (by norm_num [f64]))).trans (by norm_num)
    have e2 : rq f64 (4 : ℚ) = 4 := by
      rw [show (4 : ℚ) = ((4 : ℤ) : ℚ) by norm_num]
      exact rq_of_rep (rep0_int (by norm_num [f64]))
    rw [e1, zero_add, e2]
    norm_num
    rw [show Int.toNat 4 = 4 from rfl]
    ring

/-- 200 frames of input, room for 1000 frames of output, ratio 1/4, end of input. -/
def fourthCall : SrcData :=
  { dataIn := 1, dataOut := 1000, inputFrames := 200, outputFrames := 1000, inputFramesUsed := 0, outputFramesGen := 0, endOfInput := 1, srcRatio := fourth }

theorem fourthCall_sized : SincSized (2 : ℕ) fourthCall := by
  obtain ⟨h, he⟩ := Fl.eq_fin_of_val fourth_val
  exact ⟨by simp [fourthCall, he], by norm_num [fourthCall, samples], by norm_num [fourthCall, samples]⟩

theorem fourthCall_use (m : Mem) : SincUse 0 (2 : ℕ) (.rising 0) [.process m (some fourthCall)] := by
  refine .riseCall _ _ _ _ fourthCall_sized ?_ (.nil _)
  intro v hv _ _
  have h1 : fourthCall.srcRatio.val = some (1 / 4) := fourth_val
  rw [h1] at hv
  cases hv
  norm_num

theorem fourthCall_safe : SafeUse (2 : ℕ) .live [.process (fun _ => zero32) (some fourthCall)] := by
  refine .call _ _ _ _ fourthCall_sized ?_ (.nil _)
  intro v hv _ _
  have h1 : fourthCall.srcRatio.val = some (1 / 4) := fourth_val
  rw [h1] at hv
  cases hv
  norm_num

/-- One call of `fourthCall` on a new handle of the fast converter succeeds and puts out at least 40 frames. -/
theorem fourth_one_call : ∃ st o st1 d', srcNew libCfg SRC_SINC_FASTEST (2 : ℕ) = .ok (0, some st) ∧
    (Op.process (fun _ => zero32) (some fourthCall)).run st = .ok (o, st1) ∧ o.ret = 0 ∧ o.data = some d' ∧
    d'.inputFramesUsed = 200 ∧ 40 ≤ d'.outputFramesGen := by
  have hL := libCfg_tables
  have ht : SincType SRC_SINC_FASTEST := Or.inr (Or.inr rfl)
  obtain ⟨st, hst⟩ := sinc_new_ok (t := Fastest.table) hL ht
    (by simp [Config.table, libCfg, SRC_SINC_FASTEST, SRC_SINC_MEDIUM_QUALITY, SRC_SINC_BEST_QUALITY]) (ch := 2) (by norm_num) (by norm_num)
  obtain ⟨t, B, _, H⟩ := sinc_new_hist hL ht hst (p := .live) (Or.inr (Or.inl rfl))
  obtain ⟨os, st1, u1, h1, hw, _⟩ := sinc_history_total fourthCall_safe H
  obtain ⟨_, _, _, _, _, _, T, _⟩ := sinc_new_track hL ht hst (fun _ _ => zero32) none
  obtain ⟨f, D, W, -⟩ := T.view
  cases hw with
  | cons hw hnil =>
  cases hnil
  rename_i o
  simp only [run] at h1
  obtain ⟨⟨o1, s1⟩, r1, h1⟩ := bind_ok h1
  obtain ⟨⟨o2, s2⟩, r2, h1⟩ := bind_ok h1
  have r2 := ok_inj r2
  have h1 := ok_inj h1
  simp only [Prod.mk.injEq, List.cons.injEq] at h1 r2
  obtain ⟨⟨rfl, _⟩, rfl⟩ := h1
  have hret : o1.ret = 0 := by
    rcases hw with ⟨ha, _⟩ | ⟨h, _⟩
    · exfalso
      simp only [Op.run] at r1
      obtain ⟨⟨e, m', st', d'⟩, hp, r1⟩ := bind_ok r1
      have r1 := ok_inj r1
      simp only [Prod.mk.injEq] at r1
      rw [← r1.1] at ha
      have hf := (C02 _ _ _ _ _ _ _ hp (by
        have ha : e = 18 ∨ e = 3 ∨ e = 4 ∨ e = 6 ∨ e = 16 := ha
        omega)).1
      obtain ⟨h, he⟩ := Fl.eq_fin_of_val fourth_val
      cases hf with
      | state hh => simp at hh
      | mode s a b => cases a; exact b T.mode
      | data s a b c => cases c
      | buffer s y a b c d => cases c; simp [MissingBuffer, fourthCall] at d
      | ratio s y a b c d e => cases c; simp only [fourthCall, he, BadRatio] at e; norm_num at e
      | overlap s y a b c d e f => cases a; cases c; rw [W.hch] at f; simp [Clash, fourthCall, samples] at f
    · exact h
  obtain ⟨d', hd'⟩ : ∃ d', o1.data = some d' := by
    rcases hw with ⟨ha, _⟩ | ⟨_, x, x', m', _, h, _⟩
    · rw [hret] at ha; simp [ArgError] at ha
    · exact ⟨x', h⟩
  have hx : EndsAt (fun _ _ => zero32) (some 200) := fun _ _ _ _ _ => rfl
  have hP : Presents (fun _ _ => zero32) 2 0 (fun _ => zero32) fourthCall := fun k c _ _ => rfl
  have hroom : d'.outputFramesGen < 1000 := by
    obtain ⟨t, B, u, g, hT, Ge, hch1, hB, vr, e1, e2, e3, e4, e5⟩ := sinc_last hL ht hst (r := 1 / 4) (len := some 200) hx (by norm_num)
      (ops := []) (os := []) (by simp) rfl (.nil _) fourthCall_sized fourth_val hP (fun _ => rfl) r1 hret hd'
    rw [e2]
    by_contra hc
    have hc : 1000 ≤ g := by omega
    have := (e4 999 (by simp [outputs]; omega)).1
    rw [posAt_fourth] at this
    simp only [fourthCall] at e3
    dsimp only at this
    omega
  have := C48 _ hL _ ht 2 _ st st s1 hst _ 200 hx (1 / 4) (by norm_num) [] [] 0 (by simp) rfl (.nil _) _ _ d' _ fourthCall_sized fourth_val hP
    (by simp [fourthCall]) rfl (by simp [fourthCall]) r1 hret hd' hroom _ rfl
  obtain ⟨a, b⟩ := this
  refine ⟨st, o1, s1, d', hst, r1, hret, hd', by simpa using a, ?_⟩
  rw [abs_le] at b
  simp only [outputs, List.flatMap_nil, List.length_nil, Nat.cast_zero, zero_add] at b
  have hb : (40 : ℚ) < (d'.outputFramesGen : ℚ) := by
    have h1 := b.1
    push_cast at h1
    have h2 : (d'.outputFramesGen : ℚ) ≤ 1000 := by exact_mod_cast hroom.le
    have h3 : (d'.outputFramesGen : ℚ) / 2 ^ 44 ≤ 1000 / 2 ^ 44 := by gcongr
    norm_num at h1 h3
    linarith
  have : (40 : ℤ) < d'.outputFramesGen := by exact_mod_cast hb
  omega

/-- Two hundred frames of a constant 1 and a tone of a quarter of the sampling rate: 2, 1, 0, 1, ... -/
def raised (k _c : ℕ) : F32 := if k < 200 then (if k % 4 = 0 then Fl.ofInt f32 2 else if k % 4 = 2 then zero32 else Fl.ofInt f32 1) else zero32

/-- These frames in memory, two channels, from address 1 on. -/
def raisedMem (a : ℤ) : F32 := raised ((a - 1) / 2).toNat 0

/-- The angles of these tones. -/
noncomputable def raisedω (t : ℕ) : ℝ := if t = 0 then 0 else Real.pi / 2

theorem raised_val {k : ℕ} (hk : k < 200) (c : ℕ) : ∃ q : ℚ, (raised k c).val = some q ∧ (q : ℝ) = tones 2 (fun _ => 1) raisedω (fun _ => 0) k := by
  have one : (Fl.ofInt f32 1).val = some 1 := by simpa using Fl.val_ofInt (f := f32) (n := 1) (by norm_num [f32])
  have two : (Fl.ofInt f32 2).val = some 2 := by simpa using Fl.val_ofInt (f := f32) (n := 2) (by norm_num [f32])
  have e : (k : ℝ) = 4 * ((k / 4 : ℕ) : ℝ) + ((k % 4 : ℕ) : ℝ) := by exact_mod_cast (Nat.div_add_mod k 4).symm
  have c4 : tones 2 (fun _ => 1) raisedω (fun _ => 0) k = 1 + Real.cos (Real.pi / 2 * ((k % 4 : ℕ) : ℝ)) := by
    simp only [tones, raisedω, Finset.sum_range_succ, Finset.sum_range_zero]
    rw [e, show (if (1 : ℕ) = 0 then 0 else Real.pi / 2) * (4 * ((k / 4 : ℕ) : ℝ) + ((k % 4 : ℕ) : ℝ)) + 0 = Real.pi / 2 * ((k % 4 : ℕ) : ℝ) + ((k / 4 : ℕ) : ℝ) * (2 * Real.pi) by
      rw [if_neg (by norm_num)]; ring, Real.cos_add_nat_mul_two_pi]
    simp
  rw [c4]
  unfold raised
  rw [if_pos hk]
  have h4 : k % 4 = 0 ∨ k % 4 = 1 ∨ k % 4 = 2 ∨ k % 4 = 3 := by omega
  rcases h4 with h | h | h | h <;> rw [h]
  · exact ⟨2, by simpa using two, by norm_num⟩
  · exact ⟨1, by simpa using one, by simp⟩
  · exact ⟨0, by simpa using zero32_val, by
      rw [show Real.pi / 2 * ((2 : ℕ) : ℝ) = Real.pi by push_cast; ring, Real.cos_pi]; norm_num⟩
  · exact ⟨1, by simpa using one, by
      rw [show Real.pi / 2 * ((3 : ℕ) : ℝ) = Real.pi / 2 + Real.pi by push_cast; ring, Real.cos_add_pi, Real.cos_pi_div_two]; norm_num⟩

/-- The hypotheses of C65 are met by a call with these frames at ratio 1/4, where the tone is at twice half the rate of the output, and by C65 output frame 21 of this
call, at input frame 84, is the constant, 1, up to 1/1900: dropping three frames in four would give 2. -/
example : ∃ (st st1 : SrcState) (os : List Obs) (f : List F32) (s : F32) (y : ℚ), srcNew libCfg SRC_SINC_FASTEST (2 : ℕ) = .ok (0, some st) ∧
    run [.process raisedMem (some fourthCall)] st = .ok (os, st1) ∧ FedTo raised 2 (some 200) 0 [.process raisedMem (some fourthCall)] os 200 ∧
    (outputs 2 os)[21]? = some f ∧ f[1]? = some s ∧ s.val = some y ∧ |(y : ℝ) - 1| ≤ 1 / 1900 := by
  obtain ⟨st, o, st1, d', h1, h2, h3, h4, h5, h7⟩ := fourth_one_call
  have hr : run [.process (fun _ => zero32) (some fourthCall)] st = .ok ([o], st1) := by
    simp only [run, h2]; rfl
  obtain ⟨os', st1', hr', hs⟩ := C17 libCfg st (.new _ _ _ _ h1) _ [.process raisedMem (some fourthCall)] (.cons (.process _ _ _) .nil) _ _ hr
  cases hs with
  | cons hs hnil =>
  rename_i o' l
  cases hnil
  have hret : o'.ret = 0 := by rw [hs.ret]; exact h3
  have hdat : o'.data = some d' := by rw [hs.data]; exact h4
  have hF : FedTo raised 2 (some 200) 0 [.process raisedMem (some fourthCall)] [o'] 200 := by
    have := FedTo.call 0 200 raisedMem fourthCall d' o' [] [] (x := raised) (ch := 2) (len := some 200) (fun k c hk hc => by
      have e : ((fourthCall.dataIn + (2 * (k : ℤ) + c) - 1) / 2).toNat = k := by
        simp only [fourthCall]
        omega
      simp [raisedMem, raised, e]) (fun _ => rfl) hret hdat (by rw [h5]; exact .nil _)
    exact this
  have hS : ∀ op ∈ [Op.process raisedMem (some fourthCall)], SizedOp (2 : ℕ) op := by
    intro op hop
    rw [List.mem_singleton.1 hop]
    exact fourthCall_sized
  have hx : EndsAt raised (some 200) := by
    intro n hn k hk c
    cases hn
    simp [raised, hk]
  obtain ⟨ρ, -, r2, -, r3⟩ := C65_fastest libCfg libCfg_tables libCfg_shipped 2 _ st _ h1 raised _ hx _ _ _ hS (fourthCall_use _) hr' hF
  have hlen : 40 ≤ (outputs 2 [o']).length := by
    simp only [run] at hr'
    obtain ⟨⟨o1, s1⟩, r1, hr'⟩ := bind_ok hr'
    obtain ⟨⟨o2, s2⟩, -, hr'⟩ := bind_ok hr'
    have hr' := ok_inj hr'
    simp only [Prod.mk.injEq, List.cons.injEq] at hr'
    obtain ⟨⟨rfl, _⟩, rfl⟩ := hr'
    simp only [Op.run] at r1
    obtain ⟨⟨e, m', st', d1⟩, -, r1⟩ := bind_ok r1
    have r1 := ok_inj r1
    simp only [Prod.mk.injEq] at r1
    obtain ⟨rfl, -⟩ := r1
    have hdat : d1 = some d' := hdat
    subst hdat
    simp [outputs, outOf]
    omega
  have hr1 : ∀ j < (outputs 2 [o']).length, ρ j = 1 / 4 := fun j hj => by
    obtain ⟨a, b⟩ := r2 (1 / 4) (1 / 4) (by
      intro op hop
      rw [List.mem_singleton.1 hop]
      intro r hr
      have h1 : fourthCall.srcRatio.val = some (1 / 4) := fourth_val
      rw [h1] at hr
      cases hr
      norm_num) j hj
    exact le_antisymm b a
  have hτ : timeAt ρ 21 = 84 := by
    have : ∀ j ≤ 21, posAt ⟨0, 0⟩ ρ j = ⟨4 * j, 0⟩ := by
      intro j
      induction j with
      | zero => intro _; rfl
      | succ j ih =>
        intro hj
        rw [← posAt_fourth (j + 1)]
        simp only [posAt]
        rw [ih (by omega), posAt_fourth, hr1 j (by omega)]
    simp [timeAt, this 21 le_rfl]
  have hρ := hr1 21 (by omega)
  obtain ⟨f, ho⟩ : ∃ f, (outputs 2 [o'])[21]? = some f := ⟨_, List.getElem?_eq_getElem (by omega)⟩
  have hf1 : f.length = 2 := by
    have hm := List.mem_of_getElem? ho
    simp only [outputs, List.mem_flatMap, List.mem_singleton] at hm
    obtain ⟨_, rfl, hm⟩ := hm
    unfold outOf at hm
    split at hm
    · obtain ⟨_, _, rfl⟩ := List.mem_map.1 hm
      simp [frameOf]
    · cases hm
  obtain ⟨s, hs1⟩ : ∃ s, f[1]? = some s := ⟨_, List.getElem?_eq_getElem (by rw [hf1]; norm_num)⟩
  have hpi := Real.pi_pos
  have hpi3 := Real.pi_gt_three
  obtain ⟨y, hy, hy1⟩ := r3 21 _ 1 s 2 (fun _ => 1) raisedω (fun _ => 0) 0 ho hs1 (by rw [hρ]; norm_num) (by rw [hτ, hρ]; norm_num)
    (by
      intro k _
      rw [hρ]
      unfold raisedω
      split
      · exact ⟨by norm_num, le_rfl, hpi.le, Or.inl (by norm_num)⟩
      · refine ⟨by norm_num, by positivity, by linarith, Or.inr ?_⟩
        push_cast
        linarith) le_rfl (by simp [loudness]; norm_num) (by
      intro k hk
      rw [hτ, hρ, abs_lt] at hk
      have : (k : ℚ) < 200 := by linarith [hk.2]
      have : k < 200 := by exact_mod_cast this
      obtain ⟨q, q1, q2⟩ := raised_val this 1
      exact ⟨q, q1, by simp [q2]⟩)
  refine ⟨st, st1', _, _, s, y, h1, hr', hF, ho, hs1, hy, ?_⟩
  have e : tonesUpTo (1999 / 1000 * ((ρ 21 : ℚ) : ℝ)) 2 (fun _ => 1) raisedω (fun _ => 0) ((timeAt ρ 21 : ℚ) : ℝ) = 1 := by
    rw [hρ]
    simp only [tonesUpTo, raisedω, Finset.sum_range_succ, Finset.sum_range_zero]
    have n1 : ¬ Real.pi / 2 ≤ 1999 / 1000 * (((1 / 4 : ℚ) : ℚ) : ℝ) := by
      push_cast
      linarith
    simp only [one_ne_zero, if_false, if_true, n1]
    norm_num
  rw [e, hρ] at hy1
  refine hy1.trans ?_
  simp only [loudness, Finset.sum_range_succ, Finset.sum_range_zero]
  norm_num

end Verif
