import Verif.Props.Filter
import Verif.Proof.SineFilter
import Verif.Proof.SineGrid
import Verif.Spec.Sine

/-! The sinc converters on sums of sinusoids (C64). -/

namespace Verif
open Spec

theorem tones_le {n : ℕ} {A ω : ℕ → ℝ} {Ω : ℝ} (h : ToneLimits n A ω Ω) (θ : ℕ → ℝ) (t : ℝ) : |tones n A ω θ t| ≤ loudness n A := by
  unfold tones loudness
  refine (Finset.abs_sum_le_sum_abs _ _).trans (Finset.sum_le_sum (fun k hk => ?_))
  have hA := (h k (Finset.mem_range.1 hk)).1
  rw [abs_mul, abs_of_nonneg hA]
  exact mul_le_of_le_one_right hA (Real.abs_cos_le_one _)

theorem loudness_nonneg {n : ℕ} {A ω : ℕ → ℝ} {Ω : ℝ} (h : ToneLimits n A ω Ω) : 0 ≤ loudness n A :=
  Finset.sum_nonneg (fun k hk => (h k (Finset.mem_range.1 hk)).1)

/-- The exact filter of a checked table. -/
theorem exact_tones {rows : List (List ℤ)} {inc cnt : ℕ} {lo hi top : ℤ} {S V d M z : ℕ} (C : Coeffs.Checked rows inc cnt lo hi top S V d M z) {B : ℤ}
    (G : Geom ((cnt : ℤ) - 2) inc B) (hN : (cnt : ℤ) - 2 ≤ 143 * inc) (hM : M ≤ 95 * 10 ^ 25) (hz : z ≤ 13 * 10 ^ 19) (h128 : 128 ≤ inc) {b : ℚ}
    (hb : (top : ℚ) ≤ b * 10 ^ 27) {n : ℕ} {A ω θ : ℕ → ℝ} {g : ℝ → ℝ} {Ω γ η : ℝ} (hL : ToneLimits n A ω Ω) (hg : ∀ a, 0 ≤ a → a ≤ Ω → 0 ≤ g a ∧ g a ≤ 1)
    (hw : ∀ a, 0 ≤ a → a ≤ Ω → ∀ p ≤ inc, ∀ ψ, |Sine.wave (fun i => (rows.flatten.getD i 0 : ℝ) / 10 ^ 27) inc rows.length (a / inc) ψ p - g a * Real.cos ψ| ≤ γ)
    {ρ τ : ℚ} (hρ : 1 ≤ ρ) {D : ℤ} (hD : sincReach ((cnt : ℤ) - 2) inc 1 ≤ D) {x : ℕ → ℕ → F32} {c : ℕ} (hτ : filterReach (Coeffs.ofRows inc cnt rows) 1 ≤ τ)
    (hx : SampledFrom x c τ (filterReach (Coeffs.ofRows inc cnt rows) 1) (tones n A ω θ) η) :
    |(exactIdeal (Coeffs.ofRows inc cnt rows) x D ρ τ c : ℝ) - tones n (fun k => A k * g (ω k)) ω θ τ| ≤
      loudness n A * (γ + rows.length / 15000000 + (Ω / inc) ^ 2 / 8 + Ω / inc / 8000 + 1 / 3000000) + ((b : ℝ) + rows.length / 15000000) * η := by
  have hv : ∀ i, valOf ((Coeffs.ofRows inc cnt rows).coeffs i) = Coeffs.tabQ rows.flatten i := fun i => valOf_eq (C.val hM i)
  have he : exactIdeal (Coeffs.ofRows inc cnt rows) x D ρ τ c =
      exactAt (Coeffs.tabQ rows.flatten) ((cnt : ℤ) - 2) inc ρ (Int.fract τ) D (fun z => valOf (signal x (⌊τ⌋ + z) c)) := by
    unfold exactIdeal
    rw [funext hv]
    rfl
  have h128' : (128 : ℤ) ≤ inc := by exact_mod_cast h128
  rw [he]
  have key := C.sine_up G hM hz hb (n := n) (A := A) (g := fun t => g (ω t)) (ω := ω) (θ := fun t => ω t * (⌊τ⌋ : ℤ) + θ t) (Ω := Ω) (γ := γ) (η := η) (fun t ht => (hL t ht).1) (fun t ht => hg _ (hL t ht).2.1 (hL t ht).2.2) (fun t ht => (hL t ht).2)
    (fun t ht => hw _ (hL t ht).2.1 (hL t ht).2.2) hρ (Int.fract_nonneg τ) (Int.fract_lt_one τ) hD (ξ := fun z => valOf (signal x (⌊τ⌋ + z) c)) (fun k hk => by
      have a := signal_near (t := Coeffs.ofRows inc cnt rows) G hN h128' (by linarith) hk
      rw [show filterReach (Coeffs.ofRows inc cnt rows) ρ = filterReach (Coeffs.ofRows inc cnt rows) 1 by
        unfold filterReach; rw [min_eq_left hρ, min_self]] at a
      have h0 : 0 ≤ ⌊τ⌋ + k := by
        have a := a
        rw [_root_.abs_lt] at a
        have : (0 : ℚ) < ((⌊τ⌋ + k : ℤ) : ℚ) := by linarith
        exact_mod_cast this.le
      have e1 : (((⌊τ⌋ + k).toNat : ℕ) : ℤ) = ⌊τ⌋ + k := Int.toNat_of_nonneg h0
      have e2 : (((⌊τ⌋ + k).toNat : ℕ) : ℚ) = ((⌊τ⌋ + k : ℤ) : ℚ) := by exact_mod_cast e1
      have e3 : (((⌊τ⌋ + k).toNat : ℕ) : ℝ) = (⌊τ⌋ : ℤ) + (k : ℤ) := by exact_mod_cast e1
      obtain ⟨q, h1, h2⟩ := hx (⌊τ⌋ + k).toNat (by rwa [e2])
      rw [e3] at h2
      unfold signal
      rw [if_neg (by omega), valOf_eq h1]
      have e4 : tones n A ω θ ((⌊τ⌋ : ℤ) + (k : ℤ)) = ∑ t ∈ Finset.range n, A t * Real.cos (ω t * k + (ω t * (⌊τ⌋ : ℤ) + θ t)) :=
        Finset.sum_congr rfl (fun t _ => by congr 2; ring)
      rw [← e4]
      exact h2)
  have e5 : tones n (fun k => A k * g (ω k)) ω θ τ = ∑ t ∈ Finset.range n, A t * g (ω t) * Real.cos (ω t * ((Int.fract τ : ℚ) : ℝ) + (ω t * (⌊τ⌋ : ℤ) + θ t)) := by
    refine Finset.sum_congr rfl (fun t _ => ?_)
    have : (τ : ℝ) = (⌊τ⌋ : ℤ) + ((Int.fract τ : ℚ) : ℝ) := by
      have := Int.floor_add_fract τ
      exact_mod_cast this.symm
    congr 2
    rw [this]
    ring
  rw [e5]
  exact key

theorem tones_sample {g g1 : ℚ} {R : ℚ} {t : CoeffTable} (hG : Good t g g1) (hg : g1 ≤ 3) (hR : filterReach t 1 ≤ R) {Ω κ μ κ' μ' : ℝ} {T : ℕ → (ℕ → ℝ) → (ℕ → ℝ) → (ℕ → ℝ) → ℚ → ℝ}
    (hE : ∀ n A ω θ η ρ τ D x c, ToneLimits n A ω Ω → 1 ≤ ρ → sincReach (t.count - 2) t.increment 1 ≤ D → filterReach t 1 ≤ τ →
      SampledFrom x c τ (filterReach t 1) (tones n A ω θ) η → |(exactIdeal t x D ρ τ c : ℝ) - T n A ω θ τ| ≤ loudness n A * κ + μ * η)
    (hκ : κ + 1 / 1000000 ≤ κ') (hμ : μ + 1 / 1000000 ≤ μ') {x : ℕ → ℕ → F32} {D : ℤ} {ρ τ : ℚ} {c n : ℕ} {A ω θ : ℕ → ℝ} {η : ℝ} (hD : 0 ≤ D)
    (hD1 : sincReach (t.count - 2) t.increment 1 ≤ D) (hρ : 1 ≤ ρ) (hτ : R ≤ τ) (hLim : ToneLimits n A ω Ω) (η0 : 0 ≤ η) (hsum : loudness n A + η ≤ 2 ^ 62)
    (hu : SampledFrom x c τ R (tones n A ω θ) η) :
    ∃ y : ℚ, (sincIdeal t x D ρ τ c).val = some y ∧ |(y : ℝ) - T n A ω θ τ| ≤ loudness n A * κ' + μ' * η + 1 / 2 ^ 148 := by
  have hv : 1 / 256 ≤ ρ := le_trans (by norm_num) hρ
  have l0 := loudness_nonneg hLim
  have w0 : (0 : ℝ) < 1 / 2 ^ 149 := by positivity
  obtain ⟨u, u1, u2⟩ := exists_rat_btwn (show loudness n A + η < loudness n A + η + 1 / 2 ^ 149 by linarith)
  have hu' : SampledFrom x c τ (filterReach t 1) (tones n A ω θ) η := fun k hk => hu k (lt_of_lt_of_le hk hR)
  have hu2 : Around x c τ (filterReach t ρ) (Within u) := by
    rw [show filterReach t ρ = filterReach t 1 by unfold filterReach; rw [min_eq_left hρ, min_self]]
    intro k hk
    obtain ⟨q, q1, q2⟩ := hu' k hk
    refine ⟨q, q1, ?_⟩
    have q3 := tones_le hLim θ k
    have : |(q : ℝ)| ≤ u := by
      rw [abs_le] at *
      constructor <;> linarith
    exact_mod_cast this
  have u0 : 0 ≤ u := by
    have : (0 : ℝ) ≤ u := by linarith
    exact_mod_cast this
  have u3 : u ≤ 2 ^ 63 := by
    have : (u : ℝ) ≤ 2 ^ 63 := by
      have : (1 : ℝ) / 2 ^ 149 ≤ 1 := by norm_num
      have : (2 : ℝ) ^ 63 = 2 * 2 ^ 62 := by norm_num
      have : (1 : ℝ) ≤ 2 ^ 62 := by norm_num
      linarith
    exact_mod_cast this
  obtain ⟨y, a1, a2, -, a3⟩ := hG.near x c u u0 u3 _ hD _ hv _ hu2
  have a3 := a3 hρ
  have a4 := hE n A ω θ η ρ τ D x c hLim hρ hD1 (hR.trans hτ) hu'
  refine ⟨y, a1, ?_⟩
  have a5 : |y - exactIdeal t x D ρ τ c| ≤ u / 1000000 + p2 (-149) := by
    have b1 : 601 * (p2 (-30) + p2 (-33)) + 3 / 16777216 ≤ 1 / 1000000 := by norm_num [p2]
    have b2 := mul_le_mul_of_nonneg_right b1 u0
    have b3 := mul_le_mul_of_nonneg_right hg u0
    generalize p2 (-149) = q at *
    generalize p2 (-30) + p2 (-33) = r at *
    linarith
  have a6 : |(y : ℝ) - (exactIdeal t x D ρ τ c : ℝ)| ≤ u / 1000000 + 1 / 2 ^ 149 := by
    have e : p2 (-149) = 1 / 2 ^ 149 := by norm_num [p2]
    rw [e] at a5
    have a5' : ((|y - exactIdeal t x D ρ τ c| : ℚ) : ℝ) ≤ ((u / 1000000 + 1 / 2 ^ 149 : ℚ) : ℝ) := by exact_mod_cast a5
    push_cast at a5'
    exact a5'
  have a7 := abs_sub_le (y : ℝ) (exactIdeal t x D ρ τ c : ℝ) (T n A ω θ τ)
  have a8 := mul_le_mul_of_nonneg_left hκ l0
  have a9 := mul_le_mul_of_nonneg_right hμ η0
  have a10 : (1 : ℝ) / 2 ^ 149 + 1 / 2 ^ 149 ≤ 1 / 2 ^ 148 := by norm_num
  have a11 : (1 : ℝ) / 2 ^ 149 / 1000000 + 1 / 2 ^ 149 ≤ 1 / 2 ^ 148 := by norm_num
  generalize (1 : ℝ) / 2 ^ 149 = w at *
  generalize (1 : ℝ) / 2 ^ 148 = w' at *
  linarith

theorem tones_of (cfg : Config) (hL : LibraryTables cfg) (type : ℤ) (ht : SincType type) (ch : ℕ) (e : ℤ) (st st1 : SrcState)
    (h : srcNew cfg type ch = .ok (e, some st)) (x : ℕ → ℕ → F32) (len : Option ℕ) (hx : EndsAt x len) (ops : List Op) (os : List Obs) (V : ℕ)
    (hS : ∀ op ∈ ops, SizedOp ch op) (hr : run ops st = .ok (os, st1)) (hF : FedTo x ch len 0 ops os V)
    {g g1 : ℚ} {R : ℚ} {t : CoeffTable} (hT : cfg.table type = some t) (hG : Good t g g1) (hg : g1 ≤ 3) (hR : filterReach t 1 ≤ R) {Ω κ μ κ' μ' : ℝ} {T : ℕ → (ℕ → ℝ) → (ℕ → ℝ) → (ℕ → ℝ) → ℚ → ℝ}
    (hE : ∀ n A ω θ η ρ τ D x c, ToneLimits n A ω Ω → 1 ≤ ρ → sincReach (t.count - 2) t.increment 1 ≤ D → filterReach t 1 ≤ τ →
      SampledFrom x c τ (filterReach t 1) (tones n A ω θ) η → |(exactIdeal t x D ρ τ c : ℝ) - T n A ω θ τ| ≤ loudness n A * κ + μ * η)
    (hκ : κ + 1 / 1000000 ≤ κ') (hμ : μ + 1 / 1000000 ≤ μ') :
    ∃ ρ : ℕ → ℚ, (∀ j < (outputs ch os).length, 1 / 256 ≤ ρ j ∧ ρ j ≤ 256) ∧
      (∀ a b, (∀ op ∈ ops, RatioIn a b op) → ∀ j < (outputs ch os).length, a ≤ ρ j ∧ ρ j ≤ b) ∧
      ratiosFrom sincRatioAt ch 0 ops os = (List.range (outputs ch os).length).map ρ ∧
      ∀ j f c s n A ω θ η, (outputs ch os)[j]? = some f → f[c]? = some s → 1 ≤ ρ j → R ≤ timeAt ρ j → ToneLimits n A ω Ω → 0 ≤ η → loudness n A + η ≤ 2 ^ 62 →
        SampledFrom x c (timeAt ρ j) R (tones n A ω θ) η →
        ∃ y : ℚ, s.val = some y ∧ |(y : ℝ) - T n A ω θ (timeAt ρ j)| ≤ loudness n A * κ' + μ' * η + 1 / 2 ^ 148 := by
  obtain ⟨t', ρ, D, hT', h1, h2, hR', h3, -⟩ := C24_sinc cfg hL type ht ch e st st1 h x len hx ops os V hS hr hF
  rw [hT] at hT'
  cases hT'
  refine ⟨ρ, fun j hj => ⟨(h1 j hj).1, (h1 j hj).2.1⟩, h2, hR', fun j f c s n A ω θ η hf hs hρ hτ hLim η0 hsum hu => ?_⟩
  obtain ⟨hj, hc, rfl⟩ := sample_of h3 hf hs
  obtain ⟨t', hT', hd⟩ := sinc_table hL ht h
  rw [hT] at hT'
  cases hT'
  have hD : 0 ≤ D j := by have := reach_nonneg hd; have := (h1 j hj).2.2.1; omega
  exact tones_sample hG hg hR hE hκ hμ hD (h1 j hj).2.2.1 hρ hτ hLim η0 hsum hu

theorem fastest_tones (n : ℕ) (A ω θ : ℕ → ℝ) (η : ℝ) (ρ τ : ℚ) (D : ℤ) (x : ℕ → ℕ → F32) (c : ℕ) (hL : ToneLimits n A ω 2) (hρ : 1 ≤ ρ)
    (hD : sincReach (Fastest.table.count - 2) Fastest.table.increment 1 ≤ D) (hτ : filterReach Fastest.table 1 ≤ τ)
    (hx : SampledFrom x c τ (filterReach Fastest.table 1) (tones n A ω θ) η) :
    |(exactIdeal Fastest.table x D ρ τ c : ℝ) - tones n A ω θ τ| ≤ loudness n A * (92 / 1000000) + 1888 / 1000 * η := by
  obtain ⟨B, G, -⟩ := table_geom (t := Fastest.table) (Or.inl ⟨rfl, rfl⟩)
  have η0 : 0 ≤ η := by
    have hR : (0 : ℚ) < filterReach Fastest.table 1 := by
      unfold filterReach
      rw [show Fastest.table.count = 2464 from rfl, show Fastest.table.increment = 128 from rfl]
      norm_num
    have hτ0 : (0 : ℚ) ≤ τ := hR.le.trans hτ
    obtain ⟨q, -, h⟩ := hx ⌊τ⌋₊ (by
      have a := Nat.floor_le hτ0
      have b := Nat.lt_floor_add_one τ
      have : (1 : ℚ) ≤ filterReach Fastest.table 1 := by
        unfold filterReach
        rw [show Fastest.table.count = 2464 from rfl, show Fastest.table.increment = 128 from rfl]
        norm_num
      rw [_root_.abs_lt]
      constructor <;> linarith)
    exact (abs_nonneg _).trans h
  have key := exact_tones Fastest.checked G (by norm_num) (by norm_num) (by norm_num) (by norm_num) (b := 18871 / 10000) (by norm_num) (γ := 57 / 1000000) hL (g := fun _ => 1) (fun _ _ _ => ⟨by norm_num, le_rfl⟩)
    (fun a a0 a1 p hp ψ => by rw [one_mul]; exact Fastest.wave_near a0 a1 hp ψ) hρ hD hτ hx
  simp only [mul_one] at key
  refine key.trans ?_
  rw [Fastest.rows_length]
  have l0 := loudness_nonneg hL
  have h1 : (57 / 1000000 + (20 : ℕ) / 15000000 + (2 / (128 : ℕ)) ^ 2 / 8 + 2 / (128 : ℕ) / 8000 + 1 / 3000000 : ℝ) ≤ 92 / 1000000 := by norm_num
  have h2 : (((18871 / 10000 : ℚ) : ℝ) + (20 : ℕ) / 15000000 : ℝ) ≤ 1888 / 1000 := by norm_num
  exact add_le_add (mul_le_mul_of_nonneg_left h1 l0) (mul_le_mul_of_nonneg_right h2 η0)

theorem mid_tones (n : ℕ) (A ω θ : ℕ → ℝ) (η : ℝ) (ρ τ : ℚ) (D : ℤ) (x : ℕ → ℕ → F32) (c : ℕ) (hL : ToneLimits n A ω (13 / 5)) (hρ : 1 ≤ ρ)
    (hD : sincReach (MidQual.table.count - 2) MidQual.table.increment 1 ≤ D) (hτ : filterReach MidQual.table 1 ≤ τ)
    (hx : SampledFrom x c τ (filterReach MidQual.table 1) (tones n A ω θ) η) :
    |(exactIdeal MidQual.table x D ρ τ c : ℝ) - tones n A ω θ τ| ≤ loudness n A * (32 / 1000000) + 2364 / 1000 * η := by
  obtain ⟨B, G, -⟩ := table_geom (t := MidQual.table) (Or.inr (Or.inl ⟨rfl, rfl⟩))
  have η0 : 0 ≤ η := by
    have hR : (1 : ℚ) ≤ filterReach MidQual.table 1 := by
      unfold filterReach
      rw [show MidQual.table.count = 22438 from rfl, show MidQual.table.increment = 491 from rfl]
      norm_num
    have hτ0 : (0 : ℚ) ≤ τ := by linarith
    obtain ⟨q, -, h⟩ := hx ⌊τ⌋₊ (by
      have a := Nat.floor_le hτ0
      have b := Nat.lt_floor_add_one τ
      rw [_root_.abs_lt]
      constructor <;> linarith)
    exact (abs_nonneg _).trans h
  have key := exact_tones MidQual.checked G (by norm_num) (by norm_num) (by norm_num) (by norm_num) (b := 2363 / 1000) (by norm_num) (γ := 241 / 10000000) hL (g := fun _ => 1) (fun _ _ _ => ⟨by norm_num, le_rfl⟩)
    (fun a a0 a1 p hp ψ => by rw [one_mul]; exact MidQual.wave_near a0 a1 hp ψ) hρ hD hτ hx
  simp only [mul_one] at key
  refine key.trans ?_
  rw [MidQual.rows_length]
  have l0 := loudness_nonneg hL
  have h1 : (241 / 10000000 + (46 : ℕ) / 15000000 + (13 / 5 / (491 : ℕ)) ^ 2 / 8 + 13 / 5 / (491 : ℕ) / 8000 + 1 / 3000000 : ℝ) ≤ 32 / 1000000 := by norm_num
  have h2 : (((2363 / 1000 : ℚ) : ℝ) + (46 : ℕ) / 15000000 : ℝ) ≤ 2364 / 1000 := by norm_num
  exact add_le_add (mul_le_mul_of_nonneg_left h1 l0) (mul_le_mul_of_nonneg_right h2 η0)

/-- C64, fast converter: where the ratio is at least 1, a sum of tones of at most 2 radians per input frame (0.63 of half the sampling rate) comes out as the same
sum of tones, sampled at the times of the output frames, up to one ten-thousandth of the sum of the amplitudes: if the input samples less than 21 frames from the
output position differ from the tones by at most `η`, the output sample is finite and differs from the tones at its position by at most
`loudness / 10000 + 2 η` (and `2^-148`). -/
theorem C64_fastest (cfg : Config) (hL : LibraryTables cfg) (hP : ShippedTables cfg) (ch : ℕ) (e : ℤ) (st st1 : SrcState)
    (h : srcNew cfg SRC_SINC_FASTEST ch = .ok (e, some st)) (x : ℕ → ℕ → F32) (len : Option ℕ) (hx : EndsAt x len) (ops : List Op) (os : List Obs) (V : ℕ)
    (hS : ∀ op ∈ ops, SizedOp ch op) (hr : run ops st = .ok (os, st1)) (hF : FedTo x ch len 0 ops os V) :
    ∃ ρ : ℕ → ℚ, (∀ j < (outputs ch os).length, 1 / 256 ≤ ρ j ∧ ρ j ≤ 256) ∧
      (∀ a b, (∀ op ∈ ops, RatioIn a b op) → ∀ j < (outputs ch os).length, a ≤ ρ j ∧ ρ j ≤ b) ∧
      ratiosFrom sincRatioAt ch 0 ops os = (List.range (outputs ch os).length).map ρ ∧
      ∀ j f c s n A ω θ η, (outputs ch os)[j]? = some f → f[c]? = some s → 1 ≤ ρ j → 21 ≤ timeAt ρ j → ToneLimits n A ω 2 → 0 ≤ η → loudness n A + η ≤ 2 ^ 62 →
        SampledFrom x c (timeAt ρ j) 21 (tones n A ω θ) η →
        ∃ y : ℚ, s.val = some y ∧ |(y : ℝ) - tones n A ω θ (timeAt ρ j)| ≤ loudness n A * (1 / 10000) + 2 * η + 1 / 2 ^ 148 := by
  have ht : SincType SRC_SINC_FASTEST := Or.inr (Or.inr rfl)
  obtain ⟨t, hT, -⟩ := sinc_table hL ht h
  have := (shipped_good hP hT).1 rfl
  subst this
  exact tones_of cfg hL _ ht ch e st st1 h x len hx ops os V hS hr hF hT fastest_good (by norm_num) fastest_reach fastest_tones (by norm_num) (by norm_num)

/-- C64, medium converter: tones of at most 2.6 radians per input frame (0.82 of half the sampling rate), 47 frames, `loudness / 30000 + 2.4 η`. -/
theorem C64_medium (cfg : Config) (hL : LibraryTables cfg) (hP : ShippedTables cfg) (ch : ℕ) (e : ℤ) (st st1 : SrcState)
    (h : srcNew cfg SRC_SINC_MEDIUM_QUALITY ch = .ok (e, some st)) (x : ℕ → ℕ → F32) (len : Option ℕ) (hx : EndsAt x len) (ops : List Op) (os : List Obs) (V : ℕ)
    (hS : ∀ op ∈ ops, SizedOp ch op) (hr : run ops st = .ok (os, st1)) (hF : FedTo x ch len 0 ops os V) :
    ∃ ρ : ℕ → ℚ, (∀ j < (outputs ch os).length, 1 / 256 ≤ ρ j ∧ ρ j ≤ 256) ∧
      (∀ a b, (∀ op ∈ ops, RatioIn a b op) → ∀ j < (outputs ch os).length, a ≤ ρ j ∧ ρ j ≤ b) ∧
      ratiosFrom sincRatioAt ch 0 ops os = (List.range (outputs ch os).length).map ρ ∧
      ∀ j f c s n A ω θ η, (outputs ch os)[j]? = some f → f[c]? = some s → 1 ≤ ρ j → 47 ≤ timeAt ρ j → ToneLimits n A ω (13 / 5) → 0 ≤ η → loudness n A + η ≤ 2 ^ 62 →
        SampledFrom x c (timeAt ρ j) 47 (tones n A ω θ) η →
        ∃ y : ℚ, s.val = some y ∧ |(y : ℝ) - tones n A ω θ (timeAt ρ j)| ≤ loudness n A * (1 / 30000) + 12 / 5 * η + 1 / 2 ^ 148 := by
  have ht : SincType SRC_SINC_MEDIUM_QUALITY := Or.inr (Or.inl rfl)
  obtain ⟨t, hT, -⟩ := sinc_table hL ht h
  have := (shipped_good hP hT).2 rfl
  subst this
  exact tones_of cfg hL _ ht ch e st st1 h x len hx ops os V hS hr hF hT mid_good (by norm_num) mid_reach mid_tones (by norm_num) (by norm_num)

/-- Hundred frames of a tone of a quarter of the sampling rate: 1, 0, -1, 0, ... -/
def quarter (k _c : ℕ) : F32 := if k < 100 then (if k % 4 = 0 then Fl.ofInt f32 1 else if k % 4 = 2 then Fl.ofInt f32 (-1) else zero32) else zero32

/-- These frames in memory, two channels, from address 1 on. -/
def quarterMem (a : ℤ) : F32 := quarter ((a - 1) / 2).toNat 0

theorem quarter_val {k : ℕ} (hk : k < 100) (c : ℕ) : ∃ q : ℚ, (quarter k c).val = some q ∧ (q : ℝ) = Real.cos (Real.pi / 2 * k + 0) := by
  have one : (Fl.ofInt f32 1).val = some 1 := by simpa using Fl.val_ofInt (f := f32) (n := 1) (by norm_num [f32])
  have neg : (Fl.ofInt f32 (-1)).val = some (-1) := by simpa using Fl.val_ofInt (f := f32) (n := -1) (by norm_num [f32])
  have e : (k : ℝ) = 4 * ((k / 4 : ℕ) : ℝ) + ((k % 4 : ℕ) : ℝ) := by exact_mod_cast (Nat.div_add_mod k 4).symm
  have c4 : Real.cos (Real.pi / 2 * k + 0) = Real.cos (Real.pi / 2 * ((k % 4 : ℕ) : ℝ)) := by
    rw [e, show Real.pi / 2 * (4 * ((k / 4 : ℕ) : ℝ) + ((k % 4 : ℕ) : ℝ)) + 0 = Real.pi / 2 * ((k % 4 : ℕ) : ℝ) + ((k / 4 : ℕ) : ℝ) * (2 * Real.pi) by ring,
      Real.cos_add_nat_mul_two_pi]
  rw [c4]
  unfold quarter
  rw [if_pos hk]
  have h4 : k % 4 = 0 ∨ k % 4 = 1 ∨ k % 4 = 2 ∨ k % 4 = 3 := by omega
  rcases h4 with h | h | h | h <;> rw [h]
  · exact ⟨1, by simpa using one, by simp⟩
  · exact ⟨0, by simpa using zero32_val, by simp⟩
  · exact ⟨-1, by simpa using neg, by
      rw [show Real.pi / 2 * ((2 : ℕ) : ℝ) = Real.pi by push_cast; ring, Real.cos_pi]; norm_num⟩
  · exact ⟨0, by simpa using zero32_val, by
      rw [show Real.pi / 2 * ((3 : ℕ) : ℝ) = Real.pi / 2 + Real.pi by push_cast; ring, Real.cos_add_pi, Real.cos_pi_div_two]; norm_num⟩

/-- The hypotheses of C64 are met by a call with hundred frames of this tone, and by C64 output frame 50 of this call is `cos (25 π) = -1`, up to 1/9000. -/
example : ∃ (st st1 : SrcState) (os : List Obs) (f : List F32) (s : F32) (y : ℚ), srcNew libCfg SRC_SINC_FASTEST (2 : ℕ) = .ok (0, some st) ∧
    run [.process quarterMem (some sincCall)] st = .ok (os, st1) ∧ FedTo quarter 2 (some 100) 0 [.process quarterMem (some sincCall)] os 100 ∧
    (outputs 2 os)[50]? = some f ∧ f[1]? = some s ∧ s.val = some y ∧ |(y : ℝ) + 1| ≤ 1 / 9000 := by
  obtain ⟨st, o, st1, d', h1, h2, h3, h4, h5, -, h7⟩ := sinc_one_call_of libCfg_tables (t := Fastest.table)
    (by simp [Config.table, libCfg, SRC_SINC_FASTEST, SRC_SINC_MEDIUM_QUALITY, SRC_SINC_BEST_QUALITY])
  have hr : run [.process (fun _ => zero32) (some sincCall)] st = .ok ([o], st1) := by
    simp only [run, h2]; rfl
  obtain ⟨os', st1', hr', hs⟩ := C17 libCfg st (.new _ _ _ _ h1) _ [.process quarterMem (some sincCall)] (.cons (.process _ _ _) .nil) _ _ hr
  cases hs with
  | cons hs hnil =>
  rename_i o' l
  cases hnil
  have hret : o'.ret = 0 := by rw [hs.ret]; exact h3
  have hdat : o'.data = some d' := by rw [hs.data]; exact h4
  have hF : FedTo quarter 2 (some 100) 0 [.process quarterMem (some sincCall)] [o'] 100 := by
    have := FedTo.call 0 100 quarterMem sincCall d' o' [] [] (x := quarter) (ch := 2) (len := some 100) (fun k c hk hc => by
      have e : ((sincCall.dataIn + (2 * (k : ℤ) + c) - 1) / 2).toNat = k := by
        simp only [sincCall]
        omega
      simp [quarterMem, quarter, e]) (fun _ => rfl) hret hdat (by rw [h5]; exact .nil _)
    exact this
  have hS : ∀ op ∈ [Op.process quarterMem (some sincCall)], SizedOp (2 : ℕ) op := by
    intro op hop
    rw [List.mem_singleton.1 hop]
    exact sincCall_sized
  have hx : EndsAt quarter (some 100) := by
    intro n hn k hk c
    cases hn
    simp [quarter, hk]
  obtain ⟨ρ, -, r2, -, r3⟩ := C64_fastest libCfg libCfg_tables libCfg_shipped 2 _ st _ h1 quarter _ hx _ _ _ hS hr' hF
  have hlen : 98 ≤ (outputs 2 [o']).length := by
    simp only [run] at hr'
    obtain ⟨⟨o1, s1⟩, r1, hr'⟩ := bind_ok hr'
    obtain ⟨⟨o2, s2⟩, -, hr'⟩ := bind_ok hr'
    have hr' := ok_inj hr'
    simp only [Prod.mk.injEq, List.cons.injEq] at hr'
    obtain ⟨⟨rfl, _⟩, rfl⟩ := hr'
    simp only [Op.run] at r1
    obtain ⟨⟨e, m', st', d1⟩, -, r1⟩ := bind_ok r1
    have r1 := ok_inj r1
    simp only [Prod.mk.injEq] at r1
    obtain ⟨rfl, -⟩ := r1
    have hdat : d1 = some d' := hdat
    subst hdat
    simp [outputs, outOf]
    omega
  have hr1 : ∀ j < (outputs 2 [o']).length, ρ j = 1 := fun j hj => by
    obtain ⟨a, b⟩ := r2 1 1 (by
      intro op hop
      rw [List.mem_singleton.1 hop]
      intro r hr
      have h1 : sincCall.srcRatio.val = some 1 := one64_val
      rw [h1] at hr
      cases hr
      norm_num) j hj
    exact le_antisymm b a
  have hτ : timeAt ρ 50 = 50 := by
    have : ∀ j ≤ 50, posAt ⟨0, 0⟩ ρ j = ⟨j, 0⟩ := by
      intro j
      induction j with
      | zero => intro _; rfl
      | succ j ih =>
        intro hj
        rw [← posAt_one (j + 1)]
        simp only [posAt]
        rw [ih (by omega), posAt_one, hr1 j (by omega)]
    simp [timeAt, this 50 le_rfl]
  obtain ⟨f, ho⟩ : ∃ f, (outputs 2 [o'])[50]? = some f := ⟨_, List.getElem?_eq_getElem (by omega)⟩
  have hf1 : f.length = 2 := by
    have hm := List.mem_of_getElem? ho
    simp only [outputs, List.mem_flatMap, List.mem_singleton] at hm
    obtain ⟨_, rfl, hm⟩ := hm
    unfold outOf at hm
    split at hm
    · obtain ⟨_, _, rfl⟩ := List.mem_map.1 hm
      simp [frameOf]
    · cases hm
  obtain ⟨s, hs1⟩ : ∃ s, f[1]? = some s := ⟨_, List.getElem?_eq_getElem (by rw [hf1]; norm_num)⟩
  have hpi := Real.pi_le_four
  obtain ⟨y, hy, hy1⟩ := r3 50 _ 1 s 1 (fun _ => 1) (fun _ => Real.pi / 2) (fun _ => 0) 0 ho hs1 (hr1 50 (by omega)).ge (by rw [hτ]; norm_num)
    (fun k _ => ⟨by norm_num, by positivity, by linarith⟩) le_rfl (by simp [loudness]; norm_num) (by
      intro k hk
      rw [hτ, abs_lt] at hk
      have : (k : ℚ) < 100 := by linarith [hk.2]
      have : k < 100 := by exact_mod_cast this
      obtain ⟨q, q1, q2⟩ := quarter_val this 1
      exact ⟨q, q1, by simp [tones, q2]⟩)
  refine ⟨st, st1', _, _, s, y, h1, hr', hF, ho, hs1, hy, ?_⟩
  have e : tones 1 (fun _ => 1) (fun _ => Real.pi / 2) (fun _ => 0) ((timeAt ρ 50 : ℚ) : ℝ) = -1 := by
    rw [hτ]
    simp only [tones, Finset.sum_range_one, one_mul, add_zero]
    rw [show Real.pi / 2 * ((50 : ℚ) : ℝ) = Real.pi + ((12 : ℕ) : ℝ) * (2 * Real.pi) by push_cast; ring, Real.cos_add_nat_mul_two_pi, Real.cos_pi]
  rw [e, sub_neg_eq_add] at hy1
  refine hy1.trans ?_
  simp only [loudness, Finset.sum_range_one]
  norm_num

end Verif
