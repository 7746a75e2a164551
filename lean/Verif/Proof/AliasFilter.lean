import Mathlib.Analysis.Real.Pi.Bounds
import Verif.Proof.AliasTap

/-! The exact filter of a checked table at ratios up to 1, on samples of cosines of any frequency. -/

namespace Verif
open Spec

/-- Position and step in the table. -/
theorem Geom.place {N inc B : ℤ} (G : Geom N inc B) {ρ i : ℚ} (hρ : 1 / 256 ≤ ρ) (hρ1 : ρ ≤ 1) (i0 : 0 ≤ i) (i1 : i < 1) :
    |sincInc inc ρ - inc * ρ| ≤ 1 / 10 ^ 9 ∧ |(rne (sincInc inc ρ * 4096) : ℚ) - 4096 * sincInc inc ρ| ≤ 1 / 2 ∧
      |(rne (r64 (i * sincInc inc ρ) * 4096) : ℚ) - rne (sincInc inc ρ * 4096) * i| ≤ 1001 / 1000 := by
  have h1 : (1 : ℚ) ≤ inc := by exact_mod_cast G.inc1
  have h2 : (inc : ℚ) ≤ 4096 := by exact_mod_cast G.incM
  obtain ⟨f1, f2⟩ := G.sincInc_bounds hρ
  have e1 : |sincInc inc ρ - inc * ρ| ≤ 1 / 10 ^ 9 := by
    unfold sincInc
    rw [min_eq_left hρ1]
    have p0 : 0 ≤ (inc : ℚ) * ρ := by nlinarith
    have := abs_rq_sub_le_of_lt (f := f64) (q := (inc : ℚ) * ρ) (k := 13) (by rw [abs_of_nonneg p0]; norm_num [p2]; nlinarith) (by decide)
    exact this.trans (by norm_num [f64, p2])
  have e2 := abs_rne_sub_le (sincInc inc ρ * 4096)
  have f0 : 0 ≤ i * sincInc inc ρ := mul_nonneg i0 (by linarith)
  have e3 : |r64 (i * sincInc inc ρ) - i * sincInc inc ρ| ≤ 1 / 10 ^ 9 := by
    have := abs_rq_sub_le_of_lt (f := f64) (q := i * sincInc inc ρ) (k := 13) (by rw [abs_of_nonneg f0]; norm_num [p2]; nlinarith) (by decide)
    exact this.trans (by norm_num [f64, p2])
  have e4 := abs_rne_sub_le (r64 (i * sincInc inc ρ) * 4096)
  refine ⟨e1, by rw [mul_comm 4096]; exact e2, ?_⟩
  generalize sincInc inc ρ = σ at *
  generalize r64 (i * σ) = r at *
  generalize (rne (r * 4096) : ℚ) = b at *
  generalize (rne (σ * 4096) : ℚ) = a at *
  rw [_root_.abs_le] at *
  constructor
  · nlinarith [mul_le_mul_of_nonneg_left e2.2 i0]
  · nlinarith [mul_le_mul_of_nonneg_left e2.1 i0]

end Verif

namespace Verif.Alias

theorem abs_cast {x y : ℚ} (h : |x| ≤ y) : |(x : ℝ)| ≤ (y : ℝ) := by
  rw [← Rat.cast_abs]
  exact Rat.cast_le.2 h

theorem pass_room {ω Ω ρ N s lim : ℝ} (n0 : 0 < N) (Ω0 : 0 ≤ Ω) (half : 1 / 2 ≤ N * ρ) (step : |s - N * ρ| ≤ 1 / 8191) (h1 : ω ≤ lim) (h2 : lim ≤ 1999 / 2000 * Ω * ρ) : ω * N ≤ Ω * s := by
  rw [_root_.abs_le] at step
  have k1 : ω * N ≤ 1999 / 2000 * Ω * ρ * N := mul_le_mul_of_nonneg_right (h1.trans h2) n0.le
  have k2 : Ω * (N * ρ - 1 / 8191) ≤ Ω * s := mul_le_mul_of_nonneg_left (by linarith) Ω0
  have k3 := mul_le_mul_of_nonneg_left half Ω0
  have k4 : 1999 / 2000 * Ω * ρ * N = 1999 / 2000 * (Ω * (N * ρ)) := by ring
  linarith

theorem stop_room {ω p ρ N s : ℝ} (n0 : 0 < N) (p0 : 0 ≤ p) (half : 1 / 2 ≤ N * ρ) (step : |s - N * ρ| ≤ 1 / 8191) (h : 1001 / 1000 * p * ρ ≤ ω) : p * s ≤ ω * N := by
  rw [_root_.abs_le] at step
  have k1 : 1001 / 1000 * p * ρ * N ≤ ω * N := mul_le_mul_of_nonneg_right h n0.le
  have k2 : p * s ≤ p * (N * ρ + 1 / 8191) := mul_le_mul_of_nonneg_left (by linarith) p0
  have k3 := mul_le_mul_of_nonneg_left half p0
  have k4 : 1001 / 1000 * p * ρ * N = 1001 / 1000 * (p * (N * ρ)) := by ring
  linarith

theorem step_room {a ρ N : ℝ} (a0 : 0 < a) (ρ0 : 0 < ρ) (N1 : 128 ≤ N) (half : 1 / 2 ≤ N * ρ) (step : |a / 4096 - N * ρ| ≤ 1 / 8191) : 1001 / 2000 / a ≤ 1 / (1040000 * ρ) := by
  rw [div_le_div_iff₀ a0 (by positivity)]
  rw [_root_.abs_le] at step
  have k1 : 128 * ρ ≤ N * ρ := mul_le_mul_of_nonneg_right N1 ρ0.le
  linarith

/-- From the sum over the taps to the output. -/
theorem tone_out {σ a N T g c c' X Y Z W : ℝ} (a0 : 0 < a) (hσ : |a - 4096 * σ| ≤ 1 / 2) (hT : |a / 4096 / N * T - g * c| ≤ X) (c1 : |c| ≤ 1) (hXY : X + Y ≤ 1 / 1000)
    (h1 : |g| ≤ 1 + Y) (h2 : |g * c - c'| ≤ Y + Z) (hW : X + Y + Z ≤ W) : |σ / N * T - c'| ≤ W + 1001 / 2000 / a := by
  set F := a / 4096 / N * T with hF
  have e : σ / N * T = F + (4096 * σ - a) / a * F := by rw [hF]; field_simp; ring
  have d : |(4096 * σ - a) / a| ≤ 1 / 2 / a := by
    rw [abs_div, abs_of_pos a0, abs_sub_comm]
    gcongr
  have gc : |g * c| ≤ (1 + Y) * 1 := by
    rw [abs_mul]
    exact mul_le_mul h1 c1 (abs_nonneg _) ((abs_nonneg _).trans h1)
  have f1 : |F| ≤ 1001 / 1000 := by
    have := abs_sub_abs_le_abs_sub F (g * c)
    linarith
  have d2 : |(4096 * σ - a) / a * F| ≤ 1001 / 2000 / a := by
    rw [abs_mul]
    refine (mul_le_mul d f1 (abs_nonneg _) (by positivity)).trans (le_of_eq ?_)
    field_simp
    norm_num
  rw [e, show F + (4096 * σ - a) / a * F - c' = (F - g * c) + (g * c - c') + (4096 * σ - a) / a * F by ring]
  have t1 := abs_add_le ((F - g * c) + (g * c - c')) ((4096 * σ - a) / a * F)
  have t2 := abs_add_le (F - g * c) (g * c - c')
  linarith

/-- A tone at a position `φ` close to `i`. -/
theorem near_cos {ω Ω N s φ i θ : ℝ} (n0 : 0 < N) (s0 : 0 < s) (w0 : 0 ≤ ω) (ws : ω * N ≤ Ω * s) (hφ : |φ - i| ≤ 1001 / 1000 / (4096 * s)) :
    |Real.cos (ω * φ + θ) - Real.cos (ω * i + θ)| ≤ Ω * (1001 / 1000) / (4096 * N) := by
  refine (Real.abs_cos_sub_cos_le _ _).trans ?_
  rw [show ω * φ + θ - (ω * i + θ) = ω * (φ - i) by ring, abs_mul, abs_of_nonneg w0]
  refine (mul_le_mul_of_nonneg_left hφ w0).trans ?_
  rw [mul_div_assoc', div_le_div_iff₀ (by positivity) (by positivity)]
  nlinarith

end Verif.Alias

namespace Verif.Coeffs
open Verif Spec Alias

section
variable {rows : List (List ℤ)} {inc cnt : ℕ} {lo hi top : ℤ} {S V d M z : ℕ} (C : Checked rows inc cnt lo hi top S V d M z)
include C
variable {B : ℤ} (G : Geom ((cnt : ℤ) - 2) inc B)
include G

omit G in
theorem Checked.tail_zero {L : ℕ} (hL : L + 2 = cnt) : ∀ m, L < m → (rows.flatten.getD m 0 : ℝ) / 10 ^ 27 = 0 := by
  intro m hm
  have : rows.flatten.getD m 0 = 0 := by
    rcases eq_or_ne m (cnt - 1) with rfl | hm'
    · exact C.zero
    · exact List.getD_eq_default _ _ (by have := C.length; omega)
  rw [this]
  simp

omit G in
theorem Checked.below {L : ℕ} (hL : L + 2 = cnt) (_h : 0 < inc) : L < rows.length * inc := by
  have := C.cnt_le
  omega

set_option maxHeartbeats 1000000 in
/-- The filter at ratios up to 1 on a sum of cosines: `T ω θ` is what it makes of one cosine, by the transform of the table. -/
theorem Checked.response (hM : M ≤ 95 * 10 ^ 25) (hz : z ≤ 13 * 10 ^ 19) (h128 : 128 ≤ inc) {g : ℚ}
    (hg : 2 * (4097 / 4096 * ((S / 10 ^ 27 + cnt * (1 / 30000000)) / inc) + (V / 10 ^ 27 + cnt * (1 / 15000000))) ≤ g)
    {γ κ : ℝ} {L : ℕ} (hL : L + 2 = cnt) (H : Decays (fun i => (rows.flatten.getD i 0 : ℝ) / 10 ^ 27) L inc γ κ) (g0 : 0 ≤ γ) (k0 : 0 ≤ κ)
    {X Y Z W : ℝ} (hX : 2 * (γ * (5 / 4) / (98 / 10) + 2 * κ / ((2 * inc - 1) ^ 2 * (98 / 10))) + (2 * (L + 1) / inc + 1) * (1 / 5000000) ≤ X)
    (hXY : X + Y ≤ 1 / 1000) (hW : X + Y + Z ≤ W) {ρ i : ℚ} (hρ : 1 / 256 ≤ ρ) (hρ1 : ρ ≤ 1) (i0 : 0 ≤ i) (i1 : i < 1) {P : ℝ → Prop} {T : ℝ → ℝ → ℝ}
    (hone : ∀ s φ ω θ : ℝ, P ω → 0 ≤ ω → ω ≤ Real.pi → 0 < s → |s - inc * ρ| ≤ 1 / 8191 → |φ - i| ≤ 1001 / 1000 / (4096 * s) →
      |gainAt (fun i => (rows.flatten.getD i 0 : ℝ) / 10 ^ 27) L inc s ω| ≤ 1 + Y ∧
      |gainAt (fun i => (rows.flatten.getD i 0 : ℝ) / 10 ^ 27) L inc s ω * Real.cos (ω * φ + θ) - T ω θ| ≤ Y + Z)
    {D : ℤ} (hD : 4096 * (cnt : ℤ) ≤ D) {n : ℕ} {A ω θ : ℕ → ℝ} {η : ℝ} (hT : ∀ t < n, 0 ≤ A t ∧ 0 ≤ ω t ∧ ω t ≤ Real.pi ∧ P (ω t))
    {ξ : ℤ → ℚ} (hx : ∀ k, UnderFilter ((cnt : ℤ) - 2) inc ρ i D k → |(ξ k : ℝ) - ∑ t ∈ Finset.range n, A t * Real.cos (ω t * k + θ t)| ≤ η) :
    |(exactAt (tabQ rows.flatten) ((cnt : ℤ) - 2) inc ρ i D ξ : ℝ) - ∑ t ∈ Finset.range n, A t * T (ω t) (θ t)| ≤
      (∑ t ∈ Finset.range n, A t) * (W + 1 / (1040000 * ρ)) + g * η := by
  have hcnt : 2 ≤ cnt := by omega
  have hD0 : 0 ≤ D := by omega
  have Wd := G.window hρ i0 i1 hD0
  have gain := fun ξ hx => C.gain_all G hM hg h128 hρ i0 i1 hD0 (ξ := ξ) (u := 1) hx
  obtain ⟨p1, p2, p3⟩ := G.place hρ hρ1 i0 i1
  obtain ⟨b1, b2⟩ := G.incr_bounds hρ
  have hLz : (cnt : ℤ) - 2 = (L : ℕ) := by omega
  unfold UnderFilter at hx gain
  unfold exactAt at gain ⊢
  have q1 : (128 : ℝ) ≤ inc := by exact_mod_cast h128
  have n0 : (0 : ℝ) < inc := by linarith
  have ρr : (1 : ℝ) / 256 ≤ ρ := by
    have := Rat.cast_le (K := ℝ).2 hρ
    push_cast at this
    exact this
  have ρ0 : (0 : ℝ) < ρ := by linarith
  rw [hLz] at Wd gain hx ⊢
  have c1 : |(sincInc inc ρ : ℝ) - inc * ρ| ≤ 1 / 10 ^ 9 := by
    have := abs_cast p1
    push_cast at this
    exact this
  have c2 : |((rne (sincInc inc ρ * 4096) : ℤ) : ℝ) - 4096 * (sincInc inc ρ : ℝ)| ≤ 1 / 2 := by
    have := abs_cast p2
    push_cast at this
    exact this
  have c3 : |((rne (r64 (i * sincInc inc ρ) * 4096) : ℤ) : ℝ) - (rne (sincInc inc ρ * 4096) : ℤ) * (i : ℝ)| ≤ 1001 / 1000 := by
    have := abs_cast p3
    push_cast at this
    exact this
  have s0 := Wd.s0
  have s1 := Wd.s1
  clear p1 p2 p3
  generalize rne (r64 (i * sincInc inc ρ) * 4096) = b at *
  generalize sincInc inc ρ = σ at *
  generalize rne (σ * 4096) = a at *
  rw [show (((inc : ℕ) : ℤ) : ℚ) = (inc : ℚ) by push_cast; rfl] at *
  have b1' : 2048 ≤ a := by omega
  have a1 : (2048 : ℝ) ≤ a := by exact_mod_cast b1'
  have a0 : (0 : ℝ) < a := by linarith
  -- the sums over the taps
  have ex : ∀ ξ : ℤ → ℚ, exactSum (tabQ rows.flatten) (L : ℕ) a b D ξ = ∑ k ∈ Finset.Icc (-D) (4096 * ((L : ℕ) : ℤ) + 1), tap (tabQ rows.flatten) L a b k * ξ k := fun ξ => by
    unfold exactSum tap
    refine Finset.sum_congr rfl (fun k _ => ?_)
    rw [ite_mul, zero_mul]
  set I := Finset.Icc (-D) (4096 * ((L : ℕ) : ℤ) + 1) with hI
  have hS : ∀ k, |k * a - b| < 4096 * ((L : ℤ) + 1) → k ∈ I := by
    intro k hk
    rw [_root_.abs_lt] at hk
    rw [hI, Finset.mem_Icc]
    have L1 : 1 ≤ L := by have := G.n_bounds; omega
    constructor
    · by_contra h
      have : k ≤ -(2 * ((L : ℤ) + 1)) := by omega
      nlinarith
    · by_contra h
      have : 2 * ((L : ℤ) + 1) + 1 ≤ k := by omega
      nlinarith
  have σ0 : (0 : ℝ) ≤ σ := by
    rw [_root_.abs_le] at c2
    linarith
  have σ0' : (0 : ℚ) ≤ σ := by exact_mod_cast σ0
  have g1 : (σ : ℝ) / inc * ∑ k ∈ I, |(tap (tabQ rows.flatten) L a b k : ℝ)| ≤ g := by
    have := gain (fun k => if 0 ≤ tap (tabQ rows.flatten) L a b k then 1 else -1) (fun k _ => by split_ifs <;> norm_num)
    rw [ex, mul_one] at this
    have e : ∑ k ∈ I, tap (tabQ rows.flatten) L a b k * (if 0 ≤ tap (tabQ rows.flatten) L a b k then 1 else -1) = ∑ k ∈ I, |tap (tabQ rows.flatten) L a b k| := by
      refine Finset.sum_congr rfl (fun k _ => ?_)
      split_ifs with h
      · rw [abs_of_nonneg h, mul_one]
      · rw [abs_of_neg (by linarith)]; ring
    rw [e] at this
    have := Rat.cast_le (K := ℝ).2 ((le_abs_self _).trans this)
    push_cast at this
    exact this
  -- the entries of the table
  have err : ∀ m : ℕ, |(tabQ rows.flatten m : ℝ) - (rows.flatten.getD m 0 : ℝ) / 10 ^ 27| ≤ 1 / 30000000 := by
    intro m
    have := C.err hM m
    unfold entry at this
    rw [Int.toNat_natCast] at this
    have h := abs_cast this
    push_cast at h
    exact h
  have zero := C.tail_zero hL
  have last : |(rows.flatten.getD L 0 : ℝ) / 10 ^ 27| ≤ 1 / 5000000 := by
    have hq := C.last_le hM hz hcnt
    rw [hLz] at hq
    have h := abs_cast hq
    push_cast at h
    have := err L
    rw [_root_.abs_le] at *
    constructor <;> linarith
  have pi1 : (98 / 10 : ℝ) ≤ Real.pi ^ 2 := by
    have := Real.pi_gt_d4
    nlinarith
  have pi0 := Real.pi_pos
  have sq0 : 0 < (2 * (inc : ℝ) - 1) ^ 2 := by
    have : 0 < 2 * (inc : ℝ) - 1 := by linarith
    positivity
  -- one tone
  have step : |(a : ℝ) / 4096 - inc * ρ| ≤ 1 / 8191 := by
    rw [_root_.abs_le] at *
    constructor <;> linarith
  have half : (1 : ℝ) / 2 ≤ inc * ρ := by nlinarith
  have one : ∀ t ∈ Finset.range n, |(σ : ℝ) / inc * ∑ k ∈ I, (tap (tabQ rows.flatten) L a b k : ℝ) * (A t * Real.cos (ω t * k + θ t)) - A t * T (ω t) (θ t)| ≤
      A t * (W + 1 / (1040000 * ρ)) := by
    intro t ht
    obtain ⟨hA, w0, w1, w2⟩ := hT t (Finset.mem_range.1 ht)
    clear hT hx
    generalize A t = A at *
    generalize ω t = ω at *
    generalize θ t = θ at *
    have tt := taps_tone (h := fun i => (rows.flatten.getD i 0 : ℝ) / 10 ^ 27) (ε := 1 / 5000000) (fun m => (err m).trans (by norm_num)) (zero _ (by omega)) last H (by omega) g0 k0 I
      (a := a) (b := b) (by omega) b2 hS w0 w1 θ
    have tX : 2 * (γ * (5 / 4) / Real.pi ^ 2 + 2 * κ / ((2 * inc - 1) ^ 2 * Real.pi ^ 2)) + (2 * (L + 1) / inc + 1) * (1 / 5000000) ≤ X := by
      refine le_trans ?_ hX
      gcongr
    have hφ : |(b : ℝ) / a - i| ≤ 1001 / 1000 / (4096 * (a / 4096)) := by
      rw [show (b : ℝ) / a - i = (b - a * i) / a by field_simp, abs_div, abs_of_pos a0, show (4096 : ℝ) * (a / 4096) = a by ring]
      gcongr
    obtain ⟨o1, o2⟩ := hone (a / 4096) (b / a) ω θ w2 w0 w1 (by positivity) step hφ
    have out := tone_out (σ := σ) a0 c2 (tt.trans tX) (Real.abs_cos_le_one _) hXY o1 o2 hW
    have ra : 1001 / 2000 / (a : ℝ) ≤ 1 / (1040000 * ρ) := step_room a0 ρ0 q1 half step
    have e1 : (σ : ℝ) / inc * ∑ k ∈ I, (tap (tabQ rows.flatten) L a b k : ℝ) * (A * Real.cos (ω * k + θ)) - A * T ω θ =
        A * ((σ : ℝ) / inc * ∑ k ∈ I, (tap (tabQ rows.flatten) L a b k : ℝ) * Real.cos (ω * k + θ) - T ω θ) := by
      rw [mul_sub, Finset.mul_sum, Finset.mul_sum, Finset.mul_sum]
      congr 1
      exact Finset.sum_congr rfl (fun k _ => by ring)
    rw [e1, abs_mul, abs_of_nonneg hA]
    exact mul_le_mul_of_nonneg_left (out.trans (by linarith)) hA
  have all := (Finset.abs_sum_le_sum_abs _ _).trans (Finset.sum_le_sum one)
  rw [Finset.sum_sub_distrib, ← Finset.sum_mul, ← Finset.mul_sum, Finset.sum_comm] at all
  have ec : ∑ k ∈ I, ∑ t ∈ Finset.range n, (tap (tabQ rows.flatten) L a b k : ℝ) * (A t * Real.cos (ω t * k + θ t)) =
      ∑ k ∈ I, (tap (tabQ rows.flatten) L a b k : ℝ) * ∑ t ∈ Finset.range n, A t * Real.cos (ω t * k + θ t) :=
    Finset.sum_congr rfl (fun k _ => by rw [Finset.mul_sum])
  rw [ec] at all
  -- the samples differ from the cosines
  have η0 : 0 ≤ η := by
    refine (abs_nonneg _).trans (hx 0 ⟨by omega, ?_⟩)
    rw [zero_mul, zero_sub, abs_neg, abs_of_nonneg s0]
    have := Wd.i2
    omega
  have diff : |(σ : ℝ) / inc * ∑ k ∈ I, (tap (tabQ rows.flatten) L a b k : ℝ) * (ξ k : ℝ) -
      (σ : ℝ) / inc * ∑ k ∈ I, (tap (tabQ rows.flatten) L a b k : ℝ) * ∑ t ∈ Finset.range n, A t * Real.cos (ω t * k + θ t)| ≤ g * η := by
    rw [← mul_sub, ← Finset.sum_sub_distrib, abs_mul, abs_of_nonneg (by positivity)]
    have : |∑ k ∈ I, ((tap (tabQ rows.flatten) L a b k : ℝ) * (ξ k : ℝ) - (tap (tabQ rows.flatten) L a b k : ℝ) * ∑ t ∈ Finset.range n, A t * Real.cos (ω t * k + θ t))| ≤
        ∑ k ∈ I, |(tap (tabQ rows.flatten) L a b k : ℝ)| * η := by
      refine (Finset.abs_sum_le_sum_abs _ _).trans (Finset.sum_le_sum (fun k hk => ?_))
      rw [← mul_sub, abs_mul]
      by_cases hu : |k * a - b| ≤ 4096 * ((L : ℕ) : ℤ)
      · exact mul_le_mul_of_nonneg_left (hx k ⟨(Finset.mem_Icc.1 hk).1, hu⟩) (abs_nonneg _)
      · unfold tap
        rw [if_neg hu]
        simp
    rw [← Finset.sum_mul] at this
    calc _ ≤ (σ : ℝ) / inc * ((∑ k ∈ I, |(tap (tabQ rows.flatten) L a b k : ℝ)|) * η) := mul_le_mul_of_nonneg_left this (by positivity)
      _ = ((σ : ℝ) / inc * ∑ k ∈ I, |(tap (tabQ rows.flatten) L a b k : ℝ)|) * η := by ring
      _ ≤ _ := mul_le_mul_of_nonneg_right g1 η0
  rw [ex]
  push_cast
  rw [_root_.abs_le] at all diff ⊢
  constructor <;> linarith

/-- The filter at ratios up to 1 passes the cosines below a limit and suppresses those above half the rate of the output. -/
theorem Checked.alias (hM : M ≤ 95 * 10 ^ 25) (hz : z ≤ 13 * 10 ^ 19) (h128 : 128 ≤ inc) {g : ℚ}
    (hg : 2 * (4097 / 4096 * ((S / 10 ^ 27 + cnt * (1 / 30000000)) / inc) + (V / 10 ^ 27 + cnt * (1 / 15000000))) ≤ g)
    {γ κ : ℝ} {L : ℕ} (hL : L + 2 = cnt) (H : Decays (fun i => (rows.flatten.getD i 0 : ℝ) / 10 ^ 27) L inc γ κ) (g0 : 0 ≤ γ) (k0 : 0 ≤ κ)
    {Ω γ0 : ℝ} (Ω0 : 0 ≤ Ω) (hΩ : Ω ≤ inc)
    (hw : ∀ a, 0 ≤ a → a ≤ Ω → ∀ p ≤ inc, ∀ ψ, |Sine.wave (fun i => (rows.flatten.getD i 0 : ℝ) / 10 ^ 27) inc rows.length (a / inc) ψ p - Real.cos ψ| ≤ γ0)
    {X Y Z W : ℝ} (hX : 2 * (γ * (5 / 4) / (98 / 10) + 2 * κ / ((2 * inc - 1) ^ 2 * (98 / 10))) + (2 * (L + 1) / inc + 1) * (1 / 5000000) ≤ X)
    (hY1 : γ0 + 5 / 48 * (Ω / inc) ^ 2 ≤ Y) (hY2 : γ / (98 / 10) + κ / ((2 * inc - 1) ^ 2 * (98 / 10)) ≤ Y) (hZ : Ω * (1001 / 1000) / (4096 * inc) ≤ Z) (hXY : X + Y ≤ 1 / 1000)
    (hW : X + Y + Z ≤ W)
    {ρ i : ℚ} (hρ : 1 / 256 ≤ ρ) (hρ1 : ρ ≤ 1) (i0 : 0 ≤ i) (i1 : i < 1) {D : ℤ} (hD : 4096 * (cnt : ℤ) ≤ D) {n : ℕ} {A ω θ : ℕ → ℝ} {lim η : ℝ} (hlim : lim ≤ 1999 / 2000 * Ω * ρ)
    (hT : ∀ t < n, 0 ≤ A t ∧ 0 ≤ ω t ∧ ω t ≤ Real.pi ∧ (ω t ≤ lim ∨ 1001 / 1000 * Real.pi * ρ ≤ ω t))
    {ξ : ℤ → ℚ} (hx : ∀ k, UnderFilter ((cnt : ℤ) - 2) inc ρ i D k → |(ξ k : ℝ) - ∑ t ∈ Finset.range n, A t * Real.cos (ω t * k + θ t)| ≤ η) :
    |(exactAt (tabQ rows.flatten) ((cnt : ℤ) - 2) inc ρ i D ξ : ℝ) - ∑ t ∈ Finset.range n, if ω t ≤ lim then A t * Real.cos (ω t * i + θ t) else 0| ≤
      (∑ t ∈ Finset.range n, A t) * (W + 1 / (1040000 * ρ)) + g * η := by
  have q1 : (128 : ℝ) ≤ inc := by exact_mod_cast h128
  have n0 : (0 : ℝ) < inc := by linarith
  have ρr : (1 : ℝ) / 256 ≤ ρ := by
    have := Rat.cast_le (K := ℝ).2 hρ
    push_cast at this
    exact this
  have half : (1 : ℝ) / 2 ≤ inc * ρ := by nlinarith
  have pi1 : (98 / 10 : ℝ) ≤ Real.pi ^ 2 := by
    have := Real.pi_gt_d4
    nlinarith
  have sq0 : 0 < (2 * (inc : ℝ) - 1) ^ 2 := by
    have : 0 < 2 * (inc : ℝ) - 1 := by linarith
    positivity
  have Z0 : 0 ≤ Z := le_trans (by positivity) hZ
  have key := C.response G hM hz h128 hg hL H g0 k0 hX hXY hW hρ hρ1 i0 i1 (P := fun ω => ω ≤ lim ∨ 1001 / 1000 * Real.pi * ρ ≤ ω) (T := fun ω θ => if ω ≤ lim then Real.cos (ω * i + θ) else 0)
    (fun s φ ω θ w2 w0 w1 s0 step hφ => by
      have c1 := Real.abs_cos_le_one (ω * φ + θ)
      by_cases hp : ω ≤ lim
      · rw [if_pos hp]
        have ws := pass_room n0 Ω0 half step hp hlim
        have gp := (gain_pass (g := fun _ => 1) (C.tail_zero hL) (C.below hL (by omega)) (by omega) (by simp) s0 w0 ws hΩ (fun a a0 a1 p hp ψ => by rw [one_mul]; exact hw a a0 a1 p hp ψ)).trans hY1
        have nc := (near_cos (θ := θ) n0 s0 w0 ws hφ).trans hZ
        generalize gainAt (fun i => (rows.flatten.getD i 0 : ℝ) / 10 ^ 27) L inc s ω = v at *
        generalize Real.cos (ω * φ + θ) = c at *
        constructor
        · have := abs_sub_abs_le_abs_sub v 1
          rw [abs_one] at this
          linarith
        · have k1 : |(v - 1) * c| ≤ Y * 1 := by
            rw [abs_mul]
            exact mul_le_mul gp c1 (abs_nonneg _) ((abs_nonneg _).trans gp)
          rw [show v * c - Real.cos (ω * i + θ) = (v - 1) * c + (c - Real.cos (ω * i + θ)) by ring]
          have := abs_add_le ((v - 1) * c) (c - Real.cos (ω * i + θ))
          linarith
      · rw [if_neg hp, sub_zero]
        have gs : |gainAt (fun i => (rows.flatten.getD i 0 : ℝ) / 10 ^ 27) L inc s ω| ≤ Y := by
          refine (gain_stop (by omega) H g0 k0 s0 (stop_room n0 Real.pi_pos.le half step (w2.resolve_left hp))).trans (le_trans ?_ hY2)
          gcongr
        refine ⟨by linarith, ?_⟩
        rw [abs_mul]
        have := mul_le_mul gs c1 (abs_nonneg _) ((abs_nonneg _).trans gs)
        linarith) hD hT hx
  simp only [mul_ite, mul_zero] at key
  exact key

end

end Verif.Coeffs
