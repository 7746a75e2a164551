import Verif.Proof.AliasBound
import Verif.Proof.TableAt

/-! The taps of the filter at any ratio, as values of the interpolated table. -/

namespace Verif.Alias
open Verif Spec

theorem hat_neg (x : ℝ) : hat (-x) = hat x := by unfold hat; rw [abs_neg]

theorem interp_neg (h : ℕ → ℝ) (L : ℕ) (u : ℝ) : interp h L (-u) = interp h L u := by
  unfold interp
  rw [hat_neg]
  congr 1
  refine Finset.sum_congr rfl (fun n _ => ?_)
  rw [← hat_neg (-u - _), ← hat_neg (-u + _), show -(-u - ((n + 1 : ℕ) : ℝ)) = u + ((n + 1 : ℕ) : ℝ) by ring, show -(-u + ((n + 1 : ℕ) : ℝ)) = u - ((n + 1 : ℕ) : ℝ) by ring,
    add_comm (hat _)]

/-- Between two entries. -/
theorem interp_lerp {h : ℕ → ℝ} {L : ℕ} (h0 : h (L + 1) = 0) {n : ℕ} (hn : n ≤ L) {f : ℝ} (f0 : 0 ≤ f) (f1 : f ≤ 1) : interp h L (n + f) = (1 - f) * h n + f * h (n + 1) := by
  have e : interp h L (n + f) = ∑ k ∈ Finset.range (L + 2), h k * hat (n + f - k) := by
    rw [Finset.sum_range_succ, h0, zero_mul, add_zero, Finset.sum_range_succ', add_comm (∑ k ∈ Finset.range L, _)]
    unfold interp
    congr 1
    · simp
    · refine Finset.sum_congr rfl (fun k _ => ?_)
      have : hat ((n : ℝ) + f + ((k + 1 : ℕ) : ℝ)) = 0 := by
        apply hat_zero
        have : (0 : ℝ) ≤ n := by positivity
        have : (0 : ℝ) ≤ k := by positivity
        push_cast
        rw [abs_of_nonneg (by positivity)]
        linarith
      rw [this, add_zero]
  rw [e, Finset.sum_eq_add_of_mem n (n + 1) (Finset.mem_range.2 (by omega)) (Finset.mem_range.2 (by omega)) (by omega)]
  · rw [show (n : ℝ) + f - n = f by ring, hat_right f0 f1, show (n : ℝ) + f - ((n + 1 : ℕ) : ℝ) = f - 1 by push_cast; ring, hat_left (by linarith) (by linarith)]
    ring
  · intro k _ hk
    rw [hat_zero, mul_zero]
    rcases lt_or_ge k n with h1 | h1
    · have : (k : ℝ) + 1 ≤ n := by exact_mod_cast h1
      rw [abs_of_nonneg (by linarith)]
      linarith
    · have : n + 2 ≤ k := by omega
      have : (n : ℝ) + 2 ≤ k := by exact_mod_cast this
      rw [abs_of_nonpos (by linarith)]
      linarith

/-- A tap within the table, from rounded entries. -/
theorem response_interp {q : ℤ → ℚ} {h : ℕ → ℝ} {L : ℕ} {ε : ℝ} (hq : ∀ n : ℕ, |(q n : ℝ) - h n| ≤ ε) (h0 : h (L + 1) = 0) {p : ℤ} (hp : |p| ≤ 4096 * L) :
    |(response q |p| : ℝ) - interp h L ((p : ℝ) / 4096)| ≤ ε := by
  obtain ⟨k, hk⟩ := Int.eq_ofNat_of_zero_le (abs_nonneg p)
  have e : interp h L ((p : ℝ) / 4096) = interp h L ((k : ℝ) / 4096) := by
    have : ((|p| : ℤ) : ℝ) = (k : ℝ) := by rw [hk]; push_cast; rfl
    rw [Int.cast_abs] at this
    rw [← this]
    rcases abs_choice (p : ℝ) with h | h
    · rw [h]
    · rw [h, neg_div, interp_neg]
  rw [e, hk]
  have hkL : k / 4096 ≤ L := by omega
  have m1 : ((k % 4096 : ℕ) : ℝ) ≤ 4096 := by exact_mod_cast (Nat.mod_lt k (by norm_num)).le
  have e2 : (k : ℝ) / 4096 = ((k / 4096 : ℕ) : ℝ) + ((k % 4096 : ℕ) : ℝ) / 4096 := by
    have : (k : ℝ) = 4096 * ((k / 4096 : ℕ) : ℝ) + ((k % 4096 : ℕ) : ℝ) := by exact_mod_cast (Nat.div_add_mod k 4096).symm
    linarith
  have f0 : (0 : ℝ) ≤ ((k % 4096 : ℕ) : ℝ) / 4096 := by positivity
  have f1 : ((k % 4096 : ℕ) : ℝ) / 4096 ≤ 1 := by rw [div_le_one (by norm_num)]; exact m1
  rw [e2, interp_lerp h0 hkL f0 f1]
  unfold response
  rw [show ((k : ℤ) / 4096) = ((k / 4096 : ℕ) : ℤ) by push_cast; rfl, show ((k : ℤ) % 4096) = ((k % 4096 : ℕ) : ℤ) by push_cast; rfl]
  have a := hq (k / 4096)
  have b := hq (k / 4096 + 1)
  have c : (((k / 4096 : ℕ) : ℤ) + 1) = ((k / 4096 + 1 : ℕ) : ℤ) := by push_cast; rfl
  rw [c]
  push_cast only [Rat.cast_add, Rat.cast_mul, Rat.cast_div, Rat.cast_sub]
  rw [show ((((k % 4096 : ℕ) : ℤ) : ℚ) : ℝ) = ((k % 4096 : ℕ) : ℝ) by push_cast; rfl, show ((4096 : ℚ) : ℝ) = 4096 by norm_num]
  generalize ((k % 4096 : ℕ) : ℝ) / 4096 = f at *
  generalize (q ((k / 4096 : ℕ) : ℤ) : ℝ) = q1 at *
  generalize (q ((k / 4096 + 1 : ℕ) : ℤ) : ℝ) = q2 at *
  generalize h (k / 4096) = h1 at *
  generalize h (k / 4096 + 1) = h2 at *
  have f2 : 0 ≤ 1 - f := by linarith
  rw [_root_.abs_le] at *
  constructor
  · linarith [mul_le_mul_of_nonneg_left a.1 f2, mul_le_mul_of_nonneg_left b.1 f0]
  · linarith [mul_le_mul_of_nonneg_left a.2 f2, mul_le_mul_of_nonneg_left b.2 f0]

/-- Past the last entry. -/
theorem interp_last {h : ℕ → ℝ} {L : ℕ} (h0 : h (L + 1) = 0) {p : ℤ} (hp : 4096 * (L : ℤ) < |p|) : |interp h L ((p : ℝ) / 4096)| ≤ |h L| := by
  have e : interp h L ((p : ℝ) / 4096) = interp h L (|(p : ℝ)| / 4096) := by
    rcases abs_choice (p : ℝ) with h | h
    · rw [h]
    · rw [h, neg_div, interp_neg]
  have hp' : 4096 * (L : ℝ) < |(p : ℝ)| := by exact_mod_cast hp
  rw [e]
  generalize |(p : ℝ)| = u at *
  rcases le_or_gt ((L : ℝ) + 1) (u / 4096) with h1 | h1
  · have l0 : (0 : ℝ) ≤ L := by positivity
    rw [interp_zero (by rw [abs_of_nonneg (by linarith)]; exact h1), abs_zero]
    exact abs_nonneg _
  · have f0 : 0 ≤ u / 4096 - L := by linarith
    have f1 : u / 4096 - L ≤ 1 := by linarith
    have := interp_lerp h0 (le_refl L) f0 f1
    rw [show (L : ℝ) + (u / 4096 - L) = u / 4096 by ring] at this
    rw [this, h0, mul_zero, add_zero, abs_mul]
    apply mul_le_of_le_one_left (abs_nonneg _)
    rw [abs_le]
    constructor <;> linarith

/-- How many multiples of `a` are close to `b`. -/
theorem near_count (S : Finset ℤ) {a b : ℤ} (ha : 0 < a) {c : ℤ} (hc : 0 ≤ c) : ((S.filter (fun k => |k * a - b| < c)).card : ℝ) ≤ 2 * c / a + 1 := by
  have a0 : (0 : ℝ) < a := by exact_mod_cast ha
  have sub : S.filter (fun k => |k * a - b| < c) ⊆ Finset.Icc ⌈((b : ℝ) - c) / a⌉ ⌊((b : ℝ) + c) / a⌋ := by
    intro k hk
    obtain ⟨-, hk⟩ := Finset.mem_filter.1 hk
    have hk' : |(k : ℝ) * a - b| < c := by exact_mod_cast hk
    rw [_root_.abs_lt] at hk'
    rw [Finset.mem_Icc, Int.ceil_le, Int.le_floor, div_le_iff₀ a0, le_div_iff₀ a0]
    constructor <;> linarith
  have h1 : ((S.filter (fun k => |k * a - b| < c)).card : ℝ) ≤ ((Finset.Icc ⌈((b : ℝ) - c) / a⌉ ⌊((b : ℝ) + c) / a⌋).card : ℝ) := by exact_mod_cast Finset.card_le_card sub
  refine h1.trans ?_
  rw [Int.card_Icc]
  have c0 : (0 : ℝ) ≤ c := by exact_mod_cast hc
  have e : ((b : ℝ) + c) / a - ((b : ℝ) - c) / a = 2 * c / a := by ring
  have f1 := Int.floor_le (((b : ℝ) + c) / a)
  have f2 := Int.le_ceil (((b : ℝ) - c) / a)
  have c1 : 0 ≤ 2 * (c : ℝ) / a := by positivity
  rcases le_total 0 (⌊((b : ℝ) + c) / a⌋ + 1 - ⌈((b : ℝ) - c) / a⌉) with h | h
  · have : (((⌊((b : ℝ) + c) / a⌋ + 1 - ⌈((b : ℝ) - c) / a⌉).toNat : ℤ) : ℝ) = ((⌊((b : ℝ) + c) / a⌋ + 1 - ⌈((b : ℝ) - c) / a⌉ : ℤ) : ℝ) := by rw [Int.toNat_of_nonneg h]
    rw [Int.cast_natCast] at this
    rw [this]
    push_cast
    linarith
  · rw [Int.toNat_of_nonpos h]
    push_cast
    linarith

/-- The weight of tap `k`, as in `exactSum`. -/
def tap (q : ℤ → ℚ) (L : ℕ) (a b k : ℤ) : ℚ := if |k * a - b| ≤ 4096 * (L : ℤ) then response q |k * a - b| else 0

/-- The sum over the taps, with weights of at most 1. -/
theorem taps_near {q : ℤ → ℚ} {h : ℕ → ℝ} {L : ℕ} {ε : ℝ} (hq : ∀ n : ℕ, |(q n : ℝ) - h n| ≤ ε) (h0 : h (L + 1) = 0) (hl : |h L| ≤ ε) (S : Finset ℤ) {a b : ℤ} (ha : 0 < a) {c : ℤ → ℝ}
    (hc : ∀ k, |c k| ≤ 1) :
    |∑ k ∈ S, (tap q L a b k : ℝ) * c k - ∑ k ∈ S, interp h L (((k * a - b : ℤ) : ℝ) / 4096) * c k| ≤ (8192 * (L + 1) / a + 1) * ε := by
  have ε0 : 0 ≤ ε := (abs_nonneg _).trans hl
  have term : ∀ k ∈ S, |(tap q L a b k : ℝ) * c k - interp h L (((k * a - b : ℤ) : ℝ) / 4096) * c k| ≤ if |k * a - b| < 4096 * ((L : ℤ) + 1) then ε else 0 := by
    intro k _
    rw [← sub_mul, abs_mul]
    have key : |(tap q L a b k : ℝ) - interp h L (((k * a - b : ℤ) : ℝ) / 4096)| ≤ if |k * a - b| < 4096 * ((L : ℤ) + 1) then ε else 0 := by
      unfold tap
      by_cases h1 : |k * a - b| ≤ 4096 * (L : ℤ)
      · rw [if_pos h1, if_pos (by omega)]
        exact response_interp hq h0 h1
      · rw [if_neg h1, Rat.cast_zero, zero_sub, abs_neg]
        by_cases h2 : |k * a - b| < 4096 * ((L : ℤ) + 1)
        · rw [if_pos h2]
          exact (interp_last h0 (by omega)).trans hl
        · rw [if_neg h2, interp_zero, abs_zero]
          have : 4096 * ((L : ℤ) + 1) ≤ |k * a - b| := by omega
          have : 4096 * ((L : ℝ) + 1) ≤ |((k * a - b : ℤ) : ℝ)| := by exact_mod_cast this
          rw [abs_div, abs_of_pos (by norm_num : (0 : ℝ) < 4096), le_div_iff₀ (by norm_num)]
          linarith
    have n0 : (0 : ℝ) ≤ if |k * a - b| < 4096 * ((L : ℤ) + 1) then ε else 0 := by split_ifs <;> simp [ε0]
    calc _ ≤ (if |k * a - b| < 4096 * ((L : ℤ) + 1) then ε else 0) * 1 := mul_le_mul key (hc k) (abs_nonneg _) n0
      _ = _ := mul_one _
  rw [← Finset.sum_sub_distrib]
  refine (Finset.abs_sum_le_sum_abs _ _).trans ((Finset.sum_le_sum term).trans ?_)
  rw [← Finset.sum_filter, Finset.sum_const, nsmul_eq_mul]
  apply mul_le_mul_of_nonneg_right _ ε0
  have := near_count S (b := b) ha (c := 4096 * ((L : ℤ) + 1)) (by positivity)
  refine this.trans (le_of_eq ?_)
  push_cast
  ring

/-- The sum over the taps as a sum over all integers. -/
theorem taps_tsum (h : ℕ → ℝ) (L : ℕ) (S : Finset ℤ) {a b : ℤ} (ha : 0 < a) (hS : ∀ k, |k * a - b| < 4096 * ((L : ℤ) + 1) → k ∈ S) (c : ℤ → ℝ) :
    ∑' k : ℤ, interp h L ((a : ℝ) / 4096 * (k - (b : ℝ) / a)) * c k = ∑ k ∈ S, interp h L (((k * a - b : ℤ) : ℝ) / 4096) * c k := by
  have a0 : (a : ℝ) ≠ 0 := by exact_mod_cast ha.ne'
  have e : ∀ k : ℤ, (a : ℝ) / 4096 * (k - (b : ℝ) / a) = ((k * a - b : ℤ) : ℝ) / 4096 := fun k => by
    push_cast
    field_simp
  simp only [e]
  refine tsum_eq_sum (fun k hk => ?_)
  rw [interp_zero, zero_mul]
  have h1 : 4096 * ((L : ℤ) + 1) ≤ |k * a - b| := by
    by_contra h1
    exact hk (hS k (by omega))
  have : 4096 * ((L : ℝ) + 1) ≤ |((k * a - b : ℤ) : ℝ)| := by exact_mod_cast h1
  rw [abs_div, abs_of_pos (by norm_num : (0 : ℝ) < 4096), le_div_iff₀ (by norm_num)]
  linarith

/-- The gain of the filter at the frequency `ω` per frame, when the table is passed through in steps of `s` entries. -/
noncomputable def gainAt (h : ℕ → ℝ) (L N : ℕ) (s ω : ℝ) : ℝ := spec h L (ω / s) * hatT (ω / s) / N

/-- One tone through the taps. -/
theorem taps_tone {q : ℤ → ℚ} {h : ℕ → ℝ} {L N : ℕ} {ε γ κ : ℝ} (hq : ∀ n : ℕ, |(q n : ℝ) - h n| ≤ ε) (h0 : h (L + 1) = 0) (hl : |h L| ≤ ε) (H : Decays h L N γ κ) (hN : 0 < N) (g0 : 0 ≤ γ) (k0 : 0 ≤ κ)
    (S : Finset ℤ) {a b : ℤ} (ha : 0 < a) (haN : a ≤ 4096 * N) (hS : ∀ k, |k * a - b| < 4096 * ((L : ℤ) + 1) → k ∈ S) {ω : ℝ} (w0 : 0 ≤ ω) (w1 : ω ≤ Real.pi) (θ : ℝ) :
    |(a : ℝ) / 4096 / N * ∑ k ∈ S, (tap q L a b k : ℝ) * Real.cos (ω * k + θ) - gainAt h L N (a / 4096) ω * Real.cos (ω * (b / a) + θ)| ≤
      2 * (γ * (5 / 4) / Real.pi ^ 2 + 2 * κ / ((2 * N - 1) ^ 2 * Real.pi ^ 2)) + (2 * (L + 1) / N + 1) * ε := by
  have a0 : (0 : ℝ) < a := by exact_mod_cast ha
  have n0 : (0 : ℝ) < N := by exact_mod_cast hN
  have ε0 : 0 ≤ ε := (abs_nonneg _).trans hl
  have aN : (a : ℝ) ≤ 4096 * N := by exact_mod_cast haN
  have r0 : 0 < (a : ℝ) / 4096 / N := by positivity
  have r1 : (a : ℝ) / 4096 / N ≤ 1 := by rw [div_le_one n0]; linarith
  have s0 : 0 < (a : ℝ) / 4096 := by positivity
  have im := fun S hS => H.images hN g0 k0 r0 r1 w0 w1 S hS
  rw [show (a : ℝ) / 4096 / N * N = a / 4096 by field_simp] at im
  have t := tone_sum h L s0 ω (b / a) θ im
  rw [taps_tsum h L S ha hS (fun k => Real.cos (ω * k + θ))] at t
  have u := taps_near hq h0 hl S (b := b) ha (c := fun k => Real.cos (ω * k + θ)) (fun k => Real.abs_cos_le_one _)
  have u2 := mul_le_mul_of_nonneg_left u r0.le
  rw [← abs_of_pos r0, ← abs_mul, abs_of_pos r0, mul_sub] at u2
  have u3 : (a : ℝ) / 4096 / N * ((8192 * (L + 1) / a + 1) * ε) ≤ (2 * (L + 1) / N + 1) * ε := by
    rw [← mul_assoc]
    apply mul_le_mul_of_nonneg_right _ ε0
    rw [mul_add, mul_one, show (a : ℝ) / 4096 / N * (8192 * (L + 1) / a) = 2 * (L + 1) / N by field_simp; ring]
    linarith
  have t2 : |(a : ℝ) / 4096 / N * ∑ k ∈ S, interp h L (((k * a - b : ℤ) : ℝ) / 4096) * Real.cos (ω * k + θ) - gainAt h L N (a / 4096) ω * Real.cos (ω * (b / a) + θ)| ≤
      2 * (γ * (5 / 4) / Real.pi ^ 2 + 2 * κ / ((2 * N - 1) ^ 2 * Real.pi ^ 2)) := by
    have e : (a : ℝ) / 4096 / N * ∑ k ∈ S, interp h L (((k * a - b : ℤ) : ℝ) / 4096) * Real.cos (ω * k + θ) - gainAt h L N (a / 4096) ω * Real.cos (ω * (b / a) + θ) =
        (a / 4096 * ∑ k ∈ S, interp h L (((k * a - b : ℤ) : ℝ) / 4096) * Real.cos (ω * k + θ) - spec h L (ω / (a / 4096)) * hatT (ω / (a / 4096)) * Real.cos (ω * (b / a) + θ)) / N := by
      unfold gainAt
      ring
    rw [e, abs_div, abs_of_pos n0, div_le_iff₀ n0]
    refine t.trans ?_
    rw [mul_comm (N : ℝ)]
    apply mul_le_mul_of_nonneg_right _ n0.le
    have : γ * (5 / 4) * (a / 4096 / N) ^ 2 / Real.pi ^ 2 ≤ γ * (5 / 4) / Real.pi ^ 2 := by
      apply div_le_div_of_nonneg_right _ (by positivity)
      exact mul_le_of_le_one_right (by positivity) (pow_le_one₀ r0.le r1)
    linarith
  have := abs_sub_le ((a : ℝ) / 4096 / N * ∑ k ∈ S, (tap q L a b k : ℝ) * Real.cos (ω * k + θ))
    ((a : ℝ) / 4096 / N * ∑ k ∈ S, interp h L (((k * a - b : ℤ) : ℝ) / 4096) * Real.cos (ω * k + θ)) (gainAt h L N (a / 4096) ω * Real.cos (ω * (b / a) + θ))
  linarith

/-- The gain below a limit. -/
theorem gain_pass {h : ℕ → ℝ} {L N K : ℕ} (h0 : ∀ n, L < n → h n = 0) (hK : L < K * N) (hN : 0 < N) {γ Ω s ω : ℝ} {g : ℝ → ℝ} (hg : ∀ a, 0 ≤ a → |g a| ≤ 1) (s0 : 0 < s) (w0 : 0 ≤ ω) (w1 : ω * N ≤ Ω * s) (hΩ : Ω ≤ N)
    (hw : ∀ a, 0 ≤ a → a ≤ Ω → ∀ p ≤ N, ∀ ψ, |Sine.wave h N K (a / N) ψ p - g a * Real.cos ψ| ≤ γ) :
    |gainAt h L N s ω - g (ω * N / s)| ≤ γ + 5 / 48 * (Ω / N) ^ 2 := by
  have n0 : (0 : ℝ) < N := by exact_mod_cast hN
  have e : ω / s = (ω * N / s) / N := by field_simp
  have hx0 : 0 ≤ ω / s := by positivity
  have hx1 : ω / s ≤ Ω / N := by rw [div_le_div_iff₀ s0 n0]; exact w1
  have f := full_wave (K := K) (hw (ω * N / s) (by positivity) (by rw [div_le_iff₀ s0]; exact w1))
  rw [full_eq h0 hK, ← e] at f
  have b1 : |spec h L (ω / s) / N - g (ω * N / s)| ≤ γ := by
    rw [show spec h L (ω / s) / N - g (ω * N / s) = (spec h L (ω / s) - N * g (ω * N / s)) / N by field_simp, abs_div, abs_of_pos n0, div_le_iff₀ n0]
    linarith
  have hΩN : Ω / N ≤ 1 := by rw [div_le_one n0]; exact hΩ
  have b2 : 1 - 5 / 48 * (ω / s) ^ 2 ≤ hatT (ω / s) := by
    have sq := hatT_sq (ω / s)
    have cb := Real.cos_bound (x := ω / s) (by rw [abs_of_nonneg hx0]; linarith)
    rw [abs_of_nonneg hx0, _root_.abs_le] at cb
    rcases hx0.eq_or_lt with h | h
    · rw [← h]; simp [hatT]
    · have h2 : 0 < (ω / s) ^ 2 := by positivity
      have : (1 - 5 / 48 * (ω / s) ^ 2) * (ω / s) ^ 2 ≤ hatT (ω / s) * (ω / s) ^ 2 := by
        rw [sq]
        nlinarith [cb.2]
      exact le_of_mul_le_mul_right this h2
  have b3 := hatT_le_one (ω / s)
  have b4 := hatT_nonneg (ω / s)
  have b5 : (ω / s) ^ 2 ≤ (Ω / N) ^ 2 := by gcongr
  unfold gainAt
  rw [show spec h L (ω / s) * hatT (ω / s) / N = spec h L (ω / s) / N * hatT (ω / s) by ring]
  have b6 := hg (ω * N / s) (by positivity)
  generalize g (ω * N / s) = v at *
  generalize spec h L (ω / s) / N = g at *
  generalize hatT (ω / s) = t at *
  have γ0 : 0 ≤ γ := (abs_nonneg _).trans b1
  rw [show g * t - v = (g - v) * t + v * (t - 1) by ring]
  refine (abs_add_le _ _).trans ?_
  rw [abs_mul, abs_mul, abs_of_nonneg b4]
  have c1 : |g - v| * t ≤ γ * 1 := mul_le_mul b1 b3 b4 γ0
  have c2 : |t - 1| ≤ 5 / 48 * (Ω / N) ^ 2 := by
    rw [abs_le]
    constructor <;> linarith
  have c3 : |v| * |t - 1| ≤ 1 * |t - 1| := mul_le_mul_of_nonneg_right b6 (abs_nonneg _)
  linarith

/-- The gain in the stop band. -/
theorem gain_stop {h : ℕ → ℝ} {L N : ℕ} (hN : 0 < N) {γ κ s ω : ℝ} (H : Decays h L N γ κ) (g0 : 0 ≤ γ) (k0 : 0 ≤ κ) (s0 : 0 < s) (w1 : Real.pi * s ≤ ω * N) :
    |gainAt h L N s ω| ≤ γ / Real.pi ^ 2 + κ / ((2 * N - 1) ^ 2 * Real.pi ^ 2) := by
  have n0 : (0 : ℝ) < N := by exact_mod_cast hN
  have n1 : (1 : ℝ) ≤ N := by exact_mod_cast hN
  have pi := Real.pi_pos
  have e : ω / s = (ω * N / s) / N := by field_simp
  have hΩ : Real.pi ≤ ω * N / s := by rw [le_div_iff₀ s0]; exact w1
  have key := H (ω * N / s)
  rw [← e] at key
  have e2 : |gainAt h L N s ω| = |spec h L (ω / s) * hatT (ω / s)| / N := by unfold gainAt; rw [abs_div, abs_of_pos n0]
  rw [← e2] at key
  generalize |gainAt h L N s ω| = G at *
  generalize ω * N / s = Ω at *
  have Ω0 : 0 < Ω := by linarith
  split_ifs at key with hd
  · have t1 : (2 * (N : ℝ) - 1) * Real.pi ≤ Ω := by
      rw [abs_of_pos Ω0] at hd
      have tn := turns_near Ω
      have t0 : 1 ≤ turns Ω := by
        unfold turns
        rw [Int.le_floor, le_div_iff₀ (by positivity)]
        push_cast
        linarith
      have tN : (N : ℤ) ≤ turns Ω := Int.le_of_dvd (by omega) hd
      have tN' : (N : ℝ) ≤ turns Ω := by exact_mod_cast tN
      rw [_root_.abs_le] at tn
      nlinarith [mul_le_mul_of_nonneg_left tN' pi.le]
    have p1 : 0 < (2 * (N : ℝ) - 1) * Real.pi := mul_pos (by linarith) pi
    have p2 : Real.pi ^ 2 ≤ Ω ^ 2 := by gcongr
    have p3 : ((2 * (N : ℝ) - 1) * Real.pi) ^ 2 ≤ Ω ^ 2 := by gcongr
    have h1 : G ≤ γ / Ω ^ 2 + κ / Ω ^ 2 := by rw [← add_div, le_div_iff₀ (by positivity)]; linarith
    have h2 : γ / Ω ^ 2 ≤ γ / Real.pi ^ 2 := by gcongr
    have h3 : κ / Ω ^ 2 ≤ κ / ((2 * (N : ℝ) - 1) * Real.pi) ^ 2 := by gcongr
    rw [mul_pow] at h3
    linarith
  · have p2 : Real.pi ^ 2 ≤ Ω ^ 2 := by gcongr
    have : G ≤ γ / Ω ^ 2 := by rw [le_div_iff₀ (by positivity)]; linarith
    have t2 : γ / Ω ^ 2 ≤ γ / Real.pi ^ 2 := by gcongr
    have : 0 ≤ κ / ((2 * N - 1) ^ 2 * Real.pi ^ 2) := by positivity
    linarith

end Verif.Alias
