import Verif.Proof.FilterGain
import Verif.Proof.FilterAt

/-! The exact filter of a checked coefficient table: its gain at any ratio, and its response to a constant. -/

namespace Verif
open Spec

section
variable {N incr start D : ℤ} (W : Window N incr start D)
include W

/-- Crude part of all bounds: bounded samples against the response of the magnitudes, with at least the number of taps in use. -/
theorem Window.exact_le {q : ℤ → ℚ} {ξ : ℤ → ℚ} {u : ℚ} (hx : ∀ k, -D ≤ k → |k * incr - start| ≤ 4096 * N → |ξ k| ≤ u) {a b : ℕ}
    (ha : ((4096 * N - start) / incr).toNat + 1 ≤ a) (hb : ((4096 * N - (incr - start)) / incr).toNat + 1 ≤ b) :
    |exactSum q N incr start D ξ| ≤ (∑ m ∈ Finset.range a, response (fun j => |q j|) (start + m * incr) +
      ∑ m ∈ Finset.range b, response (fun j => |q j|) (incr - start + m * incr)) * u := by
  obtain ⟨a0, b0, b1⟩ := W.a_bounds
  have hu : 0 ≤ u := (abs_nonneg _).trans (hx 1 (by have := W.d0; omega) (W.mem (Finset.mem_Icc.2 ⟨by omega, by omega⟩)).2)
  have hn : ∀ p, 0 ≤ response (fun j => |q j|) p := response_nonneg (fun j => abs_nonneg _)
  rw [W.exact_eq]
  refine (abs_add_le _ _).trans ?_
  rw [add_mul]
  refine add_le_add ?_ ?_
  · refine (Finset.abs_sum_le_sum_abs _ _).trans ?_
    rw [Finset.sum_mul]
    refine (Finset.sum_le_sum (g := fun m : ℕ => response (fun j => |q j|) (start + m * incr) * u) (fun m hm => ?_)).trans
      (Finset.sum_le_sum_of_subset_of_nonneg (Finset.range_mono ?_) (fun m _ _ => mul_nonneg (hn _) hu))
    · rw [abs_mul]
      have := Finset.mem_range.1 hm
      obtain ⟨k1, k2⟩ := W.mem (k := -m) (Finset.mem_Icc.2 ⟨by omega, by omega⟩)
      exact mul_le_mul (response_abs _ _) (hx _ k1 k2) (abs_nonneg _) (hn _)
    · have : min ((4096 * N - start) / incr) D ≤ (4096 * N - start) / incr := min_le_left _ _
      omega
  · refine (Finset.abs_sum_le_sum_abs _ _).trans ?_
    rw [Finset.sum_mul]
    refine (Finset.sum_le_sum (g := fun m : ℕ => response (fun j => |q j|) (incr - start + m * incr) * u) (fun m hm => ?_)).trans
      (Finset.sum_le_sum_of_subset_of_nonneg (Finset.range_mono hb) (fun m _ _ => mul_nonneg (hn _) hu))
    rw [abs_mul]
    have := Finset.mem_range.1 hm
    obtain ⟨k1, k2⟩ := W.mem (k := 1 + m) (Finset.mem_Icc.2 ⟨by omega, by omega⟩)
    exact mul_le_mul (response_abs _ _) (hx _ k1 k2) (abs_nonneg _) (hn _)

end

section
variable {N inc B : ℤ} (G : Geom N inc B)
include G

theorem Geom.unity {ρ : ℚ} (hρ : 1 ≤ ρ) : sincInc inc ρ = inc ∧ rne (sincInc inc ρ * 4096) = 4096 * inc := by
  have e : sincInc inc ρ = inc := by
    unfold sincInc
    rw [min_eq_right hρ, mul_one]
    exact rq_of_rep (rep64_int (by have := G.inc1; have := G.incM; rw [abs_of_nonneg (by omega)]; omega))
  refine ⟨e, ?_⟩
  rw [e, show (inc : ℚ) * 4096 = ((4096 * inc : ℤ) : ℚ) by push_cast; ring]
  exact rne_intCast _

end

end Verif

namespace Verif.Coeffs
open Verif Spec

section
variable {rows : List (List ℤ)} {inc cnt : ℕ} {lo hi top : ℤ} {S V d M z : ℕ} (C : Checked rows inc cnt lo hi top S V d M z)
include C

theorem Checked.cnt_le : cnt ≤ rows.length * inc := by
  have := rowsOk_length _ C.ok
  have := C.length
  omega

variable {B : ℤ} (G : Geom ((cnt : ℤ) - 2) inc B)
include G

theorem Checked.taps {s : ℤ} (h : 0 ≤ s) : ((4096 * ((cnt : ℤ) - 2) - s) / (4096 * inc)).toNat + 1 ≤ rows.length := by
  have h1 : (1 : ℤ) ≤ inc := G.inc1
  have h2 : (cnt : ℤ) ≤ rows.length * inc := by exact_mod_cast C.cnt_le
  have h3 : 6 * (inc : ℤ) ≤ (cnt : ℤ) - 2 + 2 := G.n1
  have h4 : (4096 * ((cnt : ℤ) - 2) - s) / (4096 * inc) < rows.length := by
    rw [Int.ediv_lt_iff_lt_mul (by omega)]
    nlinarith
  have : 0 < rows.length := by
    by_contra h
    rw [show rows.length = 0 by omega] at h2
    omega
  omega

/-- Gain at ratios from 1 on. -/
theorem Checked.gain_up (hM : M ≤ 95 * 10 ^ 25) {b : ℚ} (hb : (top : ℚ) ≤ b * 10 ^ 27) {ρ i : ℚ} (hρ : 1 ≤ ρ) (i0 : 0 ≤ i) (i1 : i < 1) {D : ℤ} (hD : 0 ≤ D)
    {ξ : ℤ → ℚ} {u : ℚ} (hx : ∀ k, UnderFilter ((cnt : ℤ) - 2) inc ρ i D k → |ξ k| ≤ u) :
    |exactAt (tabQ rows.flatten) ((cnt : ℤ) - 2) inc ρ i D ξ| ≤ (b + rows.length / 15000000) * u := by
  have hρ' : 1 / 256 ≤ ρ := by linarith
  have W := G.window hρ' i0 i1 hD
  obtain ⟨e1, e2⟩ := G.unity hρ
  unfold UnderFilter at hx
  unfold exactAt
  rw [e2] at W hx ⊢
  rw [e1] at W hx ⊢
  have q1 : (1 : ℚ) ≤ inc := by exact_mod_cast G.inc1
  rw [show (((inc : ℕ) : ℤ) : ℚ) = (inc : ℚ) by push_cast; rfl] at *
  rw [div_self (by linarith), one_mul]
  generalize rne (r64 (i * inc) * 4096) = s at *
  have hu : 0 ≤ u := (abs_nonneg _).trans (hx 1 ⟨by omega, (W.mem (Finset.mem_Icc.2 ⟨by have := W.a_bounds; omega, by have := W.a_bounds; omega⟩)).2⟩)
  refine (W.exact_le (fun k k1 k2 => hx k ⟨k1, k2⟩) (C.taps G W.s0) (C.taps G (by have := W.s1; omega))).trans ?_
  apply mul_le_mul_of_nonneg_right _ hu
  exact (mirror_sum (lo := 0) (fun p p0 p1 => ⟨by
    unfold phaseQ
    exact add_nonneg (Finset.sum_nonneg (fun _ _ => abs_nonneg _)) (Finset.sum_nonneg (fun _ _ => abs_nonneg _)), C.mirror_abs hM hb p p0 p1⟩) W.s0 W.s1).2

/-- Response to a constant at ratios from 1 on. -/
theorem Checked.const_up (hM : M ≤ 95 * 10 ^ 25) (hz : z ≤ 13 * 10 ^ 19) {b : ℚ} (hlo : (1 - b) * 10 ^ 27 ≤ lo) (hhi : (hi : ℚ) ≤ (1 + b) * 10 ^ 27)
    {ρ i : ℚ} (hρ : 1 ≤ ρ) (i0 : 0 ≤ i) (i1 : i < 1) {D : ℤ} (hD : sincReach ((cnt : ℤ) - 2) inc 1 ≤ D)
    {ξ : ℤ → ℚ} {v : ℚ} (hx : ∀ k, UnderFilter ((cnt : ℤ) - 2) inc ρ i D k → ξ k = v) :
    |exactAt (tabQ rows.flatten) ((cnt : ℤ) - 2) inc ρ i D ξ - v| ≤ (b + rows.length / 15000000 + 1 / 3000000) * |v| := by
  have hρ' : 1 / 256 ≤ ρ := by linarith
  have hcnt : 2 ≤ cnt := by have := G.n1; have := G.inc1; omega
  have hD0 : 0 ≤ D := by have := G.reach_ge (r := 1) (by norm_num); omega
  have W := G.window hρ' i0 i1 hD0
  have hreach := G.incr_reach (r := 1) (ρ := ρ) (by norm_num) (by norm_num [p2]; linarith) hρ'
  obtain ⟨e1, e2⟩ := G.unity hρ
  unfold UnderFilter at hx
  unfold exactAt
  rw [e2] at W hx hreach ⊢
  rw [e1] at W hx ⊢
  have q1 : (1 : ℚ) ≤ inc := by exact_mod_cast G.inc1
  have z1 : (1 : ℤ) ≤ inc := G.inc1
  rw [show (((inc : ℕ) : ℤ) : ℚ) = (inc : ℚ) by push_cast; rfl] at *
  rw [div_self (by linarith), one_mul]
  generalize rne (r64 (i * inc) * 4096) = s at *
  have s0 := W.s0
  have s1 := W.s1
  have hmin : min ((4096 * ((cnt : ℤ) - 2) - s) / (4096 * inc)) D = (4096 * ((cnt : ℤ) - 2) - s) / (4096 * inc) := by
    apply min_eq_left
    have : (4096 * ((cnt : ℤ) - 2) - s) / (4096 * inc) < sincReach ((cnt : ℤ) - 2) inc 1 := by
      rw [Int.ediv_lt_iff_lt_mul (by omega)]
      nlinarith
    omega
  rw [W.exact_eq, hmin]
  obtain ⟨a0, b0, b1⟩ := W.a_bounds
  rw [hmin] at a0
  have cl : ∑ m ∈ Finset.range (((4096 * ((cnt : ℤ) - 2) - s) / (4096 * inc)).toNat + 1), response (tabQ rows.flatten) (s + m * (4096 * inc)) * ξ (-m) =
      ∑ m ∈ Finset.range (((4096 * ((cnt : ℤ) - 2) - s) / (4096 * inc)).toNat + 1), response (tabQ rows.flatten) (s + m * (4096 * inc)) * v :=
    Finset.sum_congr rfl (fun m hm => by
      have := Finset.mem_range.1 hm
      obtain ⟨k1, k2⟩ := W.mem (k := -m) (Finset.mem_Icc.2 ⟨by rw [hmin]; omega, by omega⟩)
      rw [hx _ ⟨k1, k2⟩])
  have cr : ∑ m ∈ Finset.range (((4096 * ((cnt : ℤ) - 2) - (4096 * inc - s)) / (4096 * inc)).toNat + 1), response (tabQ rows.flatten) (4096 * inc - s + m * (4096 * inc)) * ξ (1 + m) =
      ∑ m ∈ Finset.range (((4096 * ((cnt : ℤ) - 2) - (4096 * inc - s)) / (4096 * inc)).toNat + 1), response (tabQ rows.flatten) (4096 * inc - s + m * (4096 * inc)) * v :=
    Finset.sum_congr rfl (fun m hm => by
      have := Finset.mem_range.1 hm
      obtain ⟨k1, k2⟩ := W.mem (k := 1 + m) (Finset.mem_Icc.2 ⟨by rw [hmin]; omega, by omega⟩)
      rw [hx _ ⟨k1, k2⟩])
  rw [cl, cr, ← Finset.sum_mul, ← Finset.sum_mul, ← add_mul]
  have hq := C.last_le hM hz hcnt
  have past : ∀ t : ℤ, 0 ≤ t → t ≤ 4096 * inc → 4096 * ((cnt : ℤ) - 2) < t + ((((4096 * ((cnt : ℤ) - 2) - t) / (4096 * inc)).toNat + 1 : ℕ) : ℤ) * (4096 * inc) := by
    intro t t0 t1
    have g3 := G.n1
    have h1 : 0 ≤ (4096 * ((cnt : ℤ) - 2) - t) / (4096 * inc) := Int.ediv_nonneg (by omega) (by omega)
    have := Int.lt_ediv_add_one_mul_self (4096 * ((cnt : ℤ) - 2) - t) (show 0 < 4096 * (inc : ℤ) by omega)
    push_cast
    rw [Int.toNat_of_nonneg h1]
    linarith
  have tl := tail_sum (q := tabQ rows.flatten) (N := (cnt : ℤ) - 2) (incr := 4096 * inc) (fun j hj => C.beyond j hj hcnt) (by omega) (past s s0 s1) (C.taps G s0)
  have tr := tail_sum (q := tabQ rows.flatten) (N := (cnt : ℤ) - 2) (incr := 4096 * inc) (fun j hj => C.beyond j hj hcnt) (by omega)
    (past (4096 * inc - s) (by omega) (by omega)) (C.taps G (by omega))
  obtain ⟨m1, m2⟩ := mirror_sum (fun p p0 p1 => C.mirror hM hlo hhi p p0 p1) s0 s1
  rw [show ∀ a : ℚ, a * v - v = (a - 1) * v by intro a; ring, abs_mul]
  apply mul_le_mul_of_nonneg_right _ (abs_nonneg _)
  rw [_root_.abs_le] at tl tr ⊢
  constructor <;> linarith

/-- Gain at any ratio. -/
theorem Checked.gain_all (hM : M ≤ 95 * 10 ^ 25) {b : ℚ}
    (hb : 2 * (4097 / 4096 * ((S / 10 ^ 27 + cnt * (1 / 30000000)) / inc) + (V / 10 ^ 27 + cnt * (1 / 15000000))) ≤ b) (h128 : 128 ≤ inc)
    {ρ i : ℚ} (hρ : 1 / 256 ≤ ρ) (i0 : 0 ≤ i) (i1 : i < 1) {D : ℤ} (hD : 0 ≤ D)
    {ξ : ℤ → ℚ} {u : ℚ} (hx : ∀ k, UnderFilter ((cnt : ℤ) - 2) inc ρ i D k → |ξ k| ≤ u) :
    |exactAt (tabQ rows.flatten) ((cnt : ℤ) - 2) inc ρ i D ξ| ≤ b * u := by
  have hcnt : 2 ≤ cnt := by have := G.n1; have := G.inc1; omega
  have W := G.window hρ i0 i1 hD
  obtain ⟨f1, f2⟩ := G.sincInc_bounds hρ
  have hrn := abs_rne_sub_le (sincInc inc ρ * 4096)
  have hib := (G.incr_bounds hρ).1
  unfold UnderFilter at hx
  unfold exactAt
  have hu : 0 ≤ u := (abs_nonneg _).trans (hx 1 ⟨by omega, (W.mem (Finset.mem_Icc.2 ⟨by have := W.a_bounds; omega, by have := W.a_bounds; omega⟩)).2⟩)
  have key := W.exact_le (q := tabQ rows.flatten) (fun k k1 k2 => hx k ⟨k1, k2⟩) le_rfl le_rfl
  generalize exactSum (tabQ rows.flatten) ((cnt : ℤ) - 2) (rne (sincInc inc ρ * 4096)) (rne (r64 (i * sincInc inc ρ) * 4096)) D ξ = E at *
  generalize rne (r64 (i * sincInc inc ρ) * 4096) = s at *
  generalize sincInc inc ρ = fi at *
  generalize rne (fi * 4096) = c at *
  have s0 := W.s0
  have s1 := W.s1
  have q1 : (128 : ℚ) ≤ inc := by exact_mod_cast h128
  have c0 : (2048 : ℚ) ≤ c := by exact_mod_cast (by omega : (2048 : ℤ) ≤ c)
  have side : ∀ (t : ℤ) (n : ℕ), 0 ≤ t → c * ∑ m ∈ Finset.range n, response (fun j => |tabQ rows.flatten j|) (t + m * c) ≤
      4096 * (S / 10 ^ 27 + cnt * (1 / 30000000)) + c * (V / 10 ^ 27 + cnt * (1 / 15000000)) := by
    intro t n t0
    have := side_le (fun j => |tabQ rows.flatten j|) (fun j => abs_nonneg _) (C.sum_le hM)
      (fun L => (Finset.sum_le_sum (fun j _ => abs_abs_sub_abs_le _ _)).trans (C.var_le hM L)) (M := cnt)
      (fun L hL => by rw [C.beyond L (by omega) hcnt, abs_zero]) t.toNat c.toNat n
    rw [show ((t.toNat : ℕ) : ℤ) = t by omega, show ((c.toNat : ℕ) : ℤ) = c by omega, show ((c.toNat : ℕ) : ℚ) = c by
      rw [← Int.cast_natCast, show ((c.toNat : ℕ) : ℤ) = c by omega]] at this
    exact this
  have l := side s (((4096 * ((cnt : ℤ) - 2) - s) / c).toNat + 1) s0
  have r := side (c - s) (((4096 * ((cnt : ℤ) - 2) - (c - s)) / c).toNat + 1) (by omega)
  generalize hS' : (S : ℚ) / 10 ^ 27 + cnt * (1 / 30000000) = S' at *
  generalize hV' : (V : ℚ) / 10 ^ 27 + cnt * (1 / 15000000) = V' at *
  generalize ∑ m ∈ Finset.range (((4096 * ((cnt : ℤ) - 2) - s) / c).toNat + 1), response (fun j => |tabQ rows.flatten j|) (s + m * c) = Lsum at *
  generalize ∑ m ∈ Finset.range (((4096 * ((cnt : ℤ) - 2) - (c - s)) / c).toNat + 1), response (fun j => |tabQ rows.flatten j|) (c - s + m * c) = Rsum at *
  rw [show (((inc : ℕ) : ℤ) : ℚ) = (inc : ℚ) by push_cast; rfl] at *
  have V0 : 0 ≤ V' := by rw [← hV']; positivity
  have S0 : 0 ≤ S' := by rw [← hS']; positivity
  have fi0 : 0 ≤ fi := by
    have : (0 : ℚ) ≤ inc / 256 := by linarith
    linarith
  rw [abs_mul, abs_of_nonneg (div_nonneg fi0 (by linarith))]
  have h1 : fi / inc * |E| ≤ fi / inc * ((Lsum + Rsum) * u) := mul_le_mul_of_nonneg_left key (div_nonneg fi0 (by linarith))
  refine h1.trans ?_
  rw [← mul_assoc]
  apply mul_le_mul_of_nonneg_right _ hu
  refine le_trans ?_ hb
  have h2 : Lsum + Rsum ≤ 2 * (4096 * S' / c + V') := by
    rw [show 2 * (4096 * S' / c + V') = (2 * (4096 * S' + c * V')) / c by field_simp, le_div_iff₀ (by linarith)]
    linarith
  have h3 : fi * 4096 / c ≤ 4097 / 4096 := by
    rw [div_le_iff₀ (by linarith)]
    rw [_root_.abs_le] at hrn
    linarith
  calc fi / inc * (Lsum + Rsum) ≤ fi / inc * (2 * (4096 * S' / c + V')) := mul_le_mul_of_nonneg_left h2 (div_nonneg fi0 (by linarith))
    _ = 2 * ((fi * 4096 / c) * (S' / inc) + (fi / inc) * V') := by ring
    _ ≤ 2 * (4097 / 4096 * (S' / inc) + 1 * V') := by
      have a := mul_le_mul_of_nonneg_right h3 (div_nonneg S0 (show (0 : ℚ) ≤ inc by linarith))
      have b := mul_le_mul_of_nonneg_right (show fi / inc ≤ 1 by rw [div_le_one (by linarith)]; exact f2) V0
      linarith
    _ = _ := by ring

end

end Verif.Coeffs
