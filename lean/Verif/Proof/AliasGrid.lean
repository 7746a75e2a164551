import Verif.Proof.AliasFastest
import Verif.Proof.AliasMid
import Mathlib.Analysis.Real.Pi.Bounds
import Verif.Proof.SineGrid

/-! The spectra of the tables of the two smaller converters. -/

namespace Verif.Alias
open Verif.Sine Verif.Coeffs

/-- From the sums over the phases, in units of `A`, to the spectrum of the table in units of `10^27`. -/
theorem decays_table {l : List ℤ} {L A top E : ℕ} (C : Curved l L A top E) (h0 : l.getD (L + 2) 0 = 0) {N K J : ℕ} (hN : 0 < N) (hA : 0 < A) (hL : L < K * N) {Δ β : ℝ} (hΔ : 0 < Δ)
    (hJ : Real.pi / N ≤ J * Δ)
    (hg : ∀ j : ℕ, j ≤ J → ∃ m : ℝ, 0 ≤ m ∧ m ≤ 1 ∧ ∀ p ≤ N, |errCos (fun i => ((curve L l).getD i 0 : ℝ) / A) N K m (j * Δ) p| ≤ β ∧
      |errSin (fun i => ((curve L l).getD i 0 : ℝ) / A) N K m (j * Δ) p| ≤ β) :
    Decays (fun i => (l.getD i 0 : ℝ) / 10 ^ 27) (L + 1) N (N * (N * (3 / 2 * (A / 10 ^ 27 * β)) + 2 * top / 10 ^ 27 * Δ ^ 2 / 8 + E / 10 ^ 27)) (N * (N * (A / 10 ^ 27))) := by
  have A0 : (0 : ℝ) < A := by exact_mod_cast hA
  have s0 : (0 : ℝ) ≤ (A : ℝ) / 10 ^ 27 := by positivity
  refine decays_of (d := fun i => ((curve L l).getD i 0 : ℝ) / 10 ^ 27) hN (by simp only [h0]; simp) (fun n hn => curve_getD C.len n hn) (fun n hn => by simp only [C.zero n hn]; simp) hL hΔ hJ
    (fun j hj => ?_) (C.bendSum_le (by positivity) _) (C.edge_le (by positivity))
  obtain ⟨m, m0, m1, hm⟩ := hg j hj
  refine ⟨(A : ℝ) / 10 ^ 27 * m, by positivity, mul_le_of_le_one_right s0 m1, fun p hp => ?_⟩
  have e : (fun i => (A : ℝ) / 10 ^ 27 * (((curve L l).getD i 0 : ℝ) / A)) = fun i => ((curve L l).getD i 0 : ℝ) / 10 ^ 27 := by
    funext i
    field_simp
  have := err_scale s0 (hm p hp)
  rw [e] at this
  exact this

theorem Decays.mono {h : ℕ → ℝ} {L N : ℕ} {γ κ γ' κ' : ℝ} (H : Decays h L N γ κ) (hγ : γ ≤ γ') (hκ : κ ≤ κ') : Decays h L N γ' κ' := by
  intro Ω
  refine (H Ω).trans ?_
  split_ifs
  · linarith
  · linarith

theorem run_len {l : List ℤ} {A w c : ℕ} (hl : ∀ i, |l.getD i 0| ≤ (A : ℤ)) (hA : 0 < A) {inc K L B : ℕ} (hw : 126 ≤ w) (hcw : c + 1 ≤ w) (hL : inc + 1 ≤ 2 ^ L) (hB : B < 2 ^ c)
    (hH : (2 * K + 1) * 2305843009213693952 * A + 2 ^ c < 2 ^ (w - 1)) {x y : ℕ} {φ e : ℝ}
    (hy : Near (4 / 2 ^ 60) φ x y) (he1 : (17 / 8) ^ L * (3 / 200000000000000 + 2 / 2 ^ 60) ≤ e / ((K + 1) * 3)) (hge : 2 / 2 ^ 60 * ((K + 1) * 3) ≤ e) (he : e ≤ 1 / 8)
    {k a b a' b' : ℕ} {ks : List ℕ} (n : ℕ) (hn : ks.length = n) (hk : k + n ≤ 1700) (h : Near (k * (10 / 2 ^ 60)) (k * φ) a b)
    (hc : checkAll ⟨A, 2305843009213693952, w, c⟩ (packed A (Nat.pow 2 w) inc K l) L inc K B x y a' b' ks a b = true) :
    Near ((k + n : ℕ) * (10 / 2 ^ 60)) ((k + n : ℕ) * φ) a' b' ∧ ∀ j, k ≤ j → j < k + n → ∃ m : ℝ, 0 ≤ m ∧ m ≤ 1 ∧ ∀ p ≤ inc,
      |errCos (fun i => (l.getD i 0 : ℝ) / A) inc K m (j * φ) p| ≤ B / (A * 2 ^ 60) + (2 * K + 1) * e ∧
      |errSin (fun i => (l.getD i 0 : ℝ) / A) inc K m (j * φ) p| ≤ B / (A * 2 ^ 60) + (2 * K + 1) * e := by
  subst hn
  exact run_of hl hA hw hcw hL hB hH hy he1 hge he hk h hc

end Verif.Alias

namespace Verif.Fastest
open Verif.Sine Verif.Coeffs Verif.Alias

theorem base_near2 : Near (4 / 2 ^ 60) (1 / 32512) 3458764513275182070 2305878470628077105 := by
  apply near_small
  · rw [abs_of_pos (by norm_num)]; norm_num
  · rw [abs_of_pos (by norm_num : (0 : ℝ) < 1 / 32512)]
    norm_num [coord, abs_le]
  · rw [abs_of_pos (by norm_num : (0 : ℝ) < 1 / 32512)]
    norm_num [coord, abs_le]

theorem decays : Decays (fun i => (rows.flatten.getD i 0 : ℝ) / 10 ^ 27) 2462 128 (44 / 100000) (66 / 10) := by
  have hl := curved.bound_le
  have hL : 128 + 1 ≤ 2 ^ 8 := by norm_num
  have hB : Nat.mul 8700000000000000000 1152921504606846976 < 2 ^ 126 := by norm_num
  have he1 : (17 / 8 : ℝ) ^ 8 * (3 / 200000000000000 + 2 / 2 ^ 60) ≤ (1 / 1000000000) / (((20 : ℕ) + 1) * 3) := by norm_num
  obtain ⟨n1, g1⟩ := run_len hl (by norm_num) (by norm_num) (by norm_num) hL hB (by norm_num) base_near2 he1 (by norm_num) (by norm_num) (k := 0) 400 (by decide +kernel) (by norm_num) (by simpa using near_one) curves1
  obtain ⟨n2, g2⟩ := run_len hl (by norm_num) (by norm_num) (by norm_num) hL hB (by norm_num) base_near2 he1 (by norm_num) (by norm_num) (k := 400) 399 (by decide +kernel) (by norm_num) n1 curves2
  have := decays_table curved (by decide +kernel) (N := 128) (K := 20) (J := 798) (by norm_num) (by norm_num) (by norm_num) (Δ := 1 / 32512) (by norm_num)
    (by have := Real.pi_lt_d4; push_cast; linarith) (fun j hj => by
      by_cases h1 : j < 400
      · exact g1 j (by omega) (by omega)
      · exact g2 j (by omega) (by omega))
  refine this.mono ?_ ?_
  · norm_num
  · norm_num

end Verif.Fastest

namespace Verif.MidQual
open Verif.Sine Verif.Coeffs Verif.Alias

theorem base_near2 : Near (4 / 2 ^ 60) (1 / 124714) 3458764513783478034 2305852253737200491 := by
  apply near_small
  · rw [abs_of_pos (by norm_num)]; norm_num
  · rw [abs_of_pos (by norm_num : (0 : ℝ) < 1 / 124714)]
    norm_num [coord, abs_le]
  · rw [abs_of_pos (by norm_num : (0 : ℝ) < 1 / 124714)]
    norm_num [coord, abs_le]

theorem decays : Decays (fun i => (rows.flatten.getD i 0 : ℝ) / 10 ^ 27) 22436 491 (15 / 10000) (97 / 10) := by
  have hl := curved.bound_le
  have hL : 491 + 1 ≤ 2 ^ 9 := by norm_num
  have hB : Nat.mul 1130000000000000000 1152921504606846976 < 2 ^ 122 := by norm_num
  have he1 : (17 / 8 : ℝ) ^ 9 * (3 / 200000000000000 + 2 / 2 ^ 60) ≤ (2 / 1000000000) / (((46 : ℕ) + 1) * 3) := by norm_num
  obtain ⟨n1, g1⟩ := run_len hl (by norm_num) (by norm_num) (by norm_num) hL hB (by norm_num) base_near2 he1 (by norm_num) (by norm_num) (k := 0) 200 (by decide +kernel) (by norm_num) (by simpa using near_one) curves1
  obtain ⟨n2, g2⟩ := run_len hl (by norm_num) (by norm_num) (by norm_num) hL hB (by norm_num) base_near2 he1 (by norm_num) (by norm_num) (k := 200) 200 (by decide +kernel) (by norm_num) n1 curves2
  obtain ⟨n3, g3⟩ := run_len hl (by norm_num) (by norm_num) (by norm_num) hL hB (by norm_num) base_near2 he1 (by norm_num) (by norm_num) (k := 400) 200 (by decide +kernel) (by norm_num) n2 curves3
  obtain ⟨n4, g4⟩ := run_len hl (by norm_num) (by norm_num) (by norm_num) hL hB (by norm_num) base_near2 he1 (by norm_num) (by norm_num) (k := 600) 199 (by decide +kernel) (by norm_num) n3 curves4
  have := decays_table curved (by decide +kernel) (N := 491) (K := 46) (J := 798) (by norm_num) (by norm_num) (by norm_num) (Δ := 1 / 124714) (by norm_num)
    (by have := Real.pi_lt_d4; push_cast; linarith) (fun j hj => by
      by_cases h1 : j < 200
      · exact g1 j (by omega) (by omega)
      by_cases h2 : j < 400
      · exact g2 j (by omega) (by omega)
      by_cases h3 : j < 600
      · exact g3 j (by omega) (by omega)
      · exact g4 j (by omega) (by omega))
  refine this.mono ?_ ?_
  · norm_num
  · norm_num

end Verif.MidQual
