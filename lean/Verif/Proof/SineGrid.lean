import Verif.Proof.TableFastest
import Verif.Proof.TableMid
import Verif.Proof.TableFilter
import Verif.Proof.SineFastest
import Verif.Proof.SineMid2

/-! The tables of the two smaller converters on sinusoids of all frequencies up to a limit. -/

namespace Verif.Sine

/-- One run of the check, of the frequencies from `k` times the base frequency on, with the gains `ks`. -/
theorem chunk_gain {l : List ℤ} (hl : ∀ i, |l.getD i 0| ≤ 10 ^ 27) {inc K L B : ℕ} (hL : inc + 1 ≤ 2 ^ L) (hB : B < 2 ^ 136) (hK : K ≤ 46) {x y : ℕ} {φ e E : ℝ} (hE : 0 ≤ E)
    (hy : Near (4 / 2 ^ 60) φ x y) (he1 : (17 / 8) ^ L * (E + 2 / 2 ^ 60) ≤ e / ((K + 1) * 3)) (hge : 2 / 2 ^ 60 * ((K + 1) * 3) ≤ e) (he : e ≤ 1 / 8)
    {k a b a' b' : ℕ} {ks : List ℕ} (hk : ((k + ks.length : ℕ) : ℝ) * (10 / 2 ^ 60) ≤ E) (h : Near (k * (10 / 2 ^ 60)) (k * φ) a b)
    (hc : checkAll scale (packed 1000000000000000000000000000 (Nat.pow 2 161) inc K l) L inc K B x y a' b' ks a b = true) :
    Near ((k + ks.length : ℕ) * (10 / 2 ^ 60)) ((k + ks.length : ℕ) * φ) a' b' ∧ ∀ j, k ≤ j → j < k + ks.length → ks.getD (j - k) 0 ≤ 10 ^ 27 ∧ ∀ p ≤ inc,
      |errCos (fun i => (l.getD i 0 : ℝ) / 10 ^ 27) inc K ((ks.getD (j - k) 0 : ℕ) / 10 ^ 27) (j * φ) p| ≤ B / (10 ^ 27 * 2 ^ 60) + (2 * K + 1) * e ∧
      |errSin (fun i => (l.getD i 0 : ℝ) / 10 ^ 27) inc K ((ks.getD (j - k) 0 : ℕ) / 10 ^ 27) (j * φ) p| ≤ B / (10 ^ 27 * 2 ^ 60) + (2 * K + 1) * e := by
  obtain ⟨A, hA⟩ : ∃ A, A = 1000000000000000000000000000 := ⟨_, rfl⟩
  obtain ⟨O, hO⟩ : ∃ O, O = 2305843009213693952 := ⟨_, rfl⟩
  have hAr : ((A : ℕ) : ℝ) = 10 ^ 27 := by rw [hA]; norm_num
  have hAn : A = 10 ^ 27 := by rw [hA]; norm_num
  have hAz : ((A : ℕ) : ℤ) = 10 ^ 27 := by rw [hA]; norm_num
  have hOr : ((O : ℕ) : ℝ) = 2 ^ 61 := by rw [hO]; norm_num
  have hH : (2 * K + 1) * O * A + 2 ^ 136 < 2 ^ (161 - 1) := by
    have h1 : (2 * K + 1) * O * A ≤ (2 * 46 + 1) * O * A := by gcongr
    refine lt_of_le_of_lt (Nat.add_le_add_right h1 _) ?_
    rw [hA, hO]; norm_num
  unfold scale at hc
  rw [← hA, ← hO] at hc
  have g : 2 * (4 / 2 ^ 60 : ℝ) + 2 / 2 ^ 60 = 10 / 2 ^ 60 := by norm_num
  obtain ⟨r1, r2⟩ := checkAll_sound (fun i => by rw [hAz]; exact hl i) (by rw [hA]; norm_num) hOr (show 2 ^ 161 = Nat.pow 2 161 from rfl) (by norm_num) hB hH (by norm_num) hL hy (by norm_num)
    hE he1 hge he ks a b _ _ h (by rw [g, ← add_mul]; push_cast at hk; exact hk) hc
  rw [g, ← add_mul, ← add_mul] at r1
  refine ⟨by push_cast; exact r1, fun j h1 h2 => ?_⟩
  obtain ⟨r3, r4⟩ := r2 (j - k) (by omega)
  refine ⟨by rw [← hAn]; exact r3, fun p hp => ?_⟩
  have := r4 p hp
  rw [← add_mul, Nat.cast_sub h1, add_sub_cancel, hAr] at this
  exact this

/-- The same with all gains 1. -/
theorem chunk {l : List ℤ} (hl : ∀ i, |l.getD i 0| ≤ 10 ^ 27) {inc K L B : ℕ} (hL : inc + 1 ≤ 2 ^ L) (hB : B < 2 ^ 136) (hK : K ≤ 46) {x y : ℕ} {φ e : ℝ}
    (hy : Near (4 / 2 ^ 60) φ x y) (he1 : (17 / 8) ^ L * (3 / 200000000000000 + 2 / 2 ^ 60) ≤ e / ((K + 1) * 3)) (hge : 2 / 2 ^ 60 * ((K + 1) * 3) ≤ e) (he : e ≤ 1 / 8)
    {k n a b a' b' : ℕ} (hk : k + n ≤ 1700) (h : Near (k * (10 / 2 ^ 60)) (k * φ) a b)
    (hc : checkAll scale (packed 1000000000000000000000000000 (Nat.pow 2 161) inc K l) L inc K B x y a' b' (List.replicate n 1000000000000000000000000000) a b = true) :
    Near ((k + n : ℕ) * (10 / 2 ^ 60)) ((k + n : ℕ) * φ) a' b' ∧ ∀ j, k ≤ j → j < k + n → ∀ p ≤ inc,
      |errCos (fun i => (l.getD i 0 : ℝ) / 10 ^ 27) inc K 1 (j * φ) p| ≤ B / (10 ^ 27 * 2 ^ 60) + (2 * K + 1) * e ∧
      |errSin (fun i => (l.getD i 0 : ℝ) / 10 ^ 27) inc K 1 (j * φ) p| ≤ B / (10 ^ 27 * 2 ^ 60) + (2 * K + 1) * e := by
  have hkn : ((k + n : ℕ) : ℝ) ≤ 1700 := by exact_mod_cast hk
  obtain ⟨r1, r2⟩ := chunk_gain hl hL hB hK (by norm_num) hy he1 hge he (by rw [List.length_replicate]; norm_num at hkn ⊢; linarith) h hc
  rw [List.length_replicate] at r1 r2
  refine ⟨r1, fun j h1 h2 p hp => ?_⟩
  have := (r2 j h1 h2).2 p hp
  rw [List.getD_replicate _ (by omega), show (((1000000000000000000000000000 : ℕ) : ℝ)) / 10 ^ 27 = 1 by norm_num] at this
  exact this

end Verif.Sine

namespace Verif.Fastest
open Verif.Sine Verif.Coeffs

theorem rows_length : rows.length = 20 := by decide +kernel

theorem base_near : Near (4 / 2 ^ 60) (1 / 32768) 3458764513283670016 2305878193585777323 := by
  apply near_small
  · rw [abs_of_pos (by norm_num)]; norm_num
  · rw [abs_of_pos (by norm_num : (0 : ℝ) < 1 / 32768)]
    norm_num [coord, abs_le]
  · rw [abs_of_pos (by norm_num : (0 : ℝ) < 1 / 32768)]
    norm_num [coord, abs_le]

/-- Below 0.63 of the Nyquist frequency the table is within 5.7 hundred-thousandths of the ideal interpolation. -/
theorem wave_near {ω : ℝ} (h0 : 0 ≤ ω) (h2 : ω ≤ 2) {p : ℕ} (hp : p ≤ 128) (ψ : ℝ) :
    |wave (fun i => (rows.flatten.getD i 0 : ℝ) / 10 ^ 27) 128 rows.length (ω / (128 : ℕ)) ψ p - Real.cos ψ| ≤ 57 / 1000000 := by
  have hl : ∀ i, |rows.flatten.getD i 0| ≤ 10 ^ 27 := fun i => (checked.bound (by norm_num) i).trans (by norm_num)
  obtain ⟨-, g⟩ := chunk hl (inc := 128) (K := 20) (e := 1 / 1000000000) (by norm_num) (by norm_num) (by norm_num) base_near (by norm_num) (by norm_num) (by norm_num)
    (k := 0) (by norm_num) (by simpa using near_one) sines
  have hD : ∀ p ≤ 128, moment (fun i => (rows.flatten.getD i 0 : ℝ) / 10 ^ 27) 128 20 p ≤ 237200 := fun p hp => by
    have := bent.moment_le (A := 10 ^ 27) p hp
    rw [rows_length, show ((10 ^ 27 : ℕ) : ℝ) = 10 ^ 27 by norm_num] at this
    refine this.trans ?_
    norm_num
  rw [rows_length]
  have := wave_all (κ := fun _ => 1) (J := 512) (Δ := 1 / 32768) (by norm_num) (fun j hj => g j (Nat.zero_le _) (by omega)) hD (by positivity) (by push_cast; linarith) ψ hp (α := ω / (128 : ℕ))
  rw [gainAt_const, one_mul] at this
  refine this.trans ?_
  norm_num

end Verif.Fastest

namespace Verif.MidQual
open Verif.Sine Verif.Coeffs

theorem rows_length : rows.length = 46 := by decide +kernel

theorem base_near : Near (4 / 2 ^ 60) (1 / 314240) 3458764513814703160 2305846678133960643 := by
  apply near_small
  · rw [abs_of_pos (by norm_num)]; norm_num
  · rw [abs_of_pos (by norm_num : (0 : ℝ) < 1 / 314240)]
    norm_num [coord, abs_le]
  · rw [abs_of_pos (by norm_num : (0 : ℝ) < 1 / 314240)]
    norm_num [coord, abs_le]

theorem grid_all : Near ((1665 : ℕ) * (10 / 2 ^ 60)) ((1665 : ℕ) * (1 / 314240)) 3458748330252739462 2311951732874850154 ∧ ∀ j : ℕ, j ≤ 1664 → ∀ p ≤ 491,
    |errCos (fun i => (rows.flatten.getD i 0 : ℝ) / 10 ^ 27) 491 46 1 (j * (1 / 314240)) p| ≤ 17 / 10000000 ∧
    |errSin (fun i => (rows.flatten.getD i 0 : ℝ) / 10 ^ 27) 491 46 1 (j * (1 / 314240)) p| ≤ 17 / 10000000 := by
  have hl : ∀ i, |rows.flatten.getD i 0| ≤ 10 ^ 27 := fun i => (checked.bound (by norm_num) i).trans (by norm_num)
  have hL : 491 + 1 ≤ 2 ^ 9 := by norm_num
  have hB : Nat.mul 1500000000000000000000 1152921504606846976 < 2 ^ 136 := by norm_num
  have he1 : (17 / 8 : ℝ) ^ 9 * (3 / 200000000000000 + 2 / 2 ^ 60) ≤ (2 / 1000000000) / (((46 : ℕ) + 1) * 3) := by norm_num
  obtain ⟨n1, g1⟩ := chunk hl hL hB (by norm_num) base_near he1 (by norm_num) (by norm_num) (k := 0) (by norm_num) (by simpa using near_one) sines1
  obtain ⟨n2, g2⟩ := chunk hl hL hB (by norm_num) base_near he1 (by norm_num) (by norm_num) (k := 209) (by norm_num) n1 sines2
  obtain ⟨n3, g3⟩ := chunk hl hL hB (by norm_num) base_near he1 (by norm_num) (by norm_num) (k := 417) (by norm_num) n2 sines3
  obtain ⟨n4, g4⟩ := chunk hl hL hB (by norm_num) base_near he1 (by norm_num) (by norm_num) (k := 625) (by norm_num) n3 sines4
  obtain ⟨n5, g5⟩ := chunk hl hL hB (by norm_num) base_near he1 (by norm_num) (by norm_num) (k := 833) (by norm_num) n4 sines5
  obtain ⟨n6, g6⟩ := chunk hl hL hB (by norm_num) base_near he1 (by norm_num) (by norm_num) (k := 1041) (by norm_num) n5 sines6
  obtain ⟨n7, g7⟩ := chunk hl hL hB (by norm_num) base_near he1 (by norm_num) (by norm_num) (k := 1249) (by norm_num) n6 sines7
  obtain ⟨n8, g8⟩ := chunk hl hL hB (by norm_num) base_near he1 (by norm_num) (by norm_num) (k := 1457) (by norm_num) n7 sines8
  have hb : ((Nat.mul 1500000000000000000000 1152921504606846976 : ℕ) : ℝ) / (10 ^ 27 * 2 ^ 60) + (2 * (46 : ℕ) + 1) * (2 / 1000000000) ≤ 17 / 10000000 := by norm_num
  refine ⟨n8, ?_⟩
  intro j hj p hp
  by_cases h1 : j < 209
  · exact ⟨(g1 j (by omega) (by omega) p hp).1.trans hb, (g1 j (by omega) (by omega) p hp).2.trans hb⟩
  by_cases h2 : j < 417
  · exact ⟨(g2 j (by omega) (by omega) p hp).1.trans hb, (g2 j (by omega) (by omega) p hp).2.trans hb⟩
  by_cases h3 : j < 625
  · exact ⟨(g3 j (by omega) (by omega) p hp).1.trans hb, (g3 j (by omega) (by omega) p hp).2.trans hb⟩
  by_cases h4 : j < 833
  · exact ⟨(g4 j (by omega) (by omega) p hp).1.trans hb, (g4 j (by omega) (by omega) p hp).2.trans hb⟩
  by_cases h5 : j < 1041
  · exact ⟨(g5 j (by omega) (by omega) p hp).1.trans hb, (g5 j (by omega) (by omega) p hp).2.trans hb⟩
  by_cases h6 : j < 1249
  · exact ⟨(g6 j (by omega) (by omega) p hp).1.trans hb, (g6 j (by omega) (by omega) p hp).2.trans hb⟩
  by_cases h7 : j < 1457
  · exact ⟨(g7 j (by omega) (by omega) p hp).1.trans hb, (g7 j (by omega) (by omega) p hp).2.trans hb⟩
  exact ⟨(g8 j (by omega) (by omega) p hp).1.trans hb, (g8 j (by omega) (by omega) p hp).2.trans hb⟩

theorem grid : ∀ j : ℕ, j ≤ 1664 → ∀ p ≤ 491,
    |errCos (fun i => (rows.flatten.getD i 0 : ℝ) / 10 ^ 27) 491 46 1 (j * (1 / 314240)) p| ≤ 17 / 10000000 ∧
    |errSin (fun i => (rows.flatten.getD i 0 : ℝ) / 10 ^ 27) 491 46 1 (j * (1 / 314240)) p| ≤ 17 / 10000000 := grid_all.2

theorem grid_end : Near ((1665 : ℕ) * (10 / 2 ^ 60)) ((1665 : ℕ) * (1 / 314240)) 3458748330252739462 2311951732874850154 := grid_all.1

/-- Below 0.82 of the Nyquist frequency the table is within 2.41 hundred-thousandths of the ideal interpolation. -/
theorem wave_near {ω : ℝ} (h0 : 0 ≤ ω) (h2 : ω ≤ 13 / 5) {p : ℕ} (hp : p ≤ 491) (ψ : ℝ) :
    |wave (fun i => (rows.flatten.getD i 0 : ℝ) / 10 ^ 27) 491 rows.length (ω / (491 : ℕ)) ψ p - Real.cos ψ| ≤ 241 / 10000000 := by
  have hD : ∀ p ≤ 491, moment (fun i => (rows.flatten.getD i 0 : ℝ) / 10 ^ 27) 491 46 p ≤ 16273000 := fun p hp => by
    have := bent.moment_le (A := 10 ^ 27) p hp
    rw [rows_length, show ((10 ^ 27 : ℕ) : ℝ) = 10 ^ 27 by norm_num] at this
    refine this.trans ?_
    norm_num
  rw [rows_length]
  have := wave_all (κ := fun _ => 1) (J := 1664) (Δ := 1 / 314240) (by norm_num) grid hD (by positivity) (by push_cast; linarith) ψ hp (α := ω / (491 : ℕ))
  rw [gainAt_const, one_mul] at this
  refine this.trans ?_
  norm_num

end Verif.MidQual
