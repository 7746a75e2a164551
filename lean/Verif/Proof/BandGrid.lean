import Verif.Proof.SineGrid
import Verif.Proof.BandFastest
import Verif.Proof.BandMid
import Verif.Proof.CloseFastest
import Verif.Proof.CloseMid

/-! The tables of the two smaller converters on sinusoids of all frequencies up to half the sampling rate. -/

namespace Verif.Sine

theorem gainAt_mono {κ : ℕ → ℝ} (h : Monotone κ) {x y : ℝ} (x0 : 0 ≤ x) (hxy : x ≤ y) : gainAt κ x ≤ gainAt κ y := by
  have f0 := Nat.floor_le x0
  have f1 := Nat.lt_floor_add_one x
  have f2 := Nat.floor_le (x0.trans hxy)
  have f3 := Nat.lt_floor_add_one y
  have hf := Nat.floor_mono hxy
  unfold gainAt
  rcases hf.eq_or_lt with e | l
  · rw [← e]
    have := h (Nat.le_succ ⌊x⌋₊)
    nlinarith
  · have k1 := h (Nat.succ_le_of_lt l)
    have k2 := h (Nat.le_succ ⌊x⌋₊)
    have k3 := h (Nat.le_succ ⌊y⌋₊)
    rw [Nat.succ_eq_add_one] at k1 k2 k3
    nlinarith

theorem gainAt_line (ℓ : ℝ) (κ : ℕ → ℝ) (x : ℝ) : gainAt (fun j => ℓ * j + κ j) x = ℓ * x + gainAt κ x := by
  unfold gainAt
  push_cast
  ring

theorem gainAt_neg (κ : ℕ → ℝ) (x : ℝ) : gainAt (fun j => -κ j) x = -gainAt κ x := by
  unfold gainAt
  ring

/-- Gains that differ by at most `ℓ` from one to the next. -/
theorem gainAt_lip {κ : ℕ → ℝ} {ℓ : ℝ} (h : ∀ j, |κ (j + 1) - κ j| ≤ ℓ) {x y : ℝ} (x0 : 0 ≤ x) (y0 : 0 ≤ y) : |gainAt κ x - gainAt κ y| ≤ ℓ * |x - y| := by
  have up : ∀ x y : ℝ, 0 ≤ x → x ≤ y → |gainAt κ x - gainAt κ y| ≤ ℓ * (y - x) := by
    intro x y x0 hxy
    have m1 := gainAt_mono (κ := fun j => ℓ * j + κ j) (monotone_nat_of_le_succ (fun j => by
      have := (_root_.abs_le.1 (h j)).1
      push_cast
      linarith)) x0 hxy
    have m2 := gainAt_mono (κ := fun j => ℓ * j + -κ j) (monotone_nat_of_le_succ (fun j => by
      have := (_root_.abs_le.1 (h j)).2
      push_cast
      linarith)) x0 hxy
    rw [gainAt_line, gainAt_line] at m1 m2
    rw [gainAt_neg, gainAt_neg] at m2
    rw [_root_.abs_le]
    constructor <;> linarith
  rcases le_total x y with l | l
  · rw [abs_sub_comm x y, abs_of_nonneg (sub_nonneg.2 l)]
    exact up x y x0 l
  · rw [abs_sub_comm, abs_of_nonneg (sub_nonneg.2 l)]
    exact up y x y0 l

end Verif.Sine

namespace Verif.Fastest
open Verif.Sine Verif.Coeffs

/-- The gain at `j / 256` radians per frame, in units of `10^-6`. -/
def gainUnits (j : ℕ) : ℕ := if j ≤ 512 then 1000000 else if j ≤ 644 then fallingGains.getD (j - 513) 0 else closingGains.getD (j - 645) 0

/-- The gain at `j / 256` radians per frame. -/
noncomputable def gains (j : ℕ) : ℝ := (gainUnits j : ℝ) / 1000000

theorem gainUnits_le : ∀ j, gainUnits j ≤ 1000000 := by
  have h1 : ∀ κ ∈ fallingGains, κ ≤ 1000000 := by decide +kernel
  have h2 : ∀ κ ∈ closingGains, κ ≤ 1000000 := by decide +kernel
  have hd : ∀ (l : List ℕ) (i : ℕ), (∀ κ ∈ l, κ ≤ 1000000) → l.getD i 0 ≤ 1000000 := by
    intro l i h
    by_cases hi : i < l.length
    · rw [List.getD_eq_getElem _ _ hi]
      exact h _ (List.getElem_mem _)
    · rw [List.getD_eq_default _ _ (by omega)]
      norm_num
  intro j
  unfold gainUnits
  split
  · exact le_rfl
  · split
    · exact hd _ _ h1
    · exact hd _ _ h2

theorem gainUnits_zero : ∀ j, 805 ≤ j → gainUnits j = 0 := by
  have h : closingGains.getD 160 0 = 0 := by decide +kernel
  intro j hj
  unfold gainUnits
  rw [if_neg (by omega), if_neg (by omega)]
  rcases eq_or_lt_of_le hj with rfl | hj
  · exact h
  · exact List.getD_eq_default _ _ (by rw [closingGains_length]; omega)

theorem gainUnits_step : ∀ j, gainUnits j ≤ gainUnits (j + 1) + 9318 ∧ gainUnits (j + 1) ≤ gainUnits j + 9318 := by
  have h : ∀ i < 293, gainUnits (512 + i) ≤ gainUnits (512 + i + 1) + 9318 ∧ gainUnits (512 + i + 1) ≤ gainUnits (512 + i) + 9318 := by decide +kernel
  intro j
  by_cases h1 : j < 512
  · unfold gainUnits
    rw [if_pos (by omega), if_pos (by omega)]
    norm_num
  · by_cases h2 : j < 805
    · have := h (j - 512) (by omega)
      rwa [show 512 + (j - 512) = j by omega] at this
    · rw [gainUnits_zero j (by omega), gainUnits_zero (j + 1) (by omega)]
      norm_num

theorem gains_all : ∀ j, 0 ≤ gains j ∧ gains j ≤ 1 := by
  intro j
  have : ((gainUnits j : ℕ) : ℝ) ≤ (1000000 : ℕ) := by exact_mod_cast gainUnits_le j
  push_cast at this
  unfold gains
  constructor
  · positivity
  · linarith

theorem gains_mem : ∀ j ≤ 644, (70795 / 100000 : ℝ) ≤ gains j ∧ gains j ≤ 1 := by
  intro j hj
  refine ⟨?_, (gains_all j).2⟩
  have : 707950 ≤ gainUnits j := by
    unfold gainUnits
    rw [if_pos hj]
    split
    · norm_num
    · rw [List.getD_eq_getElem _ _ (by rw [fallingGains_length]; omega)]
      exact fallingGains_ge _ (List.getElem_mem _)
  have : ((707950 : ℕ) : ℝ) ≤ gainUnits j := by exact_mod_cast this
  push_cast at this
  unfold gains
  linarith

theorem gains_step : ∀ j, |gains (j + 1) - gains j| ≤ 9318 / 1000000 := by
  intro j
  obtain ⟨h1, h2⟩ := gainUnits_step j
  have h1 : ((gainUnits j : ℕ) : ℝ) ≤ gainUnits (j + 1) + (9318 : ℕ) := by exact_mod_cast h1
  have h2 : ((gainUnits (j + 1) : ℕ) : ℝ) ≤ gainUnits j + (9318 : ℕ) := by exact_mod_cast h2
  push_cast at h1 h2
  unfold gains
  rw [_root_.abs_le]
  constructor <;> linarith

theorem gains_unit (j : ℕ) (hj : j ≤ 512) : gains j = 1 := by
  unfold gains gainUnits
  rw [if_pos hj]
  norm_num

theorem gains_list {l : List ℕ} {i j : ℕ} (hi : i < l.length) (h : gainUnits j = l.getD i 0) :
    (((List.map (Nat.mul 1000000000000000000000) l).getD i 0 : ℕ) : ℝ) / 10 ^ 27 = gains j := by
  unfold gains
  rw [h, List.getD_eq_getElem _ _ (by rw [List.length_map]; exact hi), List.getD_eq_getElem _ _ hi, List.getElem_map]
  generalize l[i]'_ = v
  rw [show Nat.mul 1000000000000000000000 v = 1000000000000000000000 * v from rfl]
  push_cast
  ring

theorem grid_gains : ∀ j : ℕ, j ≤ 805 → ∀ p ≤ 128,
    |errCos (fun i => (rows.flatten.getD i 0 : ℝ) / 10 ^ 27) 128 20 (gains j) (j * (1 / 32768)) p| ≤ 1405 / 100000000 ∧
    |errSin (fun i => (rows.flatten.getD i 0 : ℝ) / 10 ^ 27) 128 20 (gains j) (j * (1 / 32768)) p| ≤ 1405 / 100000000 := by
  have hl : ∀ i, |rows.flatten.getD i 0| ≤ 10 ^ 27 := fun i => (checked.bound (by norm_num) i).trans (by norm_num)
  obtain ⟨n1, g1⟩ := chunk hl (inc := 128) (K := 20) (e := 1 / 1000000000) (by norm_num) (by norm_num) (by norm_num) base_near (by norm_num) (by norm_num) (by norm_num)
    (k := 0) (by norm_num) (by simpa using near_one) sines
  rw [Nat.zero_add] at n1
  obtain ⟨n2, g2⟩ := chunk_gain hl (inc := 128) (ks := fallingGains.map (Nat.mul 1000000000000000000000)) (L := 8) (B := Nat.mul 14000000000000000000000 1152921504606846976) (K := 20) (e := 1 / 1000000000) (E := 3 / 200000000000000) (by norm_num) (by norm_num) (by norm_num) (by norm_num) base_near (by norm_num) (by norm_num) (by norm_num)
    (k := 513) (by rw [List.length_map, fallingGains_length]; norm_num) n1 falling
  have e2 : 513 + (fallingGains.map (Nat.mul 1000000000000000000000)).length = 645 := by rw [List.length_map, fallingGains_length]
  generalize 513 + (fallingGains.map (Nat.mul 1000000000000000000000)).length = k2 at n2 e2
  subst e2
  obtain ⟨-, g3⟩ := chunk_gain hl (inc := 128) (ks := closingGains.map (Nat.mul 1000000000000000000000)) (L := 8) (B := Nat.mul 14000000000000000000000 1152921504606846976) (K := 20) (e := 1 / 1000000000) (E := 3 / 200000000000000) (by norm_num) (by norm_num) (by norm_num) (by norm_num) base_near (by norm_num) (by norm_num) (by norm_num)
    (k := 645) (by rw [List.length_map, closingGains_length]; norm_num) n2 closing
  intro j hj p hp
  by_cases h1 : j ≤ 512
  · rw [gains_unit j h1]
    have := g1 j (Nat.zero_le _) (by omega) p hp
    refine ⟨this.1.trans ?_, this.2.trans ?_⟩ <;> norm_num
  · by_cases h2 : j ≤ 644
    · have := (g2 j (by omega) (by rw [List.length_map, fallingGains_length]; omega)).2 p hp
      rw [gains_list (j := j) (by rw [fallingGains_length]; omega) (by unfold gainUnits; rw [if_neg h1, if_pos h2])] at this
      refine ⟨this.1.trans ?_, this.2.trans ?_⟩ <;> norm_num
    · have := (g3 j (by omega) (by rw [List.length_map, closingGains_length]; omega)).2 p hp
      rw [gains_list (j := j) (by rw [closingGains_length]; omega) (by unfold gainUnits; rw [if_neg h1, if_neg h2])] at this
      refine ⟨this.1.trans ?_, this.2.trans ?_⟩ <;> norm_num

/-- What the converter makes of the amplitude of a tone of `ω` radians per frame. -/
noncomputable def gain (ω : ℝ) : ℝ := gainAt gains (256 * ω)

theorem gain_mem {ω : ℝ} (h0 : 0 ≤ ω) (h2 : ω ≤ 644 / 256) : (70795 / 100000 : ℝ) ≤ gain ω ∧ gain ω ≤ 1 :=
  gainAt_mem gains_mem (by positivity) (by push_cast; linarith)

theorem gain_one {ω : ℝ} (h0 : 0 ≤ ω) (h2 : ω ≤ 2) : gain ω = 1 := by
  have := gainAt_mem (κ := gains) (a := 1) (b := 1) (J := 512) (fun j hj => by rw [gains_unit j hj]; norm_num) (x := 256 * ω) (by positivity) (by push_cast; linarith)
  exact le_antisymm this.2 this.1

theorem gain_all {ω : ℝ} (h0 : 0 ≤ ω) : 0 ≤ gain ω ∧ gain ω ≤ 1 :=
  gainAt_mem (J := ⌈256 * ω⌉₊) (fun j _ => gains_all j) (by positivity) (Nat.le_ceil _)

theorem gain_zero {ω : ℝ} (h : 805 / 256 ≤ ω) : gain ω = 0 := by
  have h1 : (805 : ℕ) ≤ ⌊256 * ω⌋₊ := Nat.le_floor (by push_cast; linarith)
  unfold gain gainAt gains
  rw [gainUnits_zero _ h1, gainUnits_zero _ (by omega)]
  simp

theorem gain_lip {a b : ℝ} (a0 : 0 ≤ a) (b0 : 0 ≤ b) : |gain a - gain b| ≤ (9318 * 256 / 1000000) * |a - b| := by
  have := gainAt_lip gains_step (x := 256 * a) (y := 256 * b) (by positivity) (by positivity)
  rw [← mul_sub, abs_mul, abs_of_nonneg (show (0 : ℝ) ≤ 256 by norm_num)] at this
  unfold gain
  refine this.trans (le_of_eq ?_)
  ring

theorem wave_gain {ω : ℝ} (h0 : 0 ≤ ω) (h2 : ω ≤ 805 / 256) {p : ℕ} (hp : p ≤ 128) (ψ : ℝ) :
    |wave (fun i => (rows.flatten.getD i 0 : ℝ) / 10 ^ 27) 128 rows.length (ω / (128 : ℕ)) ψ p - gain ω * Real.cos ψ| ≤ 57 / 1000000 := by
  have hD : ∀ p ≤ 128, moment (fun i => (rows.flatten.getD i 0 : ℝ) / 10 ^ 27) 128 20 p ≤ 237200 := fun p hp => by
    have := bent.moment_le (A := 10 ^ 27) p hp
    rw [rows_length, show ((10 ^ 27 : ℕ) : ℝ) = 10 ^ 27 by norm_num] at this
    refine this.trans ?_
    norm_num
  rw [rows_length]
  have := wave_all (κ := gains) (J := 805) (Δ := 1 / 32768) (by norm_num) grid_gains hD (by positivity) (by push_cast; linarith) ψ hp (α := ω / (128 : ℕ))
  rw [show ω / (128 : ℕ) / (1 / 32768) = 256 * ω by push_cast; ring] at this
  refine this.trans ?_
  norm_num

end Verif.Fastest

namespace Verif.MidQual
open Verif.Sine Verif.Coeffs

/-- The gain at `j / 640` radians per frame, in units of `10^-7`. -/
def gainUnits (j : ℕ) : ℕ := if j ≤ 1664 then 10000000 else if j ≤ 1810 then fallingGains.getD (j - 1665) 0 else closingGains.getD (j - 1811) 0

/-- The gain at `j / 640` radians per frame. -/
noncomputable def gains (j : ℕ) : ℝ := (gainUnits j : ℝ) / 10000000

theorem gainUnits_le : ∀ j, gainUnits j ≤ 10000000 := by
  have h1 : ∀ κ ∈ fallingGains, κ ≤ 10000000 := by decide +kernel
  have h2 : ∀ κ ∈ closingGains, κ ≤ 10000000 := by decide +kernel
  have hd : ∀ (l : List ℕ) (i : ℕ), (∀ κ ∈ l, κ ≤ 10000000) → l.getD i 0 ≤ 10000000 := by
    intro l i h
    by_cases hi : i < l.length
    · rw [List.getD_eq_getElem _ _ hi]
      exact h _ (List.getElem_mem _)
    · rw [List.getD_eq_default _ _ (by omega)]
      norm_num
  intro j
  unfold gainUnits
  split
  · exact le_rfl
  · split
    · exact hd _ _ h1
    · exact hd _ _ h2

theorem gainUnits_zero : ∀ j, 2012 ≤ j → gainUnits j = 0 := by
  intro j hj
  unfold gainUnits
  rw [if_neg (by omega), if_neg (by omega)]
  exact List.getD_eq_default _ _ (by rw [closingGains_length]; omega)

theorem gainUnits_step : ∀ j, gainUnits j ≤ gainUnits (j + 1) + 80520 ∧ gainUnits (j + 1) ≤ gainUnits j + 80520 := by
  have h : ∀ i < 348, gainUnits (1664 + i) ≤ gainUnits (1664 + i + 1) + 80520 ∧ gainUnits (1664 + i + 1) ≤ gainUnits (1664 + i) + 80520 := by decide +kernel
  intro j
  by_cases h1 : j < 1664
  · unfold gainUnits
    rw [if_pos (by omega), if_pos (by omega)]
    norm_num
  · by_cases h2 : j < 2012
    · have := h (j - 1664) (by omega)
      rwa [show 1664 + (j - 1664) = j by omega] at this
    · rw [gainUnits_zero j (by omega), gainUnits_zero (j + 1) (by omega)]
      norm_num

theorem gains_all : ∀ j, 0 ≤ gains j ∧ gains j ≤ 1 := by
  intro j
  have : ((gainUnits j : ℕ) : ℝ) ≤ (10000000 : ℕ) := by exact_mod_cast gainUnits_le j
  push_cast at this
  unfold gains
  constructor
  · positivity
  · linarith

theorem gains_mem : ∀ j ≤ 1810, (70795 / 100000 : ℝ) ≤ gains j ∧ gains j ≤ 1 := by
  intro j hj
  refine ⟨?_, (gains_all j).2⟩
  have : 7079500 ≤ gainUnits j := by
    unfold gainUnits
    rw [if_pos hj]
    split
    · norm_num
    · rw [List.getD_eq_getElem _ _ (by rw [fallingGains_length]; omega)]
      exact fallingGains_ge _ (List.getElem_mem _)
  have : ((7079500 : ℕ) : ℝ) ≤ gainUnits j := by exact_mod_cast this
  push_cast at this
  unfold gains
  linarith

theorem gains_step : ∀ j, |gains (j + 1) - gains j| ≤ 80520 / 10000000 := by
  intro j
  obtain ⟨h1, h2⟩ := gainUnits_step j
  have h1 : ((gainUnits j : ℕ) : ℝ) ≤ gainUnits (j + 1) + (80520 : ℕ) := by exact_mod_cast h1
  have h2 : ((gainUnits (j + 1) : ℕ) : ℝ) ≤ gainUnits j + (80520 : ℕ) := by exact_mod_cast h2
  push_cast at h1 h2
  unfold gains
  rw [_root_.abs_le]
  constructor <;> linarith

theorem gains_unit (j : ℕ) (hj : j ≤ 1664) : gains j = 1 := by
  unfold gains gainUnits
  rw [if_pos hj]
  norm_num

theorem gains_list {l : List ℕ} {i j : ℕ} (hi : i < l.length) (h : gainUnits j = l.getD i 0) :
    (((List.map (Nat.mul 100000000000000000000) l).getD i 0 : ℕ) : ℝ) / 10 ^ 27 = gains j := by
  unfold gains
  rw [h, List.getD_eq_getElem _ _ (by rw [List.length_map]; exact hi), List.getD_eq_getElem _ _ hi, List.getElem_map]
  generalize l[i]'_ = v
  rw [show Nat.mul 100000000000000000000 v = 100000000000000000000 * v from rfl]
  push_cast
  ring

theorem grid_gains : ∀ j : ℕ, j ≤ 2011 → ∀ p ≤ 491,
    |errCos (fun i => (rows.flatten.getD i 0 : ℝ) / 10 ^ 27) 491 46 (gains j) (j * (1 / 314240)) p| ≤ (if j ≤ 1810 then 18 else 303) / 10000000 ∧
    |errSin (fun i => (rows.flatten.getD i 0 : ℝ) / 10 ^ 27) 491 46 (gains j) (j * (1 / 314240)) p| ≤ (if j ≤ 1810 then 18 else 303) / 10000000 := by
  have hl : ∀ i, |rows.flatten.getD i 0| ≤ 10 ^ 27 := fun i => (checked.bound (by norm_num) i).trans (by norm_num)
  obtain ⟨n2, g2⟩ := chunk_gain hl (inc := 491) (ks := fallingGains.map (Nat.mul 100000000000000000000)) (L := 9) (B := Nat.mul 1500000000000000000000 1152921504606846976) (K := 46) (e := 3 / 1000000000) (E := 4 / 200000000000000) (by norm_num) (by norm_num) (by norm_num) (by norm_num) base_near (by norm_num) (by norm_num) (by norm_num)
    (k := 1665) (by rw [List.length_map, fallingGains_length]; norm_num) grid_end falling
  have e2 : 1665 + (fallingGains.map (Nat.mul 100000000000000000000)).length = 1811 := by rw [List.length_map, fallingGains_length]
  generalize 1665 + (fallingGains.map (Nat.mul 100000000000000000000)).length = k2 at n2 e2
  subst e2
  obtain ⟨-, g3⟩ := chunk_gain hl (inc := 491) (ks := closingGains.map (Nat.mul 100000000000000000000)) (L := 9) (B := Nat.mul 30000000000000000000000 1152921504606846976) (K := 46) (e := 3 / 1000000000) (E := 4 / 200000000000000) (by norm_num) (by norm_num) (by norm_num) (by norm_num) base_near (by norm_num) (by norm_num) (by norm_num)
    (k := 1811) (by rw [List.length_map, closingGains_length]; norm_num) n2 closing
  intro j hj p hp
  by_cases h1 : j ≤ 1664
  · rw [gains_unit j h1, if_pos (by omega)]
    have := grid j h1 p hp
    refine ⟨this.1.trans ?_, this.2.trans ?_⟩ <;> norm_num
  · by_cases h2 : j ≤ 1810
    · have := (g2 j (by omega) (by rw [List.length_map, fallingGains_length]; omega)).2 p hp
      rw [gains_list (j := j) (by rw [fallingGains_length]; omega) (by unfold gainUnits; rw [if_neg h1, if_pos h2])] at this
      rw [if_pos h2]
      refine ⟨this.1.trans ?_, this.2.trans ?_⟩ <;> norm_num
    · have := (g3 j (by omega) (by rw [List.length_map, closingGains_length]; omega)).2 p hp
      rw [gains_list (j := j) (by rw [closingGains_length]; omega) (by unfold gainUnits; rw [if_neg h1, if_neg h2])] at this
      rw [if_neg h2]
      refine ⟨this.1.trans ?_, this.2.trans ?_⟩ <;> norm_num

/-- What the converter makes of the amplitude of a tone of `ω` radians per frame. -/
noncomputable def gain (ω : ℝ) : ℝ := gainAt gains (640 * ω)

theorem gain_mem {ω : ℝ} (h0 : 0 ≤ ω) (h2 : ω ≤ 1810 / 640) : (70795 / 100000 : ℝ) ≤ gain ω ∧ gain ω ≤ 1 :=
  gainAt_mem gains_mem (by positivity) (by push_cast; linarith)

theorem gain_one {ω : ℝ} (h0 : 0 ≤ ω) (h2 : ω ≤ 13 / 5) : gain ω = 1 := by
  have := gainAt_mem (κ := gains) (a := 1) (b := 1) (J := 1664) (fun j hj => by rw [gains_unit j hj]; norm_num) (x := 640 * ω) (by positivity) (by push_cast; linarith)
  exact le_antisymm this.2 this.1

theorem gain_all {ω : ℝ} (h0 : 0 ≤ ω) : 0 ≤ gain ω ∧ gain ω ≤ 1 :=
  gainAt_mem (J := ⌈640 * ω⌉₊) (fun j _ => gains_all j) (by positivity) (Nat.le_ceil _)

theorem gain_zero {ω : ℝ} (h : 2012 / 640 ≤ ω) : gain ω = 0 := by
  have h1 : (2012 : ℕ) ≤ ⌊640 * ω⌋₊ := Nat.le_floor (by push_cast; linarith)
  unfold gain gainAt gains
  rw [gainUnits_zero _ h1, gainUnits_zero _ (by omega)]
  simp

theorem gain_small {ω : ℝ} (h : 2011 / 640 ≤ ω) : gain ω ≤ 1 / 40000 := by
  by_cases h2 : 2012 / 640 ≤ ω
  · rw [gain_zero h2]
    norm_num
  · have e : closingGains.getD 200 0 = 248 := by decide +kernel
    have f : ⌊640 * ω⌋₊ = 2011 := by
      rw [Nat.floor_eq_iff (by linarith)]
      push_cast
      constructor <;> linarith
    unfold gain gainAt gains
    rw [f, gainUnits_zero (2011 + 1) (by omega), show gainUnits 2011 = 248 by unfold gainUnits; rw [if_neg (by omega), if_neg (by omega)]; exact e]
    push_cast
    linarith

theorem gain_lip {a b : ℝ} (a0 : 0 ≤ a) (b0 : 0 ≤ b) : |gain a - gain b| ≤ (80520 * 640 / 10000000) * |a - b| := by
  have := gainAt_lip gains_step (x := 640 * a) (y := 640 * b) (by positivity) (by positivity)
  rw [← mul_sub, abs_mul, abs_of_nonneg (show (0 : ℝ) ≤ 640 by norm_num)] at this
  unfold gain
  refine this.trans (le_of_eq ?_)
  ring

theorem moments : ∀ p ≤ 491, moment (fun i => (rows.flatten.getD i 0 : ℝ) / 10 ^ 27) 491 46 p ≤ 16273000 := fun p hp => by
  have := bent.moment_le (A := 10 ^ 27) p hp
  rw [rows_length, show ((10 ^ 27 : ℕ) : ℝ) = 10 ^ 27 by norm_num] at this
  refine this.trans ?_
  norm_num

theorem wave_gain {ω : ℝ} (h0 : 0 ≤ ω) (h2 : ω ≤ 1810 / 640) {p : ℕ} (hp : p ≤ 491) (ψ : ℝ) :
    |wave (fun i => (rows.flatten.getD i 0 : ℝ) / 10 ^ 27) 491 rows.length (ω / (491 : ℕ)) ψ p - gain ω * Real.cos ψ| ≤ 243 / 10000000 := by
  rw [rows_length]
  have := wave_all (κ := gains) (J := 1810) (Δ := 1 / 314240) (by norm_num) (fun j hj p hp => by
    have := grid_gains j (by omega) p hp
    rwa [if_pos hj] at this) moments (by positivity) (by push_cast; linarith) ψ hp (α := ω / (491 : ℕ))
  rw [show ω / (491 : ℕ) / (1 / 314240) = 640 * ω by push_cast; ring] at this
  refine this.trans ?_
  norm_num

theorem wave_close {ω : ℝ} (h0 : 0 ≤ ω) (h2 : ω ≤ 2011 / 640) {p : ℕ} (hp : p ≤ 491) (ψ : ℝ) :
    |wave (fun i => (rows.flatten.getD i 0 : ℝ) / 10 ^ 27) 491 rows.length (ω / (491 : ℕ)) ψ p - gain ω * Real.cos ψ| ≤ 814 / 10000000 := by
  rw [rows_length]
  have := wave_all (κ := gains) (J := 2011) (Δ := 1 / 314240) (β := 303 / 10000000) (by norm_num) (fun j hj p hp => by
    have := grid_gains j (by omega) p hp
    refine ⟨this.1.trans ?_, this.2.trans ?_⟩ <;> split_ifs <;> norm_num) moments (by positivity) (by push_cast; linarith) ψ hp (α := ω / (491 : ℕ))
  rw [show ω / (491 : ℕ) / (1 / 314240) = 640 * ω by push_cast; ring] at this
  refine this.trans ?_
  norm_num

end Verif.MidQual
