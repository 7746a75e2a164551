import Mathlib.Algebra.BigOperators.Intervals
import Mathlib.Algebra.Order.BigOperators.Group.Finset
import Mathlib.Data.List.GetD
import Verif.Model.Coeffs
import Verif.Proof.Numeric

/-! Sums over coefficient tables: what a computation on the lists of entries says about all positions. -/

namespace Verif.Coeffs
open Verif

/-! ### checks that are run on the tables -/

/-- The sum of the magnitudes is at most `B`. -/
def absLe : List ℤ → ℕ → Bool
  | [], _ => true
  | a :: t, B => Nat.ble a.natAbs B && absLe t (B - a.natAbs)

/-- The total variation of `a :: l`, continued by zero, is at most `B`. -/
def varLe (a : ℤ) : List ℤ → ℕ → Bool
  | [], B => Nat.ble a.natAbs B
  | b :: t, B => Nat.ble (b - a).natAbs B && varLe b t (B - (b - a).natAbs)

/-- Entries are at most `M`, steps at most `d`. -/
def smooth (d M : ℕ) (a : ℤ) : List ℤ → Bool
  | [] => Nat.ble a.natAbs d
  | b :: t => Nat.ble (b - a).natAbs d && (Nat.ble b.natAbs M && smooth d M b t)

/-- Entrywise sum, the shorter list being continued by zero. -/
def addRow : List ℤ → List ℤ → List ℤ
  | [], l => l
  | l, [] => l
  | a :: s, b :: t => (a + b) :: addRow s t

/-- Sums of the columns. -/
def colSum : List (List ℤ) → List ℤ
  | [] => []
  | r :: t => addRow r (colSum t)

/-- All rows have length `n`, the last one perhaps less. -/
def rowsOk (n : ℕ) : List (List ℤ) → Bool
  | [] => true
  | [r] => Nat.ble r.length n
  | r :: s :: t => Nat.beq r.length n && rowsOk n (s :: t)

/-- Columns, followed by column `0` without its first entry. -/
def phases (l : List ℤ) (c0 : ℤ) : List ℤ := l ++ [l.getD 0 0 - c0]

/-- Every sum of a phase and its mirror image is in `[lo, hi]`. -/
def phasesIn (lo hi : ℤ) (l : List ℤ) : Bool :=
  (List.zipWith (fun a b => a + b) l l.reverse).all fun s => decide (lo ≤ s) && decide (s ≤ hi)

/-! ### what they mean -/

theorem absLe_sum : ∀ (l : List ℤ) (B : ℕ), absLe l B = true → ∀ M, ∑ j ∈ Finset.range M, |l.getD j 0| ≤ (B : ℤ)
  | [], B, _, M => by simp
  | a :: t, B, h, M => by
    simp only [absLe, Bool.and_eq_true, Nat.ble_eq] at h
    cases M with
    | zero => simp
    | succ M =>
      rw [Finset.sum_range_succ']
      have := absLe_sum t _ h.2 M
      simp only [List.getD_cons_succ, List.getD_cons_zero]
      have e : ((a.natAbs : ℕ) : ℤ) = |a| := Int.natCast_natAbs a
      omega

theorem varLe_sum : ∀ (l : List ℤ) (a : ℤ) (B : ℕ), varLe a l B = true →
    ∀ M, ∑ j ∈ Finset.range M, |(a :: l).getD (j + 1) 0 - (a :: l).getD j 0| ≤ (B : ℤ)
  | [], a, B, h, M => by
    simp only [varLe, Nat.ble_eq] at h
    cases M with
    | zero => simp
    | succ M =>
      rw [Finset.sum_range_succ']
      have e : ((a.natAbs : ℕ) : ℤ) = |a| := Int.natCast_natAbs a
      simp only [List.getD_cons_succ, List.getD_cons_zero, List.getD_nil, sub_self, abs_zero, Finset.sum_const_zero, zero_sub, abs_neg]
      omega
  | b :: t, a, B, h, M => by
    simp only [varLe, Bool.and_eq_true, Nat.ble_eq] at h
    cases M with
    | zero => simp
    | succ M =>
      rw [Finset.sum_range_succ']
      have := varLe_sum t b _ h.2 M
      rw [List.getD_cons_zero, List.getD_cons_succ, List.getD_cons_zero]
      simp only [List.getD_cons_succ (x := a)]
      have e : (((b - a).natAbs : ℕ) : ℤ) = |b - a| := Int.natCast_natAbs _
      omega

theorem smooth_step (d M : ℕ) : ∀ (l : List ℤ) (a : ℤ), smooth d M a l = true →
    ∀ j, |(a :: l).getD (j + 1) 0 - (a :: l).getD j 0| ≤ (d : ℤ) ∧ |l.getD j 0| ≤ (M : ℤ)
  | [], a, h, j => by
    simp only [smooth, Nat.ble_eq] at h
    have e : ((a.natAbs : ℕ) : ℤ) = |a| := Int.natCast_natAbs a
    cases j with
    | zero => simp; omega
    | succ j => simp
  | b :: t, a, h, j => by
    simp only [smooth, Bool.and_eq_true, Nat.ble_eq] at h
    obtain ⟨h1, h2, h3⟩ := h
    cases j with
    | zero =>
      have e : (((b - a).natAbs : ℕ) : ℤ) = |b - a| := Int.natCast_natAbs _
      have e' : ((b.natAbs : ℕ) : ℤ) = |b| := Int.natCast_natAbs _
      simp only [zero_add, List.getD_cons_succ, List.getD_cons_zero]
      omega
    | succ j =>
      have := smooth_step d M t b h3 j
      rw [List.getD_cons_succ, List.getD_cons_succ, List.getD_cons_succ]
      exact this

theorem addRow_getD : ∀ (s t : List ℤ) (p : ℕ), (addRow s t).getD p 0 = s.getD p 0 + t.getD p 0
  | [], t, p => by simp [addRow]
  | a :: s, [], p => by simp [addRow]
  | a :: s, b :: t, p => by
    cases p with
    | zero => simp [addRow]
    | succ p =>
      have := addRow_getD s t p
      simp only [addRow, List.getD_cons_succ, this]

theorem colSum_getD (p : ℕ) : ∀ (rows : List (List ℤ)),
    (colSum rows).getD p 0 = ∑ k ∈ Finset.range rows.length, (rows.getD k []).getD p 0
  | [] => by simp [colSum]
  | r :: t => by
    rw [colSum, addRow_getD, colSum_getD p t, List.length_cons, Finset.sum_range_succ']
    simp only [List.getD_cons_succ, List.getD_cons_zero]
    ring

theorem flatten_getD {n : ℕ} : ∀ (rows : List (List ℤ)), rowsOk n rows = true → ∀ k p : ℕ, p < n →
    rows.flatten.getD (p + k * n) 0 = (rows.getD k []).getD p 0
  | [], _, k, p, _ => by simp
  | [r], h, k, p, hp => by
    simp only [rowsOk, Nat.ble_eq] at h
    cases k with
    | zero => simp
    | succ k =>
      have : r.length ≤ p + (k + 1) * n := by rw [Nat.succ_mul]; omega
      simp [List.getD_eq_getElem?_getD, List.getElem?_eq_none, this]
  | r :: s :: t, h, k, p, hp => by
    simp only [rowsOk, Bool.and_eq_true] at h
    obtain ⟨h1, h2⟩ := h
    replace h1 := Nat.eq_of_beq_eq_true h1
    rw [List.flatten_cons]
    cases k with
    | zero =>
      rw [List.getD_append _ _ _ _ (by omega)]
      simp
    | succ k =>
      rw [List.getD_append_right _ _ _ _ (by rw [Nat.succ_mul]; omega), show p + (k + 1) * n - r.length = p + k * n by rw [h1, Nat.succ_mul]; omega,
        flatten_getD (s :: t) h2 k p hp, List.getD_cons_succ]

/-- Sum of the entries at `p`, `p + inc`, `p + 2 * inc`, ... -/
def phase (l : List ℤ) (inc K p : ℕ) : ℤ := ∑ k ∈ Finset.range K, l.getD (p + k * inc) 0

theorem rowsOk_length {n : ℕ} : ∀ (rows : List (List ℤ)), rowsOk n rows = true → rows.flatten.length ≤ rows.length * n
  | [], _ => by simp
  | [r], h => by simpa [rowsOk] using h
  | r :: s :: t, h => by
    simp only [rowsOk, Bool.and_eq_true] at h
    obtain ⟨h1, h2⟩ := h
    replace h1 := Nat.eq_of_beq_eq_true h1
    have := rowsOk_length (s :: t) h2
    rw [List.flatten_cons, List.length_append, List.length_cons, Nat.succ_mul]
    omega

theorem phase_col {rows : List (List ℤ)} {inc p : ℕ} (h : rowsOk inc rows = true) (hp : p < inc) :
    (colSum rows).getD p 0 = phase rows.flatten inc rows.length p := by
  rw [colSum_getD]
  exact Finset.sum_congr rfl (fun k _ => (flatten_getD rows h k p hp).symm)

theorem phase_last {rows : List (List ℤ)} {inc : ℕ} (h : rowsOk inc rows = true) :
    phase rows.flatten inc rows.length inc = phase rows.flatten inc rows.length 0 - rows.flatten.getD 0 0 := by
  unfold phase
  have e1 : ∑ k ∈ Finset.range (rows.length + 1), rows.flatten.getD (0 + k * inc) 0 =
      ∑ k ∈ Finset.range rows.length, rows.flatten.getD (inc + k * inc) 0 + rows.flatten.getD 0 0 := by
    rw [Finset.sum_range_succ']
    simp only [zero_mul, add_zero]
    congr 1
    refine Finset.sum_congr rfl (fun k _ => ?_)
    congr 1; ring
  have e2 : rows.flatten.getD (0 + rows.length * inc) 0 = 0 :=
    List.getD_eq_default _ _ (by have := rowsOk_length rows h; omega)
  rw [Finset.sum_range_succ, e2, add_zero] at e1
  omega

theorem phases_getD {rows : List (List ℤ)} {inc p : ℕ} (h : rowsOk inc rows = true) (hl : (colSum rows).length = inc) (h0 : 0 < inc) (hp : p ≤ inc) :
    (phases (colSum rows) (rows.flatten.getD 0 0)).getD p 0 = phase rows.flatten inc rows.length p := by
  unfold phases
  rcases eq_or_lt_of_le hp with rfl | hp
  · rw [List.getD_append_right _ _ _ _ (by omega), hl, Nat.sub_self, List.getD_cons_zero, phase_col h h0, phase_last h]
  · rw [List.getD_append _ _ _ _ (by omega), phase_col h hp]

/-- What `phasesIn` says about the sums of mirrored phases. -/
theorem phasesIn_sum {rows : List (List ℤ)} {inc : ℕ} {lo hi : ℤ} (h : rowsOk inc rows = true) (hl : (colSum rows).length = inc) (h0 : 0 < inc)
    (hc : phasesIn lo hi (phases (colSum rows) (rows.flatten.getD 0 0)) = true) (p : ℕ) (hp : p ≤ inc) :
    lo ≤ phase rows.flatten inc rows.length p + phase rows.flatten inc rows.length (inc - p) ∧
      phase rows.flatten inc rows.length p + phase rows.flatten inc rows.length (inc - p) ≤ hi := by
  rw [← phases_getD h hl h0 hp, ← phases_getD (p := inc - p) h hl h0 (by omega)]
  have hlen : (phases (colSum rows) (rows.flatten.getD 0 0)).length = inc + 1 := by simp [phases, hl]
  generalize phases (colSum rows) (rows.flatten.getD 0 0) = l at *
  unfold phasesIn at hc
  rw [List.all_eq_true] at hc
  have hz : (List.zipWith (fun a b => a + b) l l.reverse)[p]? = some (l.getD p 0 + l.getD (inc - p) 0) := by
    rw [List.getElem?_zipWith, List.getElem?_reverse (by omega), hlen, show inc + 1 - 1 - p = inc - p by omega,
      List.getElem?_eq_getElem (show p < l.length by omega), List.getElem?_eq_getElem (show inc - p < l.length by omega)]
    simp [List.getD_eq_getElem?_getD, List.getElem?_eq_getElem, hlen, show p < inc + 1 by omega, show inc - p < inc + 1 by omega]
  have := hc _ (List.mem_of_getElem? hz)
  simpa using this

/-- The magnitudes of the entries. -/
def mags (l : List ℤ) : List ℤ := l.map fun a => ((a.natAbs : ℕ) : ℤ)

theorem mags_getD (l : List ℤ) (j : ℕ) : (mags l).getD j 0 = |l.getD j 0| := by
  have := List.getD_map (l := l) (d := 0) (n := j) (f := fun a : ℤ => ((a.natAbs : ℕ) : ℤ))
  simpa [mags] using this

theorem mags_flatten (rows : List (List ℤ)) : (rows.map mags).flatten = mags rows.flatten := by
  unfold mags; rw [List.map_flatten]

/-- Checks of a whole table: `lo`, `hi` bound the sums of mirrored phases, `top` those of the magnitudes, `S` the sum of all
magnitudes, `V` the total variation, `d` the steps, `M` the entries and `z` the last entry but one. -/
structure Checked (rows : List (List ℤ)) (inc cnt : ℕ) (lo hi top : ℤ) (S V d M z : ℕ) : Prop where
  pos : 0 < inc
  ok : rowsOk inc rows = true
  len : (colSum rows).length = inc
  dc : phasesIn lo hi (phases (colSum rows) (rows.flatten.getD 0 0)) = true
  okA : rowsOk inc (rows.map mags) = true
  lenA : (colSum (rows.map mags)).length = inc
  gain : phasesIn 0 top (phases (colSum (rows.map mags)) ((rows.map mags).flatten.getD 0 0)) = true
  sum : absLe rows.flatten S = true
  var : varLe (rows.flatten.headD 0) rows.flatten.tail V = true
  smooth : smooth d M (rows.flatten.headD 0) rows.flatten.tail = true
  head : Nat.ble (rows.flatten.headD 0).natAbs M = true
  length : rows.flatten.length = cnt
  zero : rows.flatten.getD (cnt - 1) 0 = 0
  last : Nat.ble (rows.flatten.getD (cnt - 2) 0).natAbs z = true

end Verif.Coeffs
