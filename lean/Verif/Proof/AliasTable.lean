import Verif.Proof.AliasBound
import Verif.Proof.SineMoment

/-! Second differences of a table, evaluated by the kernel. -/

namespace Verif.Alias
open Verif.Sine Verif.Coeffs

/-- Second differences of `a :: b :: l`, with the opposite sign. -/
def seconds (a b : ℤ) : List ℤ → List ℤ
  | [] => []
  | c :: t => (b + b - a - c) :: seconds b c t

/-- Second differences of the symmetric table whose one half is `l`, with the opposite sign, up to entry `L`. -/
def curve (L : ℕ) : List ℤ → List ℤ
  | a :: b :: t => (a + a - b - b) :: seconds a b (t.take L)
  | _ => []

theorem seconds_length : ∀ (l : List ℤ) (a b : ℤ), (seconds a b l).length = l.length
  | [], _, _ => rfl
  | c :: t, a, b => by rw [seconds, List.length_cons, seconds_length t, List.length_cons]

theorem seconds_getD : ∀ (l : List ℤ) (a b : ℤ) (n : ℕ), n < l.length →
    (seconds a b l).getD n 0 = 2 * (a :: b :: l).getD (n + 1) 0 - (a :: b :: l).getD n 0 - (a :: b :: l).getD (n + 2) 0
  | [], _, _, n, h => by simp at h
  | c :: t, a, b, n, h => by
    cases n with
    | zero => simp only [seconds, List.getD_cons_zero, List.getD_cons_succ]; ring
    | succ n =>
      rw [seconds, List.getD_cons_succ, seconds_getD t b c n (by simpa using h)]
      simp only [List.getD_cons_succ]

theorem curve_length {L : ℕ} {l : List ℤ} (h : L + 2 ≤ l.length) : (curve L l).length = L + 1 := by
  match l, h with
  | a :: b :: t, h =>
    rw [curve, List.length_cons, seconds_length, List.length_take]
    simp only [List.length_cons] at h
    omega

theorem curve_getD {L : ℕ} {l : List ℤ} (h : L + 2 ≤ l.length) {s : ℝ} (n : ℕ) (hn : n ≤ L) :
    ((curve L l).getD n 0 : ℝ) / s = diff2 (fun i => (l.getD i 0 : ℝ) / s) n := by
  match l, h with
  | a :: b :: t, h =>
    rw [curve]
    cases n with
    | zero =>
      simp only [List.getD_cons_zero, List.getD_cons_succ, diff2]
      push_cast
      ring
    | succ n =>
      simp only [List.length_cons] at h
      rw [List.getD_cons_succ, seconds_getD _ _ _ _ (by rw [List.length_take]; omega)]
      have e : ∀ k, k < L + 2 → (a :: b :: t.take L).getD k 0 = (a :: b :: t).getD k 0 := by
        intro k hk
        rw [show a :: b :: t.take L = (a :: b :: t).take (L + 2) from rfl]
        simp only [List.getD_eq_getElem?_getD, List.getElem?_take_of_lt hk]
      rw [e _ (by omega), e _ (by omega), e _ (by omega)]
      simp only [diff2]
      push_cast
      ring

/-- Checks of the second differences, apart from those of the phases. -/
structure Curved (l : List ℤ) (L A top E : ℕ) : Prop where
  length : Nat.ble (L + 2) l.length = true
  bound : (curve L l).all (fun a => Nat.ble a.natAbs A) = true
  second : absLe (bend 0 (curve L l)) top = true
  edge : Nat.ble (2 * (2 * l.getD (L + 1) 0 - l.getD L 0 - l.getD (L + 2) 0).natAbs + 2 * (l.getD (L + 1) 0).natAbs) E = true

section
variable {l : List ℤ} {L A top E : ℕ} (C : Curved l L A top E)
include C

theorem Curved.len : L + 2 ≤ l.length := by simpa using C.length

theorem Curved.bound_le (i : ℕ) : |(curve L l).getD i 0| ≤ (A : ℤ) := by
  rcases lt_or_ge i (curve L l).length with h | h
  · have := List.all_eq_true.1 C.bound _ (List.getElem_mem h)
    rw [Nat.ble_eq] at this
    rw [List.getD_eq_getElem _ _ h, ← Int.natCast_natAbs]
    exact_mod_cast this
  · rw [List.getD_eq_default _ _ h]; simp

theorem Curved.zero (n : ℕ) (h : L < n) : (curve L l).getD n 0 = 0 :=
  List.getD_eq_default _ _ (by rw [curve_length C.len]; omega)

theorem Curved.bendSum_le {s : ℝ} (hs : 0 < s) (M : ℕ) : bendSum (fun i => ((curve L l).getD i 0 : ℝ) / s) M ≤ 2 * top / s := by
  have h : ∀ M, ∑ n ∈ Finset.range M, |((curve L l).getD n 0 : ℝ) / s| * (n : ℝ) ^ 2 ≤ top / s := by
    intro M
    have a := absLe_sum _ _ C.second M
    have a' : ((∑ j ∈ Finset.range M, |(bend 0 (curve L l)).getD j 0| : ℤ) : ℝ) ≤ ((top : ℤ) : ℝ) := by exact_mod_cast a
    have e : ∑ n ∈ Finset.range M, |((curve L l).getD n 0 : ℝ) / s| * (n : ℝ) ^ 2 = ((∑ j ∈ Finset.range M, |(bend 0 (curve L l)).getD j 0| : ℤ) : ℝ) / s := by
      push_cast
      rw [Finset.sum_div]
      refine Finset.sum_congr rfl (fun n _ => ?_)
      rw [bend_getD, abs_div, abs_of_pos hs]
      push_cast
      rw [abs_mul, abs_abs, zero_add, abs_of_nonneg (sq_nonneg (n : ℝ))]
      ring
    rw [e]
    apply div_le_div_of_nonneg_right _ hs.le
    push_cast at a' ⊢
    exact a'
  have h1 := h M
  have h2 := h (M + 1)
  rw [Finset.sum_range_succ'] at h2
  unfold bendSum
  have : (2 : ℝ) * top / s = top / s + top / s := by ring
  rw [this]
  refine add_le_add h1 (le_trans ?_ h2)
  simp

theorem Curved.edge_le {s : ℝ} (hs : 0 < s) : 2 * |diff2 (fun i => (l.getD i 0 : ℝ) / s) (L + 1)| + 2 * |(l.getD (L + 1) 0 : ℝ) / s| ≤ E / s := by
  have h := C.edge
  rw [Nat.ble_eq] at h
  have h' : (2 * |2 * l.getD (L + 1) 0 - l.getD L 0 - l.getD (L + 2) 0| + 2 * |l.getD (L + 1) 0| : ℤ) ≤ E := by
    rw [← Int.natCast_natAbs, ← Int.natCast_natAbs]
    exact_mod_cast h
  have h2 : ((2 * |2 * l.getD (L + 1) 0 - l.getD L 0 - l.getD (L + 2) 0| + 2 * |l.getD (L + 1) 0| : ℤ) : ℝ) ≤ ((E : ℤ) : ℝ) := by exact_mod_cast h'
  have e : diff2 (fun i => (l.getD i 0 : ℝ) / s) (L + 1) = (2 * (l.getD (L + 1) 0 : ℝ) - l.getD L 0 - l.getD (L + 2) 0) / s := by
    simp only [diff2]; ring
  rw [e, abs_div, abs_div, abs_of_pos hs, ← mul_div_assoc, ← mul_div_assoc, ← add_div]
  apply div_le_div_of_nonneg_right _ hs.le
  push_cast at h2
  exact h2

end

/-- One run of the check, of the frequencies from `k` times the base frequency on. -/
theorem run_of {l : List ℤ} {A w c : ℕ} (hl : ∀ i, |l.getD i 0| ≤ (A : ℤ)) (hA : 0 < A) {inc K L B : ℕ} (hw : 126 ≤ w) (hcw : c + 1 ≤ w) (hL : inc + 1 ≤ 2 ^ L) (hB : B < 2 ^ c)
    (hH : (2 * K + 1) * 2305843009213693952 * A + 2 ^ c < 2 ^ (w - 1)) {x y : ℕ} {φ e : ℝ}
    (hy : Near (4 / 2 ^ 60) φ x y) (he1 : (17 / 8) ^ L * (3 / 200000000000000 + 2 / 2 ^ 60) ≤ e / ((K + 1) * 3)) (hge : 2 / 2 ^ 60 * ((K + 1) * 3) ≤ e) (he : e ≤ 1 / 8)
    {k a b a' b' : ℕ} {ks : List ℕ} (hk : k + ks.length ≤ 1700) (h : Near (k * (10 / 2 ^ 60)) (k * φ) a b)
    (hc : checkAll ⟨A, 2305843009213693952, w, c⟩ (packed A (Nat.pow 2 w) inc K l) L inc K B x y a' b' ks a b = true) :
    Near ((k + ks.length : ℕ) * (10 / 2 ^ 60)) ((k + ks.length : ℕ) * φ) a' b' ∧ ∀ j, k ≤ j → j < k + ks.length → ∃ m : ℝ, 0 ≤ m ∧ m ≤ 1 ∧ ∀ p ≤ inc,
      |errCos (fun i => (l.getD i 0 : ℝ) / A) inc K m (j * φ) p| ≤ B / (A * 2 ^ 60) + (2 * K + 1) * e ∧
      |errSin (fun i => (l.getD i 0 : ℝ) / A) inc K m (j * φ) p| ≤ B / (A * 2 ^ 60) + (2 * K + 1) * e := by
  obtain ⟨O, hO⟩ : ∃ O, O = 2305843009213693952 := ⟨_, rfl⟩
  have hOr : ((O : ℕ) : ℝ) = 2 ^ 61 := by rw [hO]; norm_num
  rw [← hO] at hc hH
  have g : 2 * (4 / 2 ^ 60 : ℝ) + 2 / 2 ^ 60 = 10 / 2 ^ 60 := by norm_num
  have hkn : ((k : ℝ) + ks.length) ≤ 1700 := by exact_mod_cast hk
  have hA0 : (0 : ℝ) < A := by exact_mod_cast hA
  obtain ⟨r1, r2⟩ := checkAll_sound hl hA hOr (show 2 ^ w = Nat.pow 2 w from rfl) hcw hB hH hw hL hy (by norm_num)
    (by norm_num) he1 hge he ks a b _ _ h (by rw [g, ← add_mul]; norm_num; linarith) hc
  rw [g, ← add_mul, ← add_mul] at r1
  push_cast
  refine ⟨r1, fun j h1 h2 => ?_⟩
  obtain ⟨k1, k2⟩ := r2 (j - k) (by omega)
  refine ⟨((ks.getD (j - k) 0 : ℕ) : ℝ) / A, by positivity, ?_, fun p hp => ?_⟩
  · rw [div_le_one hA0]; exact_mod_cast k1
  · have := k2 p hp
    rw [← add_mul, Nat.cast_sub h1, add_sub_cancel] at this
    exact this

/-- The same in other units. -/
theorem err_scale {d : ℕ → ℝ} {inc K : ℕ} {m α β s : ℝ} (hs : 0 ≤ s) {p : ℕ} (h : |errCos d inc K m α p| ≤ β ∧ |errSin d inc K m α p| ≤ β) :
    |errCos (fun i => s * d i) inc K (s * m) α p| ≤ s * β ∧ |errSin (fun i => s * d i) inc K (s * m) α p| ≤ s * β := by
  have e1 : errCos (fun i => s * d i) inc K (s * m) α p = s * errCos d inc K m α p := by
    unfold errCos
    rw [mul_sub, Finset.mul_sum, ← mul_assoc]
    congr 1
    exact Finset.sum_congr rfl (fun _ _ => by ring)
  have e2 : errSin (fun i => s * d i) inc K (s * m) α p = s * errSin d inc K m α p := by
    unfold errSin
    rw [mul_sub, Finset.mul_sum, ← mul_assoc]
    congr 1
    exact Finset.sum_congr rfl (fun _ _ => by ring)
  rw [e1, e2, abs_mul, abs_mul, abs_of_nonneg hs]
  exact ⟨mul_le_mul_of_nonneg_left h.1 hs, mul_le_mul_of_nonneg_left h.2 hs⟩

end Verif.Alias
