import Mathlib.Algebra.BigOperators.Intervals
import Mathlib.Algebra.BigOperators.Ring.Finset
import Mathlib.Algebra.Order.BigOperators.Group.Finset
import Mathlib.Algebra.Order.BigOperators.Ring.Finset
import Mathlib.Data.List.GetD
import Verif.Proof.SineNum

/-! Evaluation of the filter on complex exponentials, for all phases of the table at once: the sums of all phases are the digits of one large number. -/

namespace Verif.Sine

/-! ### what the kernel evaluates -/

/-- The number with the given digits (in base `T`, lowest first). -/
def pack (T : ℕ) (s : List ℕ) : ℕ := List.rec (motive := fun _ => ℕ) 0 (fun a _ ih => Nat.add a (Nat.mul T ih)) s

/-- Neighbours are joined to one digit in base `T * T`. -/
def pairUp (T : ℕ) : List ℕ → List ℕ
  | a :: b :: t => force (Nat.add a (Nat.mul T b)) fun x => x :: pairUp T t
  | l => l

/-- `pack`, with fewer large numbers on the way. -/
def packTree : ℕ → ℕ → List ℕ → ℕ
  | 0, T, l => pack T l
  | n + 1, T, l => force (Nat.mul T T) fun T' => packTree n T' (pairUp T l)

/-- The first `n` entries (continued by zero), increased by `A`. -/
def segN (A : ℕ) : ℕ → List ℤ → List ℕ
  | 0, _ => []
  | n + 1, [] => A :: segN A n []
  | n + 1, a :: t => Int.toNat (a + A) :: segN A n t

/-- `f` of the entries from `m * inc` on, for `m < K`. -/
def blocks (A inc : ℕ) (f : List ℕ → ℕ) : ℕ → List ℤ → List ℕ
  | 0, _ => []
  | K + 1, l => force (f (segN A (inc + 1) l)) fun x => x :: blocks A inc f K (l.drop inc)

/-- Sum of `f a * L + g b * R`. -/
def comb (f g : ℕ × ℕ → ℕ) : List (ℕ × ℕ) → List (ℕ × ℕ) → List ℕ → List ℕ → ℕ
  | a :: as, b :: bs, L :: Ls, R :: Rs => Nat.add (Nat.add (Nat.mul (f a) L) (Nat.mul (g b) R)) (comb f g as bs Ls Rs)
  | _, _, _, _ => 0

/-- Every digit of `V` in base `2^w` differs by at most `B` from `2^(w - 1)`; `ones` has the digits 1. -/
def digitsOk (w c B ones V : ℕ) : Bool :=
  Nat.beq (Nat.land (Nat.add V (Nat.mul B ones)) (Nat.mul (Nat.sub (Nat.pow 2 w) (Nat.pow 2 c)) ones)) (Nat.mul (Nat.pow 2 (Nat.sub w 1)) ones) &&
  Nat.beq (Nat.land (Nat.add V (Nat.mul (Nat.sub (Nat.sub (Nat.pow 2 c) 1) B) ones)) (Nat.mul (Nat.sub (Nat.pow 2 w) (Nat.pow 2 c)) ones)) (Nat.mul (Nat.pow 2 (Nat.sub w 1)) ones)

/-- The table, as digits of numbers. -/
structure Packed where
  /-- phases before the position -/
  left : List ℕ
  /-- phases after the position -/
  right : List ℕ
  /-- sum of all of these -/
  sum : ℕ
  /-- the number with digits 1 -/
  ones : ℕ

/-- Parameters of the evaluation: `A` is the scale of the table entries, `O` the offset of coordinates, `2^w` the base, `c` the number of the bits of a digit
that are not the same in all digits. -/
structure Scale where
  A : ℕ
  O : ℕ
  w : ℕ
  c : ℕ

/-- The number whose digits are the sums of the phases, minus the expected values (`κ` times the digits of `Z`), plus `2^(w - 1)`. -/
def value (s : Scale) (P : Packed) (K κ : ℕ) (f g : ℕ × ℕ → ℕ) (Z : ℕ) (ws : List (ℕ × ℕ)) : ℕ :=
  Nat.sub (Nat.add (comb f g ws ws.tail P.left P.right) (Nat.mul P.ones (Nat.add (Nat.mul (Nat.mul (Nat.mul 2 K) s.O) s.A) (Nat.add (Nat.mul s.O κ) (Nat.pow 2 (Nat.sub s.w 1))))))
    (Nat.add (Nat.add (Nat.mul s.O P.sum) (Nat.mul (Nat.mul s.A (comb f g ws ws.tail (List.replicate K 1) (List.replicate K 1))) P.ones)) (Nat.mul κ Z))

/-- Sum of two lists. -/
def total : List ℕ → List ℕ → ℕ
  | a :: s, b :: t => Nat.add (Nat.add a b) (total s t)
  | _, _ => 0

/-- The table `l`. -/
def packed (A T inc K : ℕ) (l : List ℤ) : Packed where
  left := blocks A inc (packTree 9 T) K l
  right := blocks A inc (fun s => packTree 9 T s.reverse) K l
  sum := total (blocks A inc (packTree 9 T) K l) (blocks A inc (fun s => packTree 9 T s.reverse) K l)
  ones := pack T (List.replicate (inc + 1) 1)

/-! ### what it means -/

theorem pack_cons (T a : ℕ) (s : List ℕ) : pack T (a :: s) = a + T * pack T s := rfl

theorem pack_sum (T : ℕ) : ∀ s : List ℕ, pack T s = ∑ p ∈ Finset.range s.length, s.getD p 0 * T ^ p
  | [] => rfl
  | a :: s => by
    rw [pack_cons, pack_sum T s, List.length_cons, Finset.sum_range_succ', Finset.mul_sum, add_comm]
    simp only [List.getD_cons_succ, List.getD_cons_zero, pow_zero, mul_one]
    congr 1
    exact Finset.sum_congr rfl (fun p _ => by ring)

theorem pairUp_pack (T : ℕ) : ∀ l, pack (T * T) (pairUp T l) = pack T l
  | [] => rfl
  | [a] => by
    show a + T * T * 0 = a + T * 0
    ring
  | a :: b :: t => by
    rw [pairUp, force_eq, pack_cons, pairUp_pack T t, pack_cons, pack_cons]
    show a + T * b + T * T * pack T t = _
    ring

theorem packTree_eq : ∀ n T l, packTree n T l = pack T l
  | 0, _, _ => rfl
  | n + 1, T, l => by
    rw [packTree, force_eq, packTree_eq n]
    exact pairUp_pack T l

theorem segN_length (A : ℕ) : ∀ n l, (segN A n l).length = n
  | 0, _ => rfl
  | n + 1, [] => by simp [segN, segN_length A n]
  | n + 1, a :: t => by simp [segN, segN_length A n]

theorem segN_getD (A : ℕ) : ∀ n l p, p < n → (segN A n l).getD p 0 = (l.getD p 0 + A).toNat
  | 0, _, p, h => by omega
  | n + 1, [], p, h => by
    cases p with
    | zero => simp [segN]
    | succ p =>
      have := segN_getD A n [] p (by omega)
      simpa [segN] using this
  | n + 1, a :: t, p, h => by
    cases p with
    | zero => simp [segN]
    | succ p =>
      have := segN_getD A n t p (by omega)
      simpa [segN] using this

theorem blocks_length (A inc : ℕ) (f : List ℕ → ℕ) : ∀ K l, (blocks A inc f K l).length = K
  | 0, _ => rfl
  | K + 1, l => by rw [blocks, force_eq, List.length_cons, blocks_length A inc f K]

theorem blocks_getD (A inc : ℕ) (f : List ℕ → ℕ) : ∀ K l m, m < K → (blocks A inc f K l).getD m 0 = f (segN A (inc + 1) (l.drop (m * inc)))
  | 0, _, m, h => by omega
  | K + 1, l, m, h => by
    rw [blocks, force_eq]
    cases m with
    | zero => simp
    | succ m =>
      rw [List.getD_cons_succ, blocks_getD A inc f K _ m (by omega), List.drop_drop, Nat.succ_mul, Nat.add_comm inc (m * inc)]

theorem comb_sum (f g : ℕ × ℕ → ℕ) : ∀ (K : ℕ) (as bs : List (ℕ × ℕ)) (Ls Rs : List ℕ), K ≤ as.length → K ≤ bs.length → Ls.length = K → Rs.length = K →
    comb f g as bs Ls Rs = ∑ m ∈ Finset.range K, (f (as.getD m (0, 0)) * Ls.getD m 0 + g (bs.getD m (0, 0)) * Rs.getD m 0)
  | 0, as, bs, Ls, Rs, _, _, h1, h2 => by
    rw [List.length_eq_zero_iff.1 h1, List.length_eq_zero_iff.1 h2]
    cases as <;> cases bs <;> rfl
  | K + 1, [], _, _, _, h, _, _, _ => by simp at h
  | K + 1, _, [], _, _, _, h, _, _ => by simp at h
  | K + 1, _, _, [], _, _, _, h, _ => by simp at h
  | K + 1, _, _, _, [], _, _, _, h => by simp at h
  | K + 1, a :: as, b :: bs, L :: Ls, R :: Rs, h1, h2, h3, h4 => by
    simp only [List.length_cons, Nat.add_le_add_iff_right, Nat.add_right_cancel_iff] at h1 h2 h3 h4
    rw [Finset.sum_range_succ']
    simp only [List.getD_cons_succ, List.getD_cons_zero]
    rw [← comb_sum f g K as bs Ls Rs h1 h2 h3 h4]
    show f a * L + g b * R + comb f g as bs Ls Rs = _
    ring

theorem land_digits (w g h : ℕ) (hg : g < 2 ^ w) (hh : h < 2 ^ w) (n : ℕ) : ∀ (V : ℕ) (Y : ℕ → ℕ), V = ∑ p ∈ Finset.range n, Y p * (2 ^ w) ^ p → (∀ p < n, Y p < 2 ^ w) →
    V &&& (g * ∑ p ∈ Finset.range n, (2 ^ w) ^ p) = h * ∑ p ∈ Finset.range n, (2 ^ w) ^ p → ∀ p < n, Y p &&& g = h := by
  induction n with
  | zero => intro V Y _ _ _ p hp; omega
  | succ n ih =>
    intro V Y hV hY h'
    have pos : 0 < 2 ^ w := Nat.two_pow_pos w
    have e : V = Y 0 + 2 ^ w * ∑ p ∈ Finset.range n, Y (p + 1) * (2 ^ w) ^ p := by
      rw [hV, Finset.sum_range_succ', Finset.mul_sum, add_comm]
      congr 1
      · simp
      · exact Finset.sum_congr rfl (fun p _ => by ring)
    have e1 : ∀ x, x * ∑ p ∈ Finset.range (n + 1), (2 ^ w) ^ p = x + 2 ^ w * (x * ∑ p ∈ Finset.range n, (2 ^ w) ^ p) := by
      intro x
      rw [Finset.sum_range_succ', Finset.mul_sum, mul_add, add_comm]
      simp only [pow_zero, mul_one, Finset.mul_sum]
      congr 1
      exact Finset.sum_congr rfl (fun p _ => by ring)
    rw [e, e1, e1] at h'
    have dm : ∀ x y, x < 2 ^ w → (x + 2 ^ w * y) % 2 ^ w = x ∧ (x + 2 ^ w * y) / 2 ^ w = y := fun x y hx =>
      ⟨by rw [Nat.add_mul_mod_self_left, Nat.mod_eq_of_lt hx], by rw [Nat.add_mul_div_left _ _ pos, Nat.div_eq_of_lt hx, zero_add]⟩
    have hm := congrArg (· % 2 ^ w) h'
    have hd := congrArg (· / 2 ^ w) h'
    simp only [Nat.and_mod_two_pow, Nat.and_div_two_pow] at hm hd
    rw [(dm _ _ (hY 0 (by omega))).1, (dm _ _ hg).1, (dm _ _ hh).1] at hm
    rw [(dm _ _ (hY 0 (by omega))).2, (dm _ _ hg).2, (dm _ _ hh).2] at hd
    intro p hp
    cases p with
    | zero => exact hm
    | succ p => exact ih _ (fun p => Y (p + 1)) rfl (fun p hp => hY (p + 1) (by omega)) hd p (by omega)

theorem land_top {w c Y : ℕ} (hc : c + 1 ≤ w) (hY : Y < 2 ^ w) (h : Y &&& (2 ^ w - 2 ^ c) = 2 ^ (w - 1)) : 2 ^ (w - 1) ≤ Y ∧ Y < 2 ^ (w - 1) + 2 ^ c := by
  have hd := congrArg (· / 2 ^ c) h
  simp only [Nat.and_div_two_pow] at hd
  have e1 : (2 ^ w - 2 ^ c) / 2 ^ c = 2 ^ (w - c) - 1 := by
    have : 2 ^ w = 2 ^ c * 2 ^ (w - c) := by rw [← pow_add]; congr 1; omega
    rw [this, show 2 ^ c * 2 ^ (w - c) - 2 ^ c = 2 ^ c * (2 ^ (w - c) - 1) by rw [Nat.mul_sub, mul_one], Nat.mul_div_cancel_left _ (Nat.two_pow_pos c)]
  have e2 : 2 ^ (w - 1) / 2 ^ c = 2 ^ (w - 1 - c) := Nat.pow_div (by omega) (by norm_num)
  have e3 : Y / 2 ^ c < 2 ^ (w - c) := by
    rw [Nat.div_lt_iff_lt_mul (Nat.two_pow_pos c), ← pow_add]
    rwa [show w - c + c = w by omega]
  rw [e1, e2, Nat.and_two_pow_sub_one_eq_mod, Nat.mod_eq_of_lt e3] at hd
  have e4 : 2 ^ (w - 1) = 2 ^ (w - 1 - c) * 2 ^ c := by rw [← pow_add]; congr 1; omega
  rw [e4, ← hd]
  have := Nat.div_add_mod Y (2 ^ c)
  have := Nat.mod_lt Y (Nat.two_pow_pos c)
  rw [Nat.mul_comm]
  generalize 2 ^ c * (Y / 2 ^ c) = x at *
  generalize 2 ^ c = y at *
  omega

theorem digits_sound {w c B n V : ℕ} {Y : ℕ → ℕ} (hc : c + 1 ≤ w) (hB : B < 2 ^ c) (hV : V = ∑ p ∈ Finset.range n, Y p * (2 ^ w) ^ p) (hY : ∀ p < n, Y p + 2 ^ c < 2 ^ w)
    (h : digitsOk w c B (∑ p ∈ Finset.range n, (2 ^ w) ^ p) V = true) : ∀ p < n, 2 ^ (w - 1) ≤ Y p + B ∧ Y p ≤ 2 ^ (w - 1) + B := by
  unfold digitsOk at h
  rw [Bool.and_eq_true] at h
  have pc : 2 ^ c < 2 ^ w := Nat.pow_lt_pow_right (by norm_num) (by omega)
  have p1 : 2 ^ (w - 1) < 2 ^ w := Nat.pow_lt_pow_right (by norm_num) (by omega)
  have pos := Nat.two_pow_pos c
  have add : ∀ x, V + x * ∑ p ∈ Finset.range n, (2 ^ w) ^ p = ∑ p ∈ Finset.range n, (Y p + x) * (2 ^ w) ^ p := by
    intro x
    rw [hV, Finset.mul_sum, ← Finset.sum_add_distrib]
    exact Finset.sum_congr rfl (fun p _ => by ring)
  have go : ∀ x, x ≤ 2 ^ c → (V + x * ∑ p ∈ Finset.range n, (2 ^ w) ^ p) &&& ((2 ^ w - 2 ^ c) * ∑ p ∈ Finset.range n, (2 ^ w) ^ p) = 2 ^ (w - 1) * ∑ p ∈ Finset.range n, (2 ^ w) ^ p →
      ∀ p < n, 2 ^ (w - 1) ≤ Y p + x ∧ Y p + x < 2 ^ (w - 1) + 2 ^ c := by
    intro x hx h p hp
    have l := land_digits w (2 ^ w - 2 ^ c) (2 ^ (w - 1)) (by omega) p1 n _ (fun p => Y p + x) (add x) (fun p hp => by have := hY p hp; omega) h p hp
    exact land_top hc (by have := hY p hp; omega) l
  intro p hp
  have h1 := go B (by omega) (Nat.eq_of_beq_eq_true h.1) p hp
  have h2 := go (2 ^ c - 1 - B) (by omega) (Nat.eq_of_beq_eq_true h.2) p hp
  generalize 2 ^ c = y at *
  generalize 2 ^ (w - 1) = z at *
  omega

theorem total_sum : ∀ (K : ℕ) (s t : List ℕ), s.length = K → t.length = K → total s t = ∑ m ∈ Finset.range K, (s.getD m 0 + t.getD m 0)
  | 0, s, t, h1, h2 => by rw [List.length_eq_zero_iff.1 h1, List.length_eq_zero_iff.1 h2]; rfl
  | K + 1, [], _, h, _ => by simp at h
  | K + 1, _, [], _, h => by simp at h
  | K + 1, a :: s, b :: t, h1, h2 => by
    simp only [List.length_cons, Nat.add_right_cancel_iff] at h1 h2
    rw [Finset.sum_range_succ']
    simp only [List.getD_cons_succ, List.getD_cons_zero]
    rw [← total_sum K s t h1 h2]
    show a + b + total s t = _
    ring

/-- The sum of phase `p` of the table `q` with weights `F`, `G`, minus the expected value `κ * Z p`. -/
def phaseSum (q : ℕ → ℤ) (κ : ℕ) (inc K : ℕ) (F G Z : ℕ → ℤ) (p : ℕ) : ℤ :=
  ∑ m ∈ Finset.range K, (F m * q (p + m * inc) + G m * q (inc - p + m * inc)) - κ * Z p

section
variable {l : List ℤ} {A : ℕ} (hA : ∀ i, |l.getD i 0| ≤ (A : ℤ)) (T inc K : ℕ)
include hA

theorem left_sum {m : ℕ} (hm : m < K) : (((blocks A inc (packTree 9 T) K l).getD m 0 : ℕ) : ℤ) = ∑ p ∈ Finset.range (inc + 1), (l.getD (p + m * inc) 0 + A) * (T : ℤ) ^ p := by
  rw [blocks_getD _ _ _ _ _ _ hm, packTree_eq, pack_sum, segN_length]
  push_cast
  refine Finset.sum_congr rfl (fun p hp => ?_)
  have hp := Finset.mem_range.1 hp
  rw [segN_getD _ _ _ _ hp]
  have e : (l.drop (m * inc)).getD p 0 = l.getD (p + m * inc) 0 := by
    rw [List.getD_eq_getElem?_getD, List.getElem?_drop, List.getD_eq_getElem?_getD, Nat.add_comm]
  rw [e, Int.toNat_of_nonneg]
  have := abs_le.1 (hA (p + m * inc))
  omega

theorem right_sum {m : ℕ} (hm : m < K) : (((blocks A inc (fun s => packTree 9 T s.reverse) K l).getD m 0 : ℕ) : ℤ) =
    ∑ p ∈ Finset.range (inc + 1), (l.getD (inc - p + m * inc) 0 + A) * (T : ℤ) ^ p := by
  rw [blocks_getD _ _ _ _ _ _ hm, packTree_eq, pack_sum, List.length_reverse, segN_length]
  push_cast
  refine Finset.sum_congr rfl (fun p hp => ?_)
  have hp := Finset.mem_range.1 hp
  have r : (segN A (inc + 1) (l.drop (m * inc))).reverse.getD p 0 = (segN A (inc + 1) (l.drop (m * inc))).getD (inc - p) 0 := by
    rw [List.getD_eq_getElem?_getD, List.getElem?_reverse (by rw [segN_length]; omega), segN_length, List.getD_eq_getElem?_getD,
      show inc + 1 - 1 - p = inc - p by omega]
  rw [r, segN_getD _ _ _ _ (by omega)]
  have e : (l.drop (m * inc)).getD (inc - p) 0 = l.getD (inc - p + m * inc) 0 := by
    rw [List.getD_eq_getElem?_getD, List.getElem?_drop, List.getD_eq_getElem?_getD, Nat.add_comm]
  rw [e, Int.toNat_of_nonneg]
  have := abs_le.1 (hA (inc - p + m * inc))
  omega

theorem value_eq {O h w c κ : ℕ} (hT : Nat.pow 2 w = T) (hh : Nat.pow 2 (Nat.sub w 1) = h) {f g k : ℕ × ℕ → ℕ} {zs ws : List (ℕ × ℕ)} {Z : ℕ} (hZ : Z = pack T (zs.map k)) (hz : zs.length = inc + 1) (hw : ws.length = K + 1)
    (hX : ∀ p ≤ inc, |phaseSum (fun i => l.getD i 0) κ inc K (fun m => (f (ws.getD m (0, 0)) : ℤ) - O) (fun m => (g (ws.getD (m + 1) (0, 0)) : ℤ) - O) (fun p => (k (zs.getD p (0, 0)) : ℤ) - O) p| ≤ (h : ℤ)) :
    ((value ⟨A, O, w, c⟩ (packed A T inc K l) K κ f g Z ws : ℕ) : ℤ) = ∑ p ∈ Finset.range (inc + 1),
      (phaseSum (fun i => l.getD i 0) κ inc K (fun m => (f (ws.getD m (0, 0)) : ℤ) - O) (fun m => (g (ws.getD (m + 1) (0, 0)) : ℤ) - O) (fun p => (k (zs.getD p (0, 0)) : ℤ) - O) p + h) * (T : ℤ) ^ p := by
  have ht : ∀ m, ws.tail.getD m (0, 0) = ws.getD (m + 1) (0, 0) := by
    intro m
    cases ws <;> simp
  have htl : ws.tail.length = K := by rw [List.length_tail, hw]; rfl
  have e1 : ((comb f g ws ws.tail (packed A T inc K l).left (packed A T inc K l).right : ℕ) : ℤ) = ∑ p ∈ Finset.range (inc + 1),
      (∑ m ∈ Finset.range K, ((f (ws.getD m (0, 0)) : ℤ) * (l.getD (p + m * inc) 0 + A) + (g (ws.getD (m + 1) (0, 0)) : ℤ) * (l.getD (inc - p + m * inc) 0 + A))) * (T : ℤ) ^ p := by
    rw [comb_sum f g K ws ws.tail (packed A T inc K l).left (packed A T inc K l).right (by omega) (by omega) (blocks_length _ _ _ _ _) (blocks_length _ _ _ _ _)]
    push_cast
    simp only [Finset.sum_mul]
    rw [Finset.sum_comm]
    refine Finset.sum_congr rfl (fun m hm => ?_)
    have hm := Finset.mem_range.1 hm
    show (f (ws.getD m (0, 0)) : ℤ) * ((blocks A inc (packTree 9 T) K l).getD m 0 : ℕ) + (g (ws.tail.getD m (0, 0)) : ℤ) * ((blocks A inc (fun s => packTree 9 T s.reverse) K l).getD m 0 : ℕ) = _
    rw [left_sum hA T inc K hm, right_sum hA T inc K hm, ht, Finset.mul_sum, Finset.mul_sum, ← Finset.sum_add_distrib]
    exact Finset.sum_congr rfl (fun p _ => by ring)
  have e2 : (((packed A T inc K l).ones : ℕ) : ℤ) = ∑ p ∈ Finset.range (inc + 1), (T : ℤ) ^ p := by
    show ((pack T (List.replicate (inc + 1) 1) : ℕ) : ℤ) = _
    rw [pack_sum, List.length_replicate]
    push_cast
    refine Finset.sum_congr rfl (fun p hp => ?_)
    have := Finset.mem_range.1 hp
    rw [List.getD_replicate 1 this]; simp
  have e3 : (((packed A T inc K l).sum : ℕ) : ℤ) = ∑ p ∈ Finset.range (inc + 1),
      (∑ m ∈ Finset.range K, ((l.getD (p + m * inc) 0 + A) + (l.getD (inc - p + m * inc) 0 + A))) * (T : ℤ) ^ p := by
    show ((total (blocks A inc (packTree 9 T) K l) (blocks A inc (fun s => packTree 9 T s.reverse) K l) : ℕ) : ℤ) = _
    rw [total_sum K _ _ (blocks_length _ _ _ _ _) (blocks_length _ _ _ _ _)]
    push_cast
    simp only [Finset.sum_mul]
    rw [Finset.sum_comm]
    refine Finset.sum_congr rfl (fun m hm => ?_)
    have hm := Finset.mem_range.1 hm
    rw [left_sum hA T inc K hm, right_sum hA T inc K hm, ← Finset.sum_add_distrib]
    exact Finset.sum_congr rfl (fun p _ => by ring)
  have e4 : ((comb f g ws ws.tail (List.replicate K 1) (List.replicate K 1) : ℕ) : ℤ) = ∑ m ∈ Finset.range K, ((f (ws.getD m (0, 0)) : ℤ) + g (ws.getD (m + 1) (0, 0))) := by
    rw [comb_sum f g K _ _ _ _ (by omega) (by omega) (List.length_replicate ..) (List.length_replicate ..)]
    push_cast
    refine Finset.sum_congr rfl (fun m hm => ?_)
    rw [List.getD_replicate 1 (Finset.mem_range.1 hm), ht]
    simp
  have e5 : (Z : ℤ) = ∑ p ∈ Finset.range (inc + 1), (k (zs.getD p (0, 0)) : ℤ) * (T : ℤ) ^ p := by
    rw [hZ, pack_sum, List.length_map, hz]
    push_cast
    refine Finset.sum_congr rfl (fun p hp => ?_)
    have hp := Finset.mem_range.1 hp
    rw [List.getD_eq_getElem?_getD, List.getElem?_map, List.getElem?_eq_getElem (by omega), List.getD_eq_getElem?_getD, List.getElem?_eq_getElem (by omega)]
    simp
  have key : ((comb f g ws ws.tail (packed A T inc K l).left (packed A T inc K l).right : ℕ) : ℤ) + ((packed A T inc K l).ones : ℕ) * (2 * K * O * A + (O * κ + h)) -
      (O * ((packed A T inc K l).sum : ℕ) + A * (comb f g ws ws.tail (List.replicate K 1) (List.replicate K 1) : ℕ) * ((packed A T inc K l).ones : ℕ) + κ * (Z : ℤ)) =
      ∑ p ∈ Finset.range (inc + 1), (phaseSum (fun i => l.getD i 0) κ inc K (fun m => (f (ws.getD m (0, 0)) : ℤ) - O) (fun m => (g (ws.getD (m + 1) (0, 0)) : ℤ) - O) (fun p => (k (zs.getD p (0, 0)) : ℤ) - O) p + h) * (T : ℤ) ^ p := by
    rw [e1, e2, e3, e4, e5]
    obtain ⟨W, hW⟩ : ∃ W, W = ∑ m ∈ Finset.range K, ((f (ws.getD m (0, 0)) : ℤ) + g (ws.getD (m + 1) (0, 0))) := ⟨_, rfl⟩
    rw [← hW, Finset.sum_mul, Finset.mul_sum, Finset.mul_sum, Finset.mul_sum, ← Finset.sum_add_distrib, ← Finset.sum_add_distrib,
      ← Finset.sum_add_distrib, ← Finset.sum_sub_distrib]
    refine Finset.sum_congr rfl (fun p _ => ?_)
    unfold phaseSum
    have : ∑ m ∈ Finset.range K, (((f (ws.getD m (0, 0)) : ℤ) - O) * l.getD (p + m * inc) 0 + ((g (ws.getD (m + 1) (0, 0)) : ℤ) - O) * l.getD (inc - p + m * inc) 0) =
        ∑ m ∈ Finset.range K, ((f (ws.getD m (0, 0)) : ℤ) * (l.getD (p + m * inc) 0 + A) + (g (ws.getD (m + 1) (0, 0)) : ℤ) * (l.getD (inc - p + m * inc) 0 + A)) -
        O * ∑ m ∈ Finset.range K, ((l.getD (p + m * inc) 0 + A) + (l.getD (inc - p + m * inc) 0 + A)) -
        A * ∑ m ∈ Finset.range K, ((f (ws.getD m (0, 0)) : ℤ) + g (ws.getD (m + 1) (0, 0))) + 2 * K * O * A := by
      have c : (2 * K * O * A : ℤ) = ∑ m ∈ Finset.range K, (2 * O * A : ℤ) := by
        rw [Finset.sum_const, Finset.card_range, nsmul_eq_mul]; ring
      rw [c, Finset.mul_sum, Finset.mul_sum, ← Finset.sum_sub_distrib, ← Finset.sum_sub_distrib, ← Finset.sum_add_distrib]
      exact Finset.sum_congr rfl (fun m _ => by ring)
    rw [this, ← hW]
    ring
  have hpos : (0 : ℤ) ≤ ∑ p ∈ Finset.range (inc + 1), (phaseSum (fun i => l.getD i 0) κ inc K (fun m => (f (ws.getD m (0, 0)) : ℤ) - O) (fun m => (g (ws.getD (m + 1) (0, 0)) : ℤ) - O) (fun p => (k (zs.getD p (0, 0)) : ℤ) - O) p + h) * (T : ℤ) ^ p := by
    refine Finset.sum_nonneg (fun p hp => mul_nonneg ?_ (by positivity))
    have := abs_le.1 (hX p (by have := Finset.mem_range.1 hp; omega))
    omega
  rw [← key] at hpos ⊢
  unfold value
  simp only [hT, hh]
  show (((comb f g ws ws.tail (packed A T inc K l).left (packed A T inc K l).right + (packed A T inc K l).ones * (2 * K * O * A + (O * κ + h))) -
    (O * (packed A T inc K l).sum + A * comb f g ws ws.tail (List.replicate K 1) (List.replicate K 1) * (packed A T inc K l).ones + κ * Z) : ℕ) : ℤ) = _
  generalize comb f g ws ws.tail (packed A T inc K l).left (packed A T inc K l).right = x1 at *
  generalize (packed A T inc K l).ones = x2 at *
  generalize (packed A T inc K l).sum = x3 at *
  generalize comb f g ws ws.tail (List.replicate K 1) (List.replicate K 1) = x4 at *
  rw [Nat.cast_sub]
  · push_cast; ring
  · have : ((O * x3 + A * x4 * x2 + κ * Z : ℕ) : ℤ) ≤ ((x1 + x2 * (2 * K * O * A + (O * κ + h)) : ℕ) : ℤ) := by push_cast; linarith
    exact_mod_cast this

/-- What `digitsOk` says about the phases. -/
theorem value_sound {O w c B M κ : ℕ} (hT : 2 ^ w = T) {f g k : ℕ × ℕ → ℕ} {zs ws : List (ℕ × ℕ)} {Z : ℕ} (hZ : Z = pack T (zs.map k)) (hz : zs.length = inc + 1) (hw : ws.length = K + 1) (hc : c + 1 ≤ w) (hB : B < 2 ^ c)
    (hM : M + 2 ^ c < 2 ^ (w - 1))
    (hX : ∀ p ≤ inc, |phaseSum (fun i => l.getD i 0) κ inc K (fun m => (f (ws.getD m (0, 0)) : ℤ) - O) (fun m => (g (ws.getD (m + 1) (0, 0)) : ℤ) - O) (fun p => (k (zs.getD p (0, 0)) : ℤ) - O) p| ≤ (M : ℤ))
    (hd : digitsOk w c B (packed A T inc K l).ones (value ⟨A, O, w, c⟩ (packed A T inc K l) K κ f g Z ws) = true) :
    ∀ p ≤ inc, |phaseSum (fun i => l.getD i 0) κ inc K (fun m => (f (ws.getD m (0, 0)) : ℤ) - O) (fun m => (g (ws.getD (m + 1) (0, 0)) : ℤ) - O) (fun p => (k (zs.getD p (0, 0)) : ℤ) - O) p| ≤ (B : ℤ) := by
  obtain ⟨h, hh⟩ : ∃ h, h = 2 ^ (w - 1) := ⟨_, rfl⟩
  have hMz : (M : ℤ) ≤ h := by rw [hh]; exact_mod_cast (by omega : M ≤ 2 ^ (w - 1))
  have hv := value_eq hA T inc K (w := w) (c := c) hT hh.symm hZ hz hw (fun p hp => (hX p hp).trans hMz)
  have ho : (packed A T inc K l).ones = ∑ p ∈ Finset.range (inc + 1), (2 ^ w) ^ p := by
    show pack T (List.replicate (inc + 1) 1) = _
    rw [pack_sum, List.length_replicate, hT]
    refine Finset.sum_congr rfl (fun p hp => ?_)
    have := Finset.mem_range.1 hp
    rw [List.getD_replicate 1 this]; simp
  have e2 : 2 ^ w = 2 * 2 ^ (w - 1) := by rw [← pow_succ']; congr 1; omega
  rw [ho] at hd
  rw [← hh] at hM e2
  generalize phaseSum (fun i => l.getD i 0) κ inc K (fun m => (f (ws.getD m (0, 0)) : ℤ) - O) (fun m => (g (ws.getD (m + 1) (0, 0)) : ℤ) - O) (fun p => (k (zs.getD p (0, 0)) : ℤ) - O) = X at *
  have hn : ∀ p < inc + 1, (((X p + h).toNat : ℕ) : ℤ) = X p + h := fun p hp => Int.toNat_of_nonneg (by have := abs_le.1 (hX p (by omega)); omega)
  have := digits_sound (Y := fun p => (X p + h).toNat) hc hB (by
    have : ((value ⟨A, O, w, c⟩ (packed A T inc K l) K κ f g Z ws : ℕ) : ℤ) = ((∑ p ∈ Finset.range (inc + 1), (X p + h).toNat * (2 ^ w) ^ p : ℕ) : ℤ) := by
      rw [hv, ← hT]
      push_cast
      refine Finset.sum_congr rfl (fun p hp => ?_)
      rw [← hn p (Finset.mem_range.1 hp)]; simp
    exact_mod_cast this) (fun p hp => by
      have := abs_le.1 (hX p (by omega)); have := hn p hp
      omega) hd
  intro p hp
  obtain ⟨a, b⟩ := this p (by omega)
  have e := hn p (by omega)
  rw [← hh] at a b
  rw [abs_le]
  omega

end

end Verif.Sine
