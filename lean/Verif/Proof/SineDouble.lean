import Verif.Proof.SineTable

/-! The powers of a point, packed into one number for each coordinate, by doubling their count: the products of all digits are computed at once. -/

namespace Verif.Sine

/-! ### what the kernel evaluates -/

/-- First coordinates of the products of the packed points `R`, `I` with the point `c`, `d`; `M` has the mask of a digit in every digit. -/
def reAll (S O C M ones R I c d : ℕ) : ℕ :=
  Nat.land (Nat.div (Nat.sub (Nat.add (Nat.add (Nat.mul R c) (Nat.mul O I)) (Nat.mul ones (Nat.add (Nat.mul O d) C)))
    (Nat.add (Nat.add (Nat.mul I d) (Nat.mul O R)) (Nat.mul ones (Nat.mul O c)))) S) M

/-- Second coordinates. -/
def imAll (S O E M ones R I c d : ℕ) : ℕ :=
  Nat.land (Nat.div (Nat.sub (Nat.add (Nat.add (Nat.mul R d) (Nat.mul I c)) (Nat.mul ones E))
    (Nat.add (Nat.mul O (Nat.add R I)) (Nat.mul ones (Nat.mul O (Nat.add c d))))) S) M

/-- `k` doublings of the packed powers `R`, `I` below the power `a`, `b`. `Q` is the base to the count of digits. -/
def double {α : Type} (m : ℕ) : ℕ → ℕ → ℕ → ℕ → ℕ → ℕ → ℕ → (ℕ → ℕ → α) → α
  | 0, _, _, R, I, _, _, f => f R I
  | k + 1, Q, ones, R, I, a, b, f =>
    force (Nat.mul m ones) fun M =>
    force (Nat.add R (Nat.mul Q (reAll 1152921504606846976 2305843009213693952 2658455991569831745807614120560689152 M ones R I a b))) fun R' =>
    force (Nat.add I (Nat.mul Q (imAll 1152921504606846976 2305843009213693952 13292279957849158729038070602803445760 M ones R I a b))) fun I' =>
    force (reMul a b a b) fun a' =>
    force (imMul a b a b) fun b' =>
    force (Nat.mul Q Q) fun Q' =>
    force (Nat.add ones (Nat.mul Q ones)) fun ones' => double m k Q' ones' R' I' a' b' f

/-! ### what it means -/

theorem pack_append (T : ℕ) : ∀ s t, pack T (s ++ t) = pack T s + T ^ s.length * pack T t
  | [], t => by
    show pack T t = 0 + _
    simp
  | a :: s, t => by
    rw [List.cons_append, pack_cons, pack_append T s t, pack_cons, List.length_cons, pow_succ]
    ring

theorem pack_map_cons {α : Type} (T : ℕ) (f : α → ℕ) (a : α) (s : List α) : pack T ((a :: s).map f) = f a + T * pack T (s.map f) := rfl

theorem pack_sub {α : Type} (T : ℕ) (x y : α → ℕ) : ∀ s : List α, (∀ z ∈ s, y z ≤ x z) →
    pack T (s.map x) - pack T (s.map y) = pack T (s.map fun z => x z - y z) ∧ pack T (s.map y) ≤ pack T (s.map x)
  | [], _ => ⟨rfl, le_rfl⟩
  | a :: s, h => by
    obtain ⟨h1, h2⟩ := pack_sub T x y s (fun z hz => h z (List.mem_cons_of_mem _ hz))
    have h3 := h a List.mem_cons_self
    rw [pack_map_cons, pack_map_cons, pack_map_cons, ← h1]
    have h4 := Nat.mul_le_mul_left T h2
    refine ⟨?_, by omega⟩
    rw [Nat.mul_sub]
    omega

theorem pack_lt (T : ℕ) : ∀ s : List ℕ, (∀ z ∈ s, z < T) → pack T s < T ^ s.length
  | [], _ => by show 0 < T ^ 0; simp
  | a :: s, h => by
    have h1 := pack_lt T s (fun z hz => h z (List.mem_cons_of_mem _ hz))
    have h2 := h a List.mem_cons_self
    rw [pack_cons, List.length_cons, pow_succ]
    have := Nat.mul_le_mul_left T (Nat.succ_le_of_lt h1)
    rw [Nat.mul_succ] at this
    rw [Nat.mul_comm (T ^ s.length)]
    omega

/-- Division of all digits by `S`. -/
theorem pack_div {S R : ℕ} (w : ℕ) (hw : R = 2 ^ w) (u : ℕ) (hu : S = 2 ^ u) {α : Type} (x : α → ℕ) : ∀ s : List α, (∀ z ∈ s, x z < S * R) →
    (pack (S * R) (s.map x) / S) &&& ((R - 1) * pack (S * R) (s.map fun _ => 1)) = pack (S * R) (s.map fun z => x z / S)
  | [], _ => by
    show 0 / S &&& _ = 0
    simp
  | a :: s, h => by
    have ih := pack_div w hw u hu x s (fun z hz => h z (List.mem_cons_of_mem _ hz))
    have h1 := h a List.mem_cons_self
    have S0 : 0 < S := by rw [hu]; exact Nat.two_pow_pos u
    have R0 : 0 < R := by rw [hw]; exact Nat.two_pow_pos w
    have T0 : 0 < S * R := Nat.mul_pos S0 R0
    rw [pack_map_cons, pack_map_cons, pack_map_cons, ← ih]
    generalize pack (S * R) (s.map x) = N
    generalize pack (S * R) (s.map fun _ => 1) = o
    have hT : S * R = 2 ^ (u + w) := by rw [hu, hw, pow_add]
    have e1 : (R - 1) * (1 + S * R * o) = (R - 1) + S * R * ((R - 1) * o) := by ring
    have hlt : R - 1 < S * R := by
      have := Nat.le_mul_of_pos_left R S0
      omega
    rw [e1, ← Nat.mod_add_div ((x a + S * R * N) / S &&& (R - 1 + S * R * ((R - 1) * o))) (S * R)]
    congr 1
    · conv_lhs => rw [hT]
      rw [Nat.and_mod_two_pow, ← hT, Nat.add_mul_mod_self_left, Nat.mod_eq_of_lt hlt]
      conv_lhs => rw [hw, Nat.and_two_pow_sub_one_eq_mod, ← hw]
      rw [Nat.mod_mul_left_mod, ← Nat.mod_mul_right_div_self, Nat.add_mul_mod_self_left, Nat.mod_eq_of_lt h1]
    · congr 1
      conv_lhs => rw [hT]
      rw [Nat.and_div_two_pow, ← hT, Nat.add_mul_div_left _ _ T0, Nat.div_eq_of_lt hlt, Nat.zero_add, Nat.div_div_eq_div_mul, Nat.mul_comm S (S * R), ← Nat.div_div_eq_div_mul,
        Nat.add_mul_div_left _ _ T0, Nat.div_eq_of_lt h1, Nat.zero_add]

theorem pack_re (T O C c d : ℕ) : ∀ zs : List (ℕ × ℕ), pack T (zs.map Prod.fst) * c + O * pack T (zs.map Prod.snd) + pack T (zs.map fun _ => 1) * (O * d + C) =
      pack T (zs.map fun z => z.1 * c + O * (z.2 + d) + C) ∧
    pack T (zs.map Prod.snd) * d + O * pack T (zs.map Prod.fst) + pack T (zs.map fun _ => 1) * (O * c) = pack T (zs.map fun z => z.2 * d + O * (z.1 + c))
  | [] => by
    show 0 * c + O * 0 + 0 * (O * d + C) = 0 ∧ 0 * d + O * 0 + 0 * (O * c) = 0
    simp
  | z :: zs => by
    obtain ⟨h1, h2⟩ := pack_re T O C c d zs
    simp only [pack_map_cons]
    rw [← h1, ← h2]
    constructor <;> ring

theorem pack_im (T O E c d : ℕ) : ∀ zs : List (ℕ × ℕ), pack T (zs.map Prod.fst) * d + pack T (zs.map Prod.snd) * c + pack T (zs.map fun _ => 1) * E =
      pack T (zs.map fun z => z.1 * d + z.2 * c + E) ∧
    O * (pack T (zs.map Prod.fst) + pack T (zs.map Prod.snd)) + pack T (zs.map fun _ => 1) * (O * (c + d)) = pack T (zs.map fun z => O * (z.1 + z.2 + (c + d)))
  | [] => by
    show 0 * d + 0 * c + 0 * E = 0 ∧ O * (0 + 0) + 0 * (O * (c + d)) = 0
    simp
  | z :: zs => by
    obtain ⟨h1, h2⟩ := pack_im T O E c d zs
    simp only [pack_map_cons]
    rw [← h1, ← h2]
    constructor <;> ring

/-- All points are near the unit circle. -/
def AllNear (r : ℝ) (zs : List (ℕ × ℕ)) : Prop := ∀ z ∈ zs, ∃ θ, Near r θ z.1 z.2

section
variable {S O C E R w u : ℕ} (H : Consts S O C) (hE : E = 5 * C) (hw : R = 2 ^ w) (hu : S = 2 ^ u) (hT : 13 * (O * O) < S * R) (hC : C ≤ O * O)
  {r r' θ : ℝ} {zs : List (ℕ × ℕ)} (hz : AllNear r zs) (hr : r ≤ 1 / 8) {c d : ℕ} (hc : Near r' θ c d) (hr' : r' ≤ 1 / 8)
include H hw hu hT hC hz hr hc hr'

theorem reAll_eq : reAll S O C ((R - 1) * pack (S * R) (zs.map fun _ => 1)) (pack (S * R) (zs.map fun _ => 1)) (pack (S * R) (zs.map Prod.fst)) (pack (S * R) (zs.map Prod.snd)) c d =
    pack (S * R) (zs.map fun z => (z.1 * c + O * (z.2 + d) + C - (z.2 * d + O * (z.1 + c))) / S) := by
  obtain ⟨h1, h2⟩ := pack_re (S * R) O C c d zs
  have h3 := pack_sub (S * R) (fun z : ℕ × ℕ => z.1 * c + O * (z.2 + d) + C) (fun z => z.2 * d + O * (z.1 + c)) zs (fun z hm => by
    obtain ⟨t, ht⟩ := hz z hm
    exact le_of_diff (re_diff H z.1 z.2 c d) (two_pow (ht.mul_abs hc hr hr').1))
  have h4 := pack_div w hw u hu (fun z : ℕ × ℕ => z.1 * c + O * (z.2 + d) + C - (z.2 * d + O * (z.1 + c))) zs (fun z hm => by
    obtain ⟨t, ht⟩ := hz z hm
    obtain ⟨a1, a2⟩ := near_abs ht (by linarith)
    obtain ⟨a3, a4⟩ := near_abs hc (by linarith)
    have b1 := (coord_abs H.o a1).2
    have b2 := (coord_abs H.o a2).2
    have b3 := (coord_abs H.o a3).2
    have b4 := (coord_abs H.o a4).2
    have p1 := Nat.mul_le_mul b1 b3
    have p2 := Nat.mul_le_mul_left O (Nat.add_le_add b2 b4)
    refine lt_of_le_of_lt (Nat.sub_le _ _) (lt_of_le_of_lt ?_ hT)
    nlinarith)
  rw [← h4, ← h3.1, ← h1, ← h2]
  rfl

include hE in
theorem imAll_eq : imAll S O E ((R - 1) * pack (S * R) (zs.map fun _ => 1)) (pack (S * R) (zs.map fun _ => 1)) (pack (S * R) (zs.map Prod.fst)) (pack (S * R) (zs.map Prod.snd)) c d =
    pack (S * R) (zs.map fun z => (z.1 * d + z.2 * c + E - (O * (z.1 + z.2 + (c + d)))) / S) := by
  obtain ⟨h1, h2⟩ := pack_im (S * R) O E c d zs
  have h3 := pack_sub (S * R) (fun z : ℕ × ℕ => z.1 * d + z.2 * c + E) (fun z => O * (z.1 + z.2 + (c + d))) zs (fun z hm => by
    obtain ⟨t, ht⟩ := hz z hm
    exact le_of_diff (im_diff H hE z.1 z.2 c d) (two_pow (ht.mul_abs hc hr hr').2))
  have h4 := pack_div w hw u hu (fun z : ℕ × ℕ => z.1 * d + z.2 * c + E - (O * (z.1 + z.2 + (c + d)))) zs (fun z hm => by
    obtain ⟨t, ht⟩ := hz z hm
    obtain ⟨a1, a2⟩ := near_abs ht (by linarith)
    obtain ⟨a3, a4⟩ := near_abs hc (by linarith)
    have b1 := (coord_abs H.o a1).2
    have b2 := (coord_abs H.o a2).2
    have b3 := (coord_abs H.o a3).2
    have b4 := (coord_abs H.o a4).2
    have p1 := Nat.mul_le_mul b1 b4
    have p2 := Nat.mul_le_mul b2 b3
    refine lt_of_le_of_lt (Nat.sub_le _ _) (lt_of_le_of_lt ?_ hT)
    rw [hE]
    nlinarith)
  rw [← h4, ← h3.1, ← h1, ← h2]
  rfl

end

/-- `zs` are the powers of a point at angle `φ`. -/
def Powers (r φ : ℝ) (zs : List (ℕ × ℕ)) : Prop := ∀ p < zs.length, Near r (p * φ) (zs.getD p (0, 0)).1 (zs.getD p (0, 0)).2

theorem Powers.all {r φ : ℝ} {zs : List (ℕ × ℕ)} (h : Powers r φ zs) : AllNear r zs := by
  intro z hz
  obtain ⟨i, hi, e⟩ := List.mem_iff_getElem.1 hz
  have := h i hi
  rw [List.getD_eq_getElem?_getD, List.getElem?_eq_getElem hi, Option.getD_some, e] at this
  exact ⟨_, this⟩

theorem map_ones {α β : Type} (s : List α) (t : List β) (h : s.length = t.length) : s.map (fun _ => 1) = t.map (fun _ => (1 : ℕ)) := by
  rw [List.map_const', List.map_const', h]

theorem double_sound {α : Type} {R w : ℕ} (hw : R = 2 ^ w) (hw2 : 66 ≤ w) {φ : ℝ} (f : ℕ → ℕ → α) : ∀ (k : ℕ) (zs : List (ℕ × ℕ)) (a b : ℕ) (r : ℝ), Powers r φ zs →
    Near r (zs.length * φ) a b → 0 ≤ r → (17 / 8) ^ k * (r + 2 / 2 ^ 60) ≤ 1 / 8 →
    ∃ zs' : List (ℕ × ℕ), zs'.length = 2 ^ k * zs.length ∧ Powers ((17 / 8) ^ k * (r + 2 / 2 ^ 60)) φ zs' ∧
      double (R - 1) k ((1152921504606846976 * R) ^ zs.length) (pack (1152921504606846976 * R) (zs.map fun _ => 1)) (pack (1152921504606846976 * R) (zs.map Prod.fst))
        (pack (1152921504606846976 * R) (zs.map Prod.snd)) a b f =
      f (pack (1152921504606846976 * R) (zs'.map Prod.fst)) (pack (1152921504606846976 * R) (zs'.map Prod.snd)) := by
  intro k
  induction k with
  | zero =>
    intro zs a b r hz _ r0 _
    refine ⟨zs, by simp, fun p hp => le_trans (hz p hp) (by norm_num), rfl⟩
  | succ k ih =>
    intro zs a b r hz ha r0 hr
    have one : (1 : ℝ) ≤ (17 / 8) ^ k := one_le_pow₀ (by norm_num)
    have d0 : (0 : ℝ) < 2 / 2 ^ 60 := by positivity
    have hr8 : r ≤ 1 / 8 := by
      rw [pow_succ (17 / 8 : ℝ) k] at hr
      nlinarith
    obtain ⟨zs1, hzs1⟩ : ∃ l, l = zs.map (fun z => (reMul z.1 z.2 a b, imMul z.1 z.2 a b)) := ⟨_, rfl⟩
    have hl1 : zs1.length = zs.length := by rw [hzs1, List.length_map]
    have hr' : r + 9 / 8 * r + 2 / 2 ^ 60 + 2 / 2 ^ 60 ≤ 17 / 8 * (r + 2 / 2 ^ 60) := by linarith
    have hP : Powers (r + 9 / 8 * r + 2 / 2 ^ 60) φ (zs ++ zs1) := by
      intro p hp
      rw [List.length_append, hl1] at hp
      by_cases hlt : p < zs.length
      · rw [List.getD_append _ _ _ _ hlt]
        exact le_trans (hz p hlt) (by linarith)
      · rw [List.getD_append_right _ _ _ _ (by omega)]
        have := (hz (p - zs.length) (by omega)).mul_le ha hr8 hr8
        rw [show ((p - zs.length : ℕ) : ℝ) * φ + zs.length * φ = p * φ by rw [Nat.cast_sub (by omega)]; ring] at this
        have e : zs1.getD (p - zs.length) (0, 0) = (reMul (zs.getD (p - zs.length) (0, 0)).1 (zs.getD (p - zs.length) (0, 0)).2 a b,
            imMul (zs.getD (p - zs.length) (0, 0)).1 (zs.getD (p - zs.length) (0, 0)).2 a b) := by
          rw [hzs1, List.getD_eq_getElem?_getD, List.getElem?_map, List.getElem?_eq_getElem (by omega), List.getD_eq_getElem?_getD, List.getElem?_eq_getElem (by omega)]
          simp
        rw [e]
        exact this
    have ha2 : Near (r + 9 / 8 * r + 2 / 2 ^ 60) ((zs ++ zs1).length * φ) (reMul a b a b) (imMul a b a b) := by
      have := ha.mul_le ha hr8 hr8
      rw [List.length_append, hl1]
      push_cast
      rw [add_mul]
      exact this
    have hle : (17 / 8) ^ k * (r + 9 / 8 * r + 2 / 2 ^ 60 + 2 / 2 ^ 60) ≤ (17 / 8) ^ (k + 1) * (r + 2 / 2 ^ 60) := by
      rw [pow_succ (17 / 8 : ℝ) k, mul_assoc]
      exact mul_le_mul_of_nonneg_left hr' (by positivity)
    obtain ⟨zs', h1, h2, h3⟩ := ih (zs ++ zs1) (reMul a b a b) (imMul a b a b) _ hP ha2 (by positivity) (hle.trans hr)
    refine ⟨zs', by rw [h1, List.length_append, hl1, pow_succ]; ring, fun p hp => le_trans (h2 p hp) hle, ?_⟩
    rw [← h3, double]
    simp only [force_eq]
    have hR : 2 ^ 66 ≤ R := by rw [hw]; exact Nat.pow_le_pow_right (by norm_num) hw2
    have hT : 13 * (2305843009213693952 * 2305843009213693952) < 1152921504606846976 * R := by
      have := Nat.mul_le_mul_left 1152921504606846976 hR
      refine lt_of_lt_of_le ?_ this
      norm_num
    have q1 := reAll_eq consts (u := 60) hw (by norm_num) hT (by norm_num) hz.all hr8 ha hr8
    have q2 := imAll_eq consts (E := 13292279957849158729038070602803445760) (u := 60) (by norm_num) hw (by norm_num) hT (by norm_num) hz.all hr8 ha hr8
    have m1 : zs.map (fun z => reMul z.1 z.2 a b) = zs1.map Prod.fst := by rw [hzs1, List.map_map]; rfl
    have m2 : zs.map (fun z => imMul z.1 z.2 a b) = zs1.map Prod.snd := by rw [hzs1, List.map_map]; rfl
    have q1' : reAll 1152921504606846976 2305843009213693952 2658455991569831745807614120560689152 (Nat.mul (R - 1) (pack (1152921504606846976 * R) (zs.map fun _ => 1)))
        (pack (1152921504606846976 * R) (zs.map fun _ => 1)) (pack (1152921504606846976 * R) (zs.map Prod.fst)) (pack (1152921504606846976 * R) (zs.map Prod.snd)) a b =
        pack (1152921504606846976 * R) (zs1.map Prod.fst) := by rw [← m1]; exact q1
    have q2' : imAll 1152921504606846976 2305843009213693952 13292279957849158729038070602803445760 (Nat.mul (R - 1) (pack (1152921504606846976 * R) (zs.map fun _ => 1)))
        (pack (1152921504606846976 * R) (zs.map fun _ => 1)) (pack (1152921504606846976 * R) (zs.map Prod.fst)) (pack (1152921504606846976 * R) (zs.map Prod.snd)) a b =
        pack (1152921504606846976 * R) (zs1.map Prod.snd) := by rw [← m2]; exact q2
    rw [q1', q2', List.map_append, List.map_append, List.map_append, pack_append, pack_append, pack_append, List.length_append, hl1, List.length_map, List.length_map, List.length_map,
      map_ones zs1 zs hl1, pow_add]
    rfl

/-- The first `n` digits. -/
theorem pack_take (T : ℕ) (s : List ℕ) (h : ∀ z ∈ s, z < T) {n : ℕ} (hn : n ≤ s.length) : pack T s % T ^ n = pack T (s.take n) := by
  have := pack_append T (s.take n) (s.drop n)
  rw [List.take_append_drop, List.length_take, Nat.min_eq_left hn] at this
  rw [this, Nat.add_mul_mod_self_left, Nat.mod_eq_of_lt]
  have := pack_lt T (s.take n) (fun z hz => h z (List.mem_of_mem_take hz))
  rwa [List.length_take, Nat.min_eq_left hn] at this

/-- The last digit. -/
theorem pack_last (T : ℕ) (s : List ℕ) (h : ∀ z ∈ s, z < T) {n : ℕ} (hn : s.length = n + 1) : pack T s / T ^ n = s.getD n 0 := by
  have h1 := pack_append T (s.take n) (s.drop n)
  rw [List.take_append_drop, List.length_take, Nat.min_eq_left (by omega)] at h1
  have h2 := pack_lt T (s.take n) (fun z hz => h z (List.mem_of_mem_take hz))
  rw [List.length_take, Nat.min_eq_left (by omega)] at h2
  rw [h1, Nat.add_mul_div_left _ _ (by omega), Nat.div_eq_of_lt h2, Nat.zero_add, List.drop_eq_getElem_cons (by omega), pack_cons,
    List.drop_eq_nil_of_le (by omega), List.getD_eq_getElem?_getD, List.getElem?_eq_getElem (by omega)]
  show _ + T * 0 = _
  simp

end Verif.Sine
