import Verif.Proof.FilterNum

/-! The sums of `sincLeft` and `sincRight` are the two parts of `exactSum`. -/

namespace Verif
open Spec

theorem sum_up (g : ℤ → ℚ) (c : ℤ) (n : ℕ) : ∑ j ∈ Finset.range n, g (j + c) = ∑ k ∈ Finset.Icc c (c + n - 1), g k := by
  refine Finset.sum_nbij (fun j => (j : ℤ) + c) ?_ ?_ ?_ (fun _ _ => rfl)
  · intro j hj
    simp only [Finset.mem_range, Finset.mem_Icc] at *
    omega
  · intro a _ b _ h
    simp only at h
    omega
  · intro k hk
    simp only [Finset.coe_Icc, Set.mem_Icc, Set.mem_image, Finset.coe_range, Set.mem_Iio] at *
    exact ⟨(k - c).toNat, by omega, by omega⟩

theorem sum_down (g : ℤ → ℚ) (c : ℤ) (n : ℕ) : ∑ j ∈ Finset.range n, g (c - j) = ∑ k ∈ Finset.Icc (c - n + 1) c, g k := by
  refine Finset.sum_nbij (fun j => c - (j : ℤ)) ?_ ?_ ?_ (fun _ _ => rfl)
  · intro j hj
    simp only [Finset.mem_range, Finset.mem_Icc] at *
    omega
  · intro a _ b _ h
    simp only at h
    omega
  · intro k hk
    simp only [Finset.coe_Icc, Set.mem_Icc, Set.mem_image, Finset.coe_range, Set.mem_Iio] at *
    exact ⟨(c - k).toNat, by omega, by omega⟩

/-- Fixed point geometry of one output frame. -/
structure Window (N incr start D : ℤ) : Prop where
  i1 : 1 ≤ incr
  i2 : 2 * incr ≤ 4096 * N
  s0 : 0 ≤ start
  s1 : start ≤ incr
  d0 : 0 ≤ D

section
variable {N incr start D : ℤ} (W : Window N incr start D)
include W

theorem Window.left_iff {k : ℤ} (hk : k ≤ 0) :
    (-D ≤ k ∧ |k * incr - start| ≤ 4096 * N) ↔ -(min ((4096 * N - start) / incr) D) ≤ k := by
  have := W.i1; have := W.s0
  have h : k * incr - start ≤ 0 := by nlinarith
  rw [abs_of_nonpos h, neg_le (a := min _ _), le_min_iff, Int.le_ediv_iff_mul_le (by omega)]
  constructor
  · rintro ⟨a, b⟩; exact ⟨by linarith, by omega⟩
  · rintro ⟨a, b⟩; exact ⟨by omega, by linarith⟩

theorem Window.right_iff {k : ℤ} (hk : 1 ≤ k) :
    |k * incr - start| ≤ 4096 * N ↔ k ≤ 1 + (4096 * N - (incr - start)) / incr := by
  have := W.i1; have := W.s0; have := W.s1
  have h : 0 ≤ k * incr - start := by nlinarith
  rw [abs_of_nonneg h, show (k ≤ 1 + (4096 * N - (incr - start)) / incr) ↔ k - 1 ≤ (4096 * N - (incr - start)) / incr by constructor <;> intro <;> omega,
    Int.le_ediv_iff_mul_le (by omega)]
  constructor <;> intro a <;> linarith

theorem Window.a_bounds : 0 ≤ min ((4096 * N - start) / incr) D ∧ 1 ≤ (4096 * N - (incr - start)) / incr ∧
    (4096 * N - (incr - start)) / incr ≤ 4096 * N := by
  have := W.i1; have := W.i2; have := W.s0; have := W.s1; have := W.d0
  refine ⟨le_min (Int.ediv_nonneg (by omega) (by omega)) W.d0, ?_, ?_⟩
  · rw [Int.le_ediv_iff_mul_le (by omega)]; omega
  · calc (4096 * N - (incr - start)) / incr ≤ 4096 * N - (incr - start) := Int.ediv_le_self _ (by omega)
      _ ≤ _ := by omega

theorem Window.filter_eq (g : ℤ → ℚ) :
    (∑ k ∈ Finset.Icc (-D) (4096 * N + 1), if |k * incr - start| ≤ 4096 * N then g k else 0) =
      ∑ k ∈ Finset.Icc (-(min ((4096 * N - start) / incr) D)) (1 + (4096 * N - (incr - start)) / incr), g k := by
  obtain ⟨a0, b0, b1⟩ := W.a_bounds
  rw [← Finset.sum_filter]
  congr 1
  ext k
  simp only [Finset.mem_filter, Finset.mem_Icc]
  rcases le_or_gt k 0 with hk | hk
  · have := W.left_iff hk
    constructor
    · rintro ⟨⟨h1, h2⟩, h3⟩; exact ⟨this.1 ⟨h1, h3⟩, by omega⟩
    · rintro ⟨h1, h2⟩; obtain ⟨h3, h4⟩ := this.2 h1; exact ⟨⟨h3, by omega⟩, h4⟩
  · have := W.right_iff (k := k) (by omega)
    have hd := W.d0
    constructor
    · rintro ⟨⟨h1, h2⟩, h3⟩; exact ⟨by omega, this.1 h3⟩
    · rintro ⟨h1, h2⟩; exact ⟨⟨by omega, by omega⟩, this.2 h2⟩

theorem Window.split (g : ℤ → ℚ) {a b s : ℤ} (ha : 0 ≤ a) (hb : 1 ≤ b) (hs : s = 0 ∨ s = 1) :
    ∑ k ∈ Finset.Icc (-a) (1 + b), g k = ∑ k ∈ Finset.Icc (-a) s, g k + ∑ k ∈ Finset.Icc (s + 1) (1 + b), g k := by
  rw [← Finset.sum_union]
  · congr 1
    ext k
    simp only [Finset.mem_union, Finset.mem_Icc]
    omega
  · rw [Finset.disjoint_left]
    intro k
    simp only [Finset.mem_Icc]
    omega

/-- Number of taps on the left and on the right, and where the border is. -/
theorem Window.counts : ∃ s : ℤ, (s = 0 ∨ s = 1) ∧
    (start + min ((4096 * N - start) / incr) D * incr) / incr + 1 = min ((4096 * N - start) / incr) D + s + 1 ∧
    max 1 ((incr - start + (4096 * N - (incr - start)) / incr * incr + incr - 1) / incr) = (4096 * N - (incr - start)) / incr + 1 - s ∧
    (s = 1 → start = incr) := by
  obtain ⟨a0, b0, b1⟩ := W.a_bounds
  generalize min ((4096 * N - start) / incr) D = a at *
  generalize (4096 * N - (incr - start)) / incr = b at *
  have i1 := W.i1; have s0 := W.s0
  rw [Int.add_mul_ediv_right _ _ (by omega), show incr - start + b * incr + incr - 1 = 2 * incr - start - 1 + b * incr by ring,
    Int.add_mul_ediv_right _ _ (by omega)]
  rcases eq_or_lt_of_le W.s1 with h | h
  · refine ⟨1, Or.inr rfl, ?_, ?_, fun _ => h⟩
    · rw [h, Int.ediv_self (by omega)]; ring
    · rw [Int.ediv_eq_zero_of_lt (by omega) (by omega)]; omega
  · refine ⟨0, Or.inl rfl, ?_, ?_, fun h => by omega⟩
    · rw [Int.ediv_eq_zero_of_lt s0 h]; ring
    · have : (2 * incr - start - 1) / incr = 1 := by
        rw [show 2 * incr - start - 1 = (incr - start - 1) + 1 * incr by ring, Int.add_mul_ediv_right _ _ (by omega),
          Int.ediv_eq_zero_of_lt (by omega) (by omega)]; rfl
      rw [this]; omega

/-- The two halves, in double arithmetic, against the exact sum. -/
theorem Window.halves {co : ℤ → F32} {q : ℤ → ℚ} {ε : ℚ} (ε0 : 0 ≤ ε) (ε1 : ε ≤ 1) (h1 : ∀ i, |q i| ≤ 1)
    (hc : ∀ fi, ∃ h, (sincCoeff co fi).val = some h ∧ |h - response q fi| ≤ ε)
    {x : ℤ → F32} {ξ : ℤ → ℚ} {e : ℤ} (he : -900 ≤ e) (he' : e ≤ 64)
    (hx : ∀ k, -D ≤ k → |k * incr - start| ≤ 4096 * N → (x k).val = some (ξ k) ∧ |ξ k| ≤ p2 e)
    {n : ℕ} (hn : (4096 * N) / incr + 2 ≤ n) (hn' : n ≤ 2 ^ 16) :
    ∃ l r, (sincLeft co N incr start D (fun k => Fl.conv f64 (x k))).val = some l ∧
      (sincRight co N incr start (fun k => Fl.conv f64 (x k))).val = some r ∧
      |l + r - exactSum q N incr start D ξ| ≤ 2 * n * ((ε + p2 (-34)) * p2 e) ∧
      |l| ≤ 2 * n * p2 e + n * p2 e ∧ |r| ≤ 2 * n * p2 e + n * p2 e ∧ |exactSum q N incr start D ξ| ≤ 2 * n * p2 e := by
  obtain ⟨a0, b0, b1⟩ := W.a_bounds
  obtain ⟨s, hs, c1, c2, c3⟩ := W.counts
  have i1 := W.i1; have i2 := W.i2; have s0 := W.s0; have s1 := W.s1
  choose h hh using hc
  unfold exactSum
  rw [W.filter_eq (fun k => response q |k * incr - start| * ξ k), W.split _ a0 b0 hs]
  have han : min ((4096 * N - start) / incr) D + s + 1 ≤ n := by
    have hle : (4096 * N - start) / incr ≤ (4096 * N) / incr := Int.ediv_le_ediv (by omega) (by omega)
    have := min_le_left ((4096 * N - start) / incr) D
    omega
  have hbn : (4096 * N - (incr - start)) / incr + 1 - s ≤ n := by
    have hle : (4096 * N - (incr - start)) / incr ≤ (4096 * N) / incr := Int.ediv_le_ediv (by omega) (by omega)
    omega
  have hin : ∀ k, -(min ((4096 * N - start) / incr) D) ≤ k → k ≤ 1 + (4096 * N - (incr - start)) / incr →
      (x k).val = some (ξ k) ∧ |ξ k| ≤ p2 e := by
    intro k k1 k2
    rcases le_or_gt k 0 with hk | hk
    · obtain ⟨u, v⟩ := (W.left_iff hk).2 k1
      exact hx k u v
    · have hd := W.d0
      exact hx k (by omega) ((W.right_iff (by omega)).2 k2)
  unfold sincLeft sincRight
  simp only
  rw [c1, c2]
  generalize min ((4096 * N - start) / incr) D = a at *
  generalize (4096 * N - (incr - start)) / incr = b at *
  obtain ⟨l, l1, l2, l3⟩ := tapSum_val (h := fun j => sincCoeff co (start + a * incr - j * incr)) (X := fun j => Fl.conv f64 (x (j - a)))
    (η := fun j => h (start + a * incr - j * incr)) (H := fun j => response q (start + a * incr - j * incr)) (ξ := fun j => ξ (j - a)) ε0 ε1 he he'
    (a + s + 1).toNat (by omega) (fun j _ => ⟨(hh _).1, (hh _).2, response_abs_le h1 _⟩)
    (fun j hj => by
      obtain ⟨u, v⟩ := hin (j - a) (by omega) (by omega)
      exact ⟨Fl.val_conv64 u, v⟩)
  obtain ⟨r, r1, r2, r3⟩ := tapSum_val (h := fun j => sincCoeff co (incr - start + b * incr - j * incr)) (X := fun j => Fl.conv f64 (x (1 + b - j)))
    (η := fun j => h (incr - start + b * incr - j * incr)) (H := fun j => response q (incr - start + b * incr - j * incr)) (ξ := fun j => ξ (1 + b - j)) ε0 ε1 he he'
    (b + 1 - s).toNat (by omega) (fun j _ => ⟨(hh _).1, (hh _).2, response_abs_le h1 _⟩)
    (fun j hj => by
      obtain ⟨u, v⟩ := hin (1 + b - j) (by omega) (by omega)
      exact ⟨Fl.val_conv64 u, v⟩)
  have eL : ∑ j ∈ Finset.range (a + s + 1).toNat, response q (start + a * incr - j * incr) * ξ (j - a) =
      ∑ k ∈ Finset.Icc (-a) s, response q |k * incr - start| * ξ k := by
    have := sum_up (fun k => response q (start - k * incr) * ξ k) (-a) (a + s + 1).toNat
    rw [show -a + (((a + s + 1).toNat : ℕ) : ℤ) - 1 = s by omega] at this
    rw [Finset.sum_congr rfl (g := fun k => response q (start - k * incr) * ξ k), ← this]
    · refine Finset.sum_congr rfl (fun j _ => ?_)
      rw [show start - ((j : ℤ) + -a) * incr = start + a * incr - j * incr by ring, show (j : ℤ) + -a = j - a by ring]
    · intro k hk
      rw [Finset.mem_Icc] at hk
      have : k * incr - start ≤ 0 := by
        rcases hs with rfl | rfl
        · nlinarith
        · have := c3 rfl; nlinarith
      rw [abs_of_nonpos this, neg_sub]
  have eR : ∑ j ∈ Finset.range (b + 1 - s).toNat, response q (incr - start + b * incr - j * incr) * ξ (1 + b - j) =
      ∑ k ∈ Finset.Icc (s + 1) (1 + b), response q |k * incr - start| * ξ k := by
    have := sum_down (fun k => response q (k * incr - start) * ξ k) (1 + b) (b + 1 - s).toNat
    rw [show 1 + b - (((b + 1 - s).toNat : ℕ) : ℤ) + 1 = s + 1 by omega] at this
    rw [Finset.sum_congr rfl (g := fun k => response q (k * incr - start) * ξ k), ← this]
    · refine Finset.sum_congr rfl (fun j _ => ?_)
      rw [show (1 + b - (j : ℤ)) * incr - start = incr - start + b * incr - j * incr by ring]
    · intro k hk
      rw [Finset.mem_Icc] at hk
      have : 0 ≤ k * incr - start := by
        have : 1 ≤ k := by omega
        nlinarith
      rw [abs_of_nonneg this]
  rw [eL] at l2 l3
  rw [eR] at r2 r3
  have hV := p2_pos e
  have hE : 0 ≤ (ε + p2 (-34)) * p2 e := mul_nonneg (add_nonneg ε0 (p2_pos _).le) hV.le
  have hE2 : (ε + p2 (-34)) * p2 e ≤ 2 * p2 e := by
    apply mul_le_mul_of_nonneg_right _ hV.le
    have : p2 (-34) ≤ 1 := by norm_num [p2]
    linarith
  have nl : (((a + s + 1).toNat : ℕ) : ℚ) ≤ n := by exact_mod_cast (by omega : (a + s + 1).toNat ≤ n)
  have nr : (((b + 1 - s).toNat : ℕ) : ℚ) ≤ n := by exact_mod_cast (by omega : (b + 1 - s).toNat ≤ n)
  have l2' := l2.trans (mul_le_mul_of_nonneg_right nl hE)
  have r2' := r2.trans (mul_le_mul_of_nonneg_right nr hE)
  have l3' := l3.trans (mul_le_mul_of_nonneg_right nl hV.le)
  have r3' := r3.trans (mul_le_mul_of_nonneg_right nr hV.le)
  have n0 : (0 : ℚ) ≤ n := by positivity
  have hE3 : (n : ℚ) * ((ε + p2 (-34)) * p2 e) ≤ n * (2 * p2 e) := mul_le_mul_of_nonneg_left hE2 n0
  refine ⟨l, r, l1, r1, ?_, ?_, ?_, ?_⟩ <;> rw [abs_le] at * <;> constructor <;> linarith

end

end Verif
