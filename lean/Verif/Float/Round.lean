import Verif.Float.Rne

/-! Rounding of a rational to a binary floating point format (IEEE-754, round to nearest, ties to even, with
gradual underflow).  Overflow to infinity is handled in `Verif.Float.Fl`. -/

namespace Verif

/-- A binary interchange format: `prec` significand bits, `emin` the exponent of the least subnormal,
`emax` the exponent bound (finite values are `< 2^emax` in magnitude). -/
structure Fmt where
  prec : ℕ
  emin : ℤ
  emax : ℤ
  hprec : 2 ≤ prec
  hem : emin + prec ≤ 0
  hmax : (prec : ℤ) + 1 ≤ emax

/-- binary64 (C `double`). -/
def f64 : Fmt := ⟨53, -1074, 1024, by norm_num, by norm_num, by norm_num⟩
/-- binary32 (C `float`). -/
def f32 : Fmt := ⟨24, -149, 128, by norm_num, by norm_num, by norm_num⟩

/-- 2^e as a rational. -/
abbrev p2 (e : ℤ) : ℚ := (2 : ℚ) ^ e

theorem p2_pos (e : ℤ) : 0 < p2 e := zpow_pos (by norm_num) e
theorem p2_ne (e : ℤ) : p2 e ≠ 0 := (p2_pos e).ne'
theorem p2_add (a b : ℤ) : p2 (a + b) = p2 a * p2 b := zpow_add₀ (by norm_num) a b
theorem p2_sub (a b : ℤ) : p2 (a - b) = p2 a / p2 b := zpow_sub₀ (by norm_num) a b
theorem p2_le {a b : ℤ} (h : a ≤ b) : p2 a ≤ p2 b := zpow_le_zpow_right₀ (by norm_num) h
theorem p2_lt {a b : ℤ} (h : a < b) : p2 a < p2 b := zpow_lt_zpow_right₀ (by norm_num) h
theorem p2_le_iff {a b : ℤ} : p2 a ≤ p2 b ↔ a ≤ b := zpow_le_zpow_iff_right₀ (by norm_num)
theorem p2_lt_iff {a b : ℤ} : p2 a < p2 b ↔ a < b := zpow_lt_zpow_iff_right₀ (by norm_num)
theorem p2_natCast (n : ℕ) : p2 (n : ℤ) = (2 : ℚ) ^ n := zpow_natCast 2 n
@[simp] theorem p2_zero : p2 0 = 1 := zpow_zero 2

/-- A power of two with nonnegative exponent difference is an integer. -/
theorem p2_int {e : ℤ} (h : 0 ≤ e) : p2 e = (((2 : ℤ) ^ e.toNat : ℤ) : ℚ) := by
  obtain ⟨n, rfl⟩ := Int.eq_ofNat_of_zero_le h
  simp [p2]

/-- `q` has a significand of at most `prec` bits and exponent at least `emin` (no upper bound on magnitude). -/
def Rep0 (f : Fmt) (q : ℚ) : Prop :=
  ∃ m e : ℤ, f.emin ≤ e ∧ |m| < 2 ^ f.prec ∧ q = m * p2 e

/-- exponent of one unit in the last place of `q` -/
def ulpExp (f : Fmt) (q : ℚ) : ℤ := max (Int.log 2 |q| - (f.prec - 1)) f.emin

/-- Round to nearest even in format `f`, ignoring overflow. -/
def rq (f : Fmt) (q : ℚ) : ℚ := rne (q / p2 (ulpExp f q)) * p2 (ulpExp f q)

theorem rep0_zero (f : Fmt) : Rep0 f 0 := ⟨0, f.emin, le_refl _, by simp, by simp⟩

theorem rep0_neg {f : Fmt} {q : ℚ} (h : Rep0 f q) : Rep0 f (-q) := by
  obtain ⟨m, e, h1, h2, h3⟩ := h
  exact ⟨-m, e, h1, by simpa using h2, by rw [h3]; push_cast; ring⟩

/-- A slightly more liberal way of showing representability: the significand may equal `2^prec`. -/
theorem rep0_of_le {f : Fmt} {q : ℚ} {m e : ℤ} (h1 : f.emin ≤ e) (h2 : |m| ≤ 2 ^ f.prec)
    (h3 : q = m * p2 e) : Rep0 f q := by
  rcases lt_or_eq_of_le h2 with h | h
  · exact ⟨m, e, h1, h, h3⟩
  · have hp := f.hprec
    obtain ⟨k, hk⟩ : ∃ k, f.prec = k + 1 := ⟨f.prec - 1, by omega⟩
    have hm : m = 2 ^ f.prec ∨ m = - 2 ^ f.prec := by
      rcases abs_cases m with h' | h' <;> omega
    have key : ∀ s : ℤ, |s| = 1 → m = s * 2 ^ f.prec → Rep0 f q := by
      intro s hs hms
      refine ⟨s * 2 ^ k, e + 1, by omega, ?_, ?_⟩
      · rw [abs_mul, hs, one_mul, abs_of_pos (by positivity), hk]
        exact pow_lt_pow_right₀ (by norm_num) (by omega)
      · rw [h3, hms, hk, p2_add]; push_cast
        have : p2 1 = 2 := by simp [p2]
        rw [this]; ring
    rcases hm with h' | h'
    · exact key 1 (by simp) (by simpa using h')
    · exact key (-1) (by simp) (by simpa using h')

theorem ulpExp_neg (f : Fmt) (q : ℚ) : ulpExp f (-q) = ulpExp f q := by simp [ulpExp]

theorem emin_le_ulpExp (f : Fmt) (q : ℚ) : f.emin ≤ ulpExp f q := le_max_right _ _

theorem rq_neg (f : Fmt) (q : ℚ) : rq f (-q) = - rq f q := by
  unfold rq; rw [ulpExp_neg, neg_div, rne_neg]; push_cast; ring

@[simp] theorem rq_zero (f : Fmt) : rq f 0 = 0 := by simp [rq]

theorem p2_log_le {q : ℚ} (h : 0 < q) : p2 (Int.log 2 q) ≤ q := by
  have := Int.zpow_log_le_self (b := 2) (by norm_num) h
  simpa [p2] using this

theorem lt_p2_log (q : ℚ) : q < p2 (Int.log 2 q + 1) := by
  have := Int.lt_zpow_succ_log_self (b := 2) (by norm_num) q
  simpa [p2] using this

/-- magnitude bound of the scaled significand -/
theorem abs_div_ulp_lt (f : Fmt) (q : ℚ) : |q / p2 (ulpExp f q)| < 2 ^ f.prec := by
  rw [abs_div, abs_of_pos (p2_pos _), div_lt_iff₀ (p2_pos _)]
  refine (lt_p2_log |q|).trans_le ?_
  have : (2 : ℚ) ^ f.prec = p2 (f.prec : ℤ) := (p2_natCast _).symm
  rw [this, ← p2_add]
  apply p2_le
  have := le_max_left (Int.log 2 |q| - ((f.prec : ℤ) - 1)) f.emin
  unfold ulpExp
  omega

theorem rep0_rq (f : Fmt) (q : ℚ) : Rep0 f (rq f q) := by
  refine rep0_of_le (emin_le_ulpExp f q) ?_ rfl
  have h := abs_div_ulp_lt f q
  rw [abs_lt] at h
  rw [abs_le]
  constructor
  · apply le_rne_of_le; push_cast; exact h.1.le
  · apply rne_le_of_le; push_cast; exact h.2.le

theorem rq_nonneg {f : Fmt} {q : ℚ} (h : 0 ≤ q) : 0 ≤ rq f q := by
  unfold rq
  have := rne_nonneg (div_nonneg h (p2_pos (ulpExp f q)).le)
  have h2 : (0 : ℚ) ≤ (rne (q / p2 (ulpExp f q)) : ℚ) := by exact_mod_cast this
  exact mul_nonneg h2 (p2_pos _).le

theorem rq_nonpos {f : Fmt} {q : ℚ} (h : q ≤ 0) : rq f q ≤ 0 := by
  have := rq_nonneg (f := f) (q := -q) (by linarith)
  rw [rq_neg] at this; linarith

/-- If the representation exponent is at least the ulp exponent then `r` is a multiple of the ulp. -/
private theorem multiple {m e u : ℤ} (h : u ≤ e) : ∃ n : ℤ, (m : ℚ) * p2 e = n * p2 u := by
  refine ⟨m * 2 ^ (e - u).toNat, ?_⟩
  have : p2 e = p2 (e - u) * p2 u := by rw [← p2_add]; congr 1; omega
  rw [this, p2_int (by omega : 0 ≤ e - u)]; push_cast; ring

private theorem small {f : Fmt} {m e : ℤ} {q : ℚ} (hq : 0 < q) (hm : |m| < 2 ^ f.prec) (he : f.emin ≤ e)
    (h : e < ulpExp f q) :
    (m : ℚ) * p2 e < p2 (Int.log 2 q) ∧ ulpExp f q ≤ Int.log 2 q := by
  have hu : ulpExp f q = Int.log 2 q - (f.prec - 1) := by
    unfold ulpExp at *
    rw [abs_of_pos hq] at *
    rcases max_choice (Int.log 2 q - ((f.prec : ℤ) - 1)) f.emin with h' | h'
    · exact h'
    · omega
  have hp := f.hprec
  refine ⟨?_, by omega⟩
  have h1 : (m : ℚ) < p2 (f.prec : ℤ) := by
    rw [p2_natCast]
    exact_mod_cast (abs_lt.1 hm).2
  calc (m : ℚ) * p2 e < p2 (f.prec : ℤ) * p2 e := by
        exact mul_lt_mul_of_pos_right h1 (p2_pos _)
    _ = p2 (f.prec + e) := (p2_add _ _).symm
    _ ≤ p2 (Int.log 2 q) := p2_le (by omega)

private theorem le_rq_pos {f : Fmt} {r q : ℚ} (hq : 0 < q) (hr : Rep0 f r) (h : r ≤ q) : r ≤ rq f q := by
  obtain ⟨m, e, h1, h2, h3⟩ := hr
  have hu := p2_pos (ulpExp f q)
  rcases le_or_gt (ulpExp f q) e with he | he
  · obtain ⟨n, hn⟩ := multiple (m := m) he
    rw [h3, hn] at h ⊢
    unfold rq
    apply mul_le_mul_of_nonneg_right _ hu.le
    have : n ≤ rne (q / p2 (ulpExp f q)) := le_rne_of_le (by rw [le_div_iff₀ hu]; exact h)
    exact_mod_cast this
  · obtain ⟨hs, hl⟩ := small hq h2 h1 he
    rw [h3]
    refine hs.le.trans ?_
    obtain ⟨n, hn⟩ := multiple (m := 1) hl
    rw [Int.cast_one, one_mul] at hn
    rw [hn]
    unfold rq
    apply mul_le_mul_of_nonneg_right _ hu.le
    have : n ≤ rne (q / p2 (ulpExp f q)) := le_rne_of_le (by
      rw [le_div_iff₀ hu, ← hn]; exact p2_log_le hq)
    exact_mod_cast this

private theorem rq_le_pos {f : Fmt} {r q : ℚ} (hq : 0 < q) (hr : Rep0 f r) (h : q ≤ r) : rq f q ≤ r := by
  obtain ⟨m, e, h1, h2, h3⟩ := hr
  have hu := p2_pos (ulpExp f q)
  rcases le_or_gt (ulpExp f q) e with he | he
  · obtain ⟨n, hn⟩ := multiple (m := m) he
    rw [h3, hn] at h ⊢
    unfold rq
    apply mul_le_mul_of_nonneg_right _ hu.le
    have : rne (q / p2 (ulpExp f q)) ≤ n := rne_le_of_le (by rw [div_le_iff₀ hu]; exact h)
    exact_mod_cast this
  · obtain ⟨hs, _⟩ := small hq h2 h1 he
    rw [← h3] at hs
    have := p2_log_le hq
    linarith

/-- Rounding never moves a value below a representable value under it. -/
theorem le_rq {f : Fmt} {r q : ℚ} (hr : Rep0 f r) (h : r ≤ q) : r ≤ rq f q := by
  rcases lt_trichotomy q 0 with hq | hq | hq
  · have := rq_le_pos (f := f) (r := -r) (q := -q) (by linarith) (rep0_neg hr) (by linarith)
    rw [rq_neg] at this; linarith
  · subst hq; simpa using h
  · exact le_rq_pos hq hr h

/-- Rounding never moves a value above a representable value over it. -/
theorem rq_le {f : Fmt} {r q : ℚ} (hr : Rep0 f r) (h : q ≤ r) : rq f q ≤ r := by
  have := le_rq (f := f) (r := -r) (q := -q) (rep0_neg hr) (by linarith)
  rw [rq_neg] at this; linarith

/-- Rounding is exact on representable values. -/
theorem rq_of_rep {f : Fmt} {q : ℚ} (h : Rep0 f q) : rq f q = q :=
  le_antisymm (rq_le h le_rfl) (le_rq h le_rfl)

theorem rq_rq (f : Fmt) (q : ℚ) : rq f (rq f q) = rq f q := rq_of_rep (rep0_rq f q)

theorem rep0_p2 {f : Fmt} {e : ℤ} (h : f.emin ≤ e) : Rep0 f (p2 e) := by
  refine ⟨1, e, h, ?_, by simp⟩
  have := f.hprec
  simpa using one_lt_pow₀ (by norm_num : (1 : ℤ) < 2) (by omega)

private theorem rq_mono_pos {f : Fmt} {x y : ℚ} (hx : 0 < x) (h : x ≤ y) : rq f x ≤ rq f y := by
  have hy : 0 < y := hx.trans_le h
  by_cases he : ulpExp f x = ulpExp f y
  · unfold rq
    rw [he]
    apply mul_le_mul_of_nonneg_right _ (p2_pos _).le
    have := rne_mono (div_le_div_of_nonneg_right h (p2_pos (ulpExp f y)).le)
    exact_mod_cast this
  · have hl : Int.log 2 x ≤ Int.log 2 y := Int.log_mono_right hx h
    have hlt : Int.log 2 x < Int.log 2 y := by
      rcases lt_or_eq_of_le hl with h' | h'
      · exact h'
      · exfalso; apply he; unfold ulpExp; rw [abs_of_pos hx, abs_of_pos hy, h']
    have hmin : f.emin ≤ Int.log 2 y := by
      by_contra hc
      apply he
      have := f.hprec
      unfold ulpExp; rw [abs_of_pos hx, abs_of_pos hy, max_eq_right (by omega), max_eq_right (by omega)]
    have hr := rep0_p2 hmin
    have h1 : x ≤ p2 (Int.log 2 y) := (lt_p2_log x).le.trans (p2_le (by omega))
    exact (rq_le hr h1).trans (le_rq hr (p2_log_le hy))

/-- Rounding is monotone. -/
theorem rq_mono {f : Fmt} {x y : ℚ} (h : x ≤ y) : rq f x ≤ rq f y := by
  rcases lt_or_ge 0 x with hx | hx
  · exact rq_mono_pos hx h
  · rcases le_or_gt 0 y with hy | hy
    · exact (rq_nonpos hx).trans (rq_nonneg hy)
    · have := rq_mono_pos (f := f) (x := -y) (y := -x) (by linarith) (by linarith)
      rw [rq_neg, rq_neg] at this; linarith

/-- Absolute error of rounding. -/
theorem abs_rq_sub_le (f : Fmt) (q : ℚ) : |rq f q - q| ≤ p2 (ulpExp f q) / 2 := by
  have hu := p2_pos (ulpExp f q)
  have h := abs_rne_sub_le (q / p2 (ulpExp f q))
  have e : rq f q - q = ((rne (q / p2 (ulpExp f q)) : ℚ) - q / p2 (ulpExp f q)) * p2 (ulpExp f q) := by
    unfold rq; field_simp
  rw [e, abs_mul, abs_of_pos hu]
  calc _ ≤ 1 / 2 * p2 (ulpExp f q) := mul_le_mul_of_nonneg_right h hu.le
    _ = _ := by ring

/-- If `|q| < 2^k` the rounding error is at most `2^(k-prec-1)` (or half the least subnormal). -/
theorem abs_rq_sub_le_of_lt {f : Fmt} {q : ℚ} {k : ℤ} (h : |q| < p2 k) (hk : f.emin + f.prec ≤ k) :
    |rq f q - q| ≤ p2 (k - f.prec - 1) := by
  rcases eq_or_ne q 0 with rfl | hq
  · simpa using (p2_pos _).le
  refine (abs_rq_sub_le f q).trans ?_
  have : p2 (ulpExp f q) / 2 = p2 (ulpExp f q - 1) := by
    rw [p2_sub]; simp [p2]
  rw [this]
  apply p2_le
  unfold ulpExp
  have hq' : 0 < |q| := abs_pos.2 hq
  have : Int.log 2 |q| < k := by
    have := (p2_log_le hq').trans_lt h
    exact p2_lt_iff.1 this
  omega

/-- The representation is closed under lowering the magnitude on the same grid: if `t` is representable, `s`
has no larger magnitude and is a multiple of `2^e` for the exponent of some representation of `t`, it is
representable. -/
theorem rep0_of_abs_le {f : Fmt} {m n e : ℤ} (he : f.emin ≤ e) (hm : |m| < 2 ^ f.prec) (h : |n| ≤ |m|) :
    Rep0 f ((n : ℚ) * p2 e) := ⟨n, e, he, h.trans_lt hm, rfl⟩

theorem rep0_int {f : Fmt} {n : ℤ} (h : |n| ≤ 2 ^ f.prec) : Rep0 f (n : ℚ) :=
  rep0_of_le (e := 0) (by have := f.hem; omega) h (by simp)

/-- Subtracting a natural number without changing sign keeps a value representable. -/
theorem rep0_sub_nat {f : Fmt} {t : ℚ} (h : Rep0 f t) (ht : t ≤ 2 ^ f.prec) (j : ℕ) (h0 : 0 ≤ t - j) :
    Rep0 f (t - j) := by
  obtain ⟨m, e, h1, h2, h3⟩ := h
  have hp := p2_pos e
  have hm0 : 0 ≤ m := by
    have : 0 ≤ (m : ℚ) * p2 e := by rw [← h3]; have := Nat.cast_nonneg (α := ℚ) j; linarith
    have : (0 : ℚ) ≤ m := nonneg_of_mul_nonneg_left this hp
    exact_mod_cast this
  rcases le_or_gt e 0 with he | he
  · have hj : (j : ℚ) = ((j * 2 ^ (-e).toNat : ℤ) : ℚ) * p2 e := by
      have := p2_int (e := -e) (by omega)
      have h' : p2 (-e) * p2 e = 1 := by rw [← p2_add]; simp
      push_cast at this ⊢
      rw [← this, mul_assoc, h', mul_one]
    set J : ℤ := j * 2 ^ (-e).toNat with hJ
    have : t - j = ((m - J : ℤ) : ℚ) * p2 e := by rw [h3, hj]; push_cast; ring
    rw [this] at h0 ⊢
    have h4 : (0 : ℚ) ≤ ((m - J : ℤ) : ℚ) := nonneg_of_mul_nonneg_left h0 hp
    have h5 : 0 ≤ m - J := by exact_mod_cast h4
    have h6 : 0 ≤ J := by positivity
    apply rep0_of_abs_le h1 h2
    rw [abs_of_nonneg h5, abs_of_nonneg hm0]; omega
  · have hi : t - j = ((m * 2 ^ e.toNat - j : ℤ) : ℚ) := by
      rw [h3, p2_int he.le]; push_cast; ring
    rw [hi] at h0 ⊢
    apply rep0_int
    have h5 : 0 ≤ m * 2 ^ e.toNat - (j : ℤ) := by exact_mod_cast h0
    rw [abs_of_nonneg h5]
    have : ((m * 2 ^ e.toNat - j : ℤ) : ℚ) ≤ 2 ^ f.prec := by
      rw [← hi]; have := Nat.cast_nonneg (α := ℚ) j; linarith
    exact_mod_cast this

end Verif
