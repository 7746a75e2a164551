import Verif.Proof.Time

/-! The interpolated sample of the linear converter lies between its two neighbours, exactly. -/

namespace Verif
open Spec

theorem rep_lt_one {s : ℚ} (h : Rep0 f64 s) (h1 : s < 1) : s ≤ 1 - p2 (-53) := by
  rcases le_or_gt s (1 / 2) with h2 | h2
  · have : p2 (-53) ≤ 1 / 2 := by norm_num [p2]
    generalize p2 (-53) = ε at *
    linarith
  obtain ⟨m, e, _, hm, rfl⟩ := h
  have he : -53 ≤ e := by
    by_contra hc
    push Not at hc
    have a : p2 e ≤ p2 (-54) := p2_le (by omega)
    have b : (m : ℚ) < 2 ^ 53 := by exact_mod_cast (abs_lt.1 hm).2
    have c : (m : ℚ) * p2 e ≤ 2 ^ 53 * p2 (-54) := by
      have := p2_pos e
      have := p2_pos (-54)
      nlinarith
    have d : (2 : ℚ) ^ 53 * p2 (-54) = 1 / 2 := by norm_num [p2]
    rw [d] at c
    exact absurd h2 (not_lt.2 c)
  have e1 : p2 e = p2 (e + 53) * p2 (-53) := by rw [← p2_add]; congr 1; ring
  rw [e1, p2_int (by omega)] at h1 ⊢
  set k : ℤ := (2 : ℤ) ^ (e + 53).toNat
  have e2 : (m : ℚ) * ((k : ℚ) * p2 (-53)) = ((m * k : ℤ) : ℚ) * p2 (-53) := by push_cast; ring
  rw [e2] at h1 ⊢
  have e3 : (1 : ℚ) = ((2 ^ 53 : ℤ) : ℚ) * p2 (-53) := by norm_num [p2]
  have hlt : m * k < 2 ^ 53 := by
    rw [e3] at h1
    exact_mod_cast lt_of_mul_lt_mul_right h1 (p2_pos _).le
  have hle : ((m * k : ℤ) : ℚ) ≤ ((2 ^ 53 : ℤ) : ℚ) - 1 := by
    have : m * k ≤ 2 ^ 53 - 1 := by omega
    exact_mod_cast this
  calc ((m * k : ℤ) : ℚ) * p2 (-53) ≤ (((2 ^ 53 : ℤ) : ℚ) - 1) * p2 (-53) := mul_le_mul_of_nonneg_right hle (p2_pos _).le
    _ = 1 - p2 (-53) := by rw [sub_mul, one_mul, ← e3]

/-- A difference of floats is a multiple of the smallest one. -/
theorem rep32_diff {p q : ℚ} (hp : Rep0 f32 p) (hq : Rep0 f32 q) (h : p < q) : p2 (-149) ≤ q - p := by
  have key : ∀ {x : ℚ}, Rep0 f32 x → ∃ n : ℤ, x = n * p2 (-149) := by
    rintro x ⟨m, e, he, _, rfl⟩
    have he : -149 ≤ e := he
    refine ⟨m * 2 ^ (e + 149).toNat, ?_⟩
    have e1 : p2 e = p2 (e + 149) * p2 (-149) := by rw [← p2_add]; congr 1; ring
    rw [e1, p2_int (by omega)]; push_cast; ring
  obtain ⟨a, rfl⟩ := key hp
  obtain ⟨b, rfl⟩ := key hq
  have hab : a < b := by exact_mod_cast lt_of_mul_lt_mul_right h (p2_pos _).le
  have : ((1 : ℤ) : ℚ) ≤ ((b - a : ℤ) : ℚ) := by exact_mod_cast (by omega : (1 : ℤ) ≤ b - a)
  calc p2 (-149) = ((1 : ℤ) : ℚ) * p2 (-149) := by simp
    _ ≤ ((b - a : ℤ) : ℚ) * p2 (-149) := mul_le_mul_of_nonneg_right this (p2_pos _).le
    _ = _ := by push_cast; ring

/-- The product is strictly smaller than the difference. -/
theorem mul_lt_self {s d : ℚ} (hs : Rep0 f64 s) (h0 : 0 ≤ s) (h1 : s < 1) (hd : p2 (-149) ≤ d) : r64 (s * d) < d := by
  have hd0 : 0 < d := lt_of_lt_of_le (p2_pos _) hd
  have hs1 := rep_lt_one hs h1
  rcases lt_or_ge (s * d) (p2 (-1022)) with hsm | hbig
  · refine (rq_le (rep0_p2 (by decide)) hsm.le).trans_lt (lt_of_lt_of_le (p2_lt (by norm_num)) hd)
  · have hn := mul_nonneg h0 hd0.le
    have := (abs_le.1 (rel_err (q := s * d) (by rwa [abs_of_nonneg hn]))).2
    rw [abs_of_nonneg hn] at this
    have h53 := p2_pos (-53)
    generalize p2 (-53) = ε at *
    generalize r64 (s * d) = w at *
    have h2 : s * (1 + ε) < 1 := by nlinarith
    have h3 : d * (s * (1 + ε)) < d * 1 := mul_lt_mul_of_pos_left h2 hd0
    have e4 : s * d * ε + s * d = d * (s * (1 + ε)) := by ring
    linarith

theorem lin_between {p q s : ℚ} (hp : Rep0 f32 p) (hq : Rep0 f32 q) (hp' : Rep0 f64 p) (hq' : Rep0 f64 q) (hs : Rep0 f64 s)
    (h0 : 0 ≤ s) (h1 : s < 1) (h : p ≤ q) :
    p ≤ r64 (p + r64 (s * r64 (q - p))) ∧ r64 (p + r64 (s * r64 (q - p))) ≤ q := by
  rcases h.eq_or_lt with rfl | h
  · rw [sub_self, show r64 0 = 0 from rq_zero _, mul_zero, show r64 0 = 0 from rq_zero _, add_zero]
    rw [show r64 p = p from rq_of_rep hp']
    exact ⟨le_refl _, le_refl _⟩
  have hd := rep32_diff hp hq h
  have hd' : p2 (-149) ≤ r64 (q - p) := le_rq (rep0_p2 (by decide)) hd
  have hd0 : 0 ≤ r64 (q - p) := (p2_pos _).le.trans hd'
  have hw := mul_lt_self hs h0 h1 hd'
  have hw0 : 0 ≤ r64 (s * r64 (q - p)) := rq_nonneg (mul_nonneg h0 hd0)
  constructor
  · exact le_rq hp' (by linarith)
  · refine rq_le hq' ?_
    have : r64 (s * r64 (q - p)) ≤ q - p := by
      by_contra hc
      push Not at hc
      have := rq_le (rep0_rq f64 (s * r64 (q - p))) hc.le
      linarith
    linarith

theorem lin_between' {p q s : ℚ} (hp : Rep0 f32 p) (hq : Rep0 f32 q) (hp' : Rep0 f64 p) (hq' : Rep0 f64 q) (hs : Rep0 f64 s)
    (h0 : 0 ≤ s) (h1 : s < 1) :
    min p q ≤ r64 (p + r64 (s * r64 (q - p))) ∧ r64 (p + r64 (s * r64 (q - p))) ≤ max p q := by
  rcases le_total p q with h | h
  · rw [min_eq_left h, max_eq_right h]
    exact lin_between hp hq hp' hq' hs h0 h1 h
  · rw [min_eq_right h, max_eq_left h]
    have := lin_between (rep0_neg hp) (rep0_neg hq) (rep0_neg hp') (rep0_neg hq') hs h0 h1 (by linarith : -p ≤ -q)
    rw [show -q - -p = -(q - p) by ring, show r64 (-(q - p)) = - r64 (q - p) from rq_neg _ _, mul_neg,
      show r64 (-(s * r64 (q - p))) = - r64 (s * r64 (q - p)) from rq_neg _ _, ← neg_add,
      show ∀ x, r64 (-x) = - r64 x from fun x => rq_neg _ _] at this
    constructor <;> linarith [this.1, this.2]

/-- Magnitude of a finite float. -/
theorem abs_le_max32 {p : ℚ} (h : Rep f32 p) : |p| ≤ p2 128 := h.2.le

/-- The interpolated sample as a number. -/
theorem linearSample_val {a b : F32} {i : F64} {p q s : ℚ} (ha : a.val = some p) (hb : b.val = some q) (hi : i.val = some s)
    (h0 : 0 ≤ s) (h1 : s < 1) :
    (Spec.between a b i).val = some (rq f32 (r64 (p + r64 (s * r64 (q - p))))) ∧
      min p q ≤ rq f32 (r64 (p + r64 (s * r64 (q - p)))) ∧ rq f32 (r64 (p + r64 (s * r64 (q - p)))) ≤ max p q := by
  have rp := Fl.rep_of_val ha
  have rq' := Fl.rep_of_val hb
  have rs := rep64_val hi
  have bt := lin_between' rp.1 rq'.1 (rep64_of_rep32 rp).1 (rep64_of_rep32 rq').1 rs h0 h1
  have mp := abs_le.1 (abs_le_max32 rp)
  have mq := abs_le.1 (abs_le_max32 rq')
  have hM : p2 129 = 2 * p2 128 := by norm_num [p2]
  have hM3 : p2 130 = 4 * p2 128 := by norm_num [p2]
  have hpos := p2_pos 128
  have hd : |q - p| ≤ p2 129 := by rw [abs_le, hM]; constructor <;> linarith
  have hdr : |r64 (q - p)| ≤ p2 129 := Fl.abs_rq_le (rep0_p2 (by decide)) hd
  have hm : |s * r64 (q - p)| ≤ p2 129 := by
    rw [abs_mul, abs_of_nonneg h0]
    calc s * |r64 (q - p)| ≤ 1 * p2 129 := mul_le_mul h1.le hdr (abs_nonneg _) (by norm_num)
      _ = _ := one_mul _
  have hmr : |r64 (s * r64 (q - p))| ≤ p2 129 := Fl.abs_rq_le (rep0_p2 (by decide)) hm
  have hs : |p + r64 (s * r64 (q - p))| ≤ p2 130 := by
    have := abs_le.1 hmr
    rw [abs_le, hM3]; constructor <;> linarith
  have lim : ∀ {x : ℚ} {k : ℤ}, f64.emin ≤ k → k < f64.emax → |x| ≤ p2 k → |rq f64 x| < p2 f64.emax :=
    fun h1 h2 h3 => Fl.abs_rq_lt_emax h1 h2 h3
  have v1 := Fl.val_sub (Fl.val_conv64 hb) (Fl.val_conv64 ha) (lim (by decide) (by decide) hd)
  have v2 := Fl.val_mul hi v1 (lim (by decide) (by decide) hm)
  have v3 := Fl.val_add (Fl.val_conv64 ha) v2 (lim (by decide) (by decide) hs)
  have rmin : Rep f32 (min p q) := by rcases min_choice p q with h | h <;> rw [h] <;> assumption
  have rmax : Rep f32 (max p q) := by rcases max_choice p q with h | h <;> rw [h] <;> assumption
  have lo := le_rq rmin.1 bt.1
  have hi' := rq_le rmax.1 bt.2
  refine ⟨Fl.val_conv v3 ?_, lo, hi'⟩
  rw [abs_lt]
  have a1 := (abs_lt.1 rmin.2).1
  have a2 := (abs_lt.1 rmax.2).2
  exact ⟨lt_of_lt_of_le a1 lo, lt_of_le_of_lt hi' a2⟩

theorem eq_of_val {f : Fmt} {x y : Fl f} {p : ℚ} (hx : x.val = some p) (hy : y.val = some p) : x = y := by
  obtain ⟨_, rfl⟩ := Fl.eq_fin_of_val hx
  obtain ⟨_, rfl⟩ := Fl.eq_fin_of_val hy
  rfl

theorem linearSample_zero {a b : F32} {p q : ℚ} (ha : a.val = some p) (hb : b.val = some q) :
    Spec.between a b (Fl.round f64 0) = a := by
  have h0 : (Fl.round f64 0).val = some 0 := Fl.val_round_of_rep ⟨rep0_zero _, by simpa using p2_pos _⟩
  have := (linearSample_val ha hb h0 (le_refl _) (by norm_num)).1
  refine eq_of_val this ?_
  rw [zero_mul, show r64 0 = 0 from rq_zero _, add_zero, show r64 p = p from rq_of_rep (rep64_of_rep32 (Fl.rep_of_val ha)).1,
    rq_of_rep (Fl.rep_of_val ha).1]
  exact ha

end Verif
