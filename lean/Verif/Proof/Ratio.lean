import Verif.Proof.Numeric

/-! The ratio interpolation of the variable-ratio loops keeps the ratio in range. -/

namespace Verif

theorem log_eq {q : ℚ} {k : ℤ} (h0 : 0 < q) (h1 : p2 k ≤ q) (h2 : q < p2 (k + 1)) : Int.log 2 q = k := by
  have a := p2_log_le h0
  have b := lt_p2_log q
  have c := p2_lt_iff.1 (h1.trans_lt b)
  have d := p2_lt_iff.1 (a.trans_lt h2)
  omega

/-- relative error of rounding to double in the normal range -/
theorem rel_err {q : ℚ} (h : p2 (-1022) ≤ |q|) : |r64 q - q| ≤ |q| * p2 (-53) := by
  have hq : 0 < |q| := (p2_pos _).trans_le h
  refine (abs_rq_sub_le f64 q).trans ?_
  have hl : -1022 ≤ Int.log 2 |q| := by
    have := p2_lt_iff.1 (h.trans_lt (lt_p2_log |q|)); omega
  have hu : ulpExp f64 q = Int.log 2 |q| - 52 := by
    simp only [ulpExp, f64]; omega
  rw [hu, p2_sub]
  have := p2_log_le hq
  have e : p2 (-53) = 1 / p2 52 / 2 := by norm_num [p2]
  rw [e]
  have h52 : 0 < p2 52 := p2_pos _
  rw [div_div, div_div, mul_one_div]
  gcongr

theorem r64_256_up {x : ℚ} (h : x ≤ 256 + p2 (-46)) : r64 x ≤ 256 := by
  refine (rq_mono h).trans ?_
  have hlog : Int.log 2 |256 + p2 (-46)| = 8 := by
    have hp : (0 : ℚ) < 256 + p2 (-46) := by norm_num [p2]
    rw [abs_of_pos hp]
    exact log_eq hp (by norm_num [p2]) (by norm_num [p2])
  have hu : ulpExp f64 (256 + p2 (-46)) = -44 := by
    simp only [ulpExp, f64, hlog]; omega
  rw [rq, hu]
  have e : (256 + p2 (-46)) / p2 (-44) = 4503599627370496 + 1 / 4 := by norm_num [p2]
  rw [e]
  have hr : rne (4503599627370496 + 1 / 4) ≤ 4503599627370496 := by
    have h1 := rne_nearest (4503599627370496 + 1 / 4) 4503599627370496
    have h2 := rne_cases (4503599627370496 + 1 / 4)
    have hf : ⌊(4503599627370496 + 1 / 4 : ℚ)⌋ = 4503599627370496 := by
      rw [Int.floor_eq_iff]; norm_num
    rcases h2 with h2 | h2
    · rw [h2.1, hf]
    · exfalso
      rw [h2.1, hf] at h1
      norm_num at h1
  have : (rne (4503599627370496 + 1 / 4) : ℚ) ≤ 4503599627370496 := by exact_mod_cast hr
  calc (rne (4503599627370496 + 1 / 4) : ℚ) * p2 (-44) ≤ 4503599627370496 * p2 (-44) :=
        mul_le_mul_of_nonneg_right this (p2_pos _).le
    _ = 256 := by norm_num [p2]

theorem rep_sub_inv256 {l : ℚ} (hl : Rep0 f64 l) (hv : ValidRatio l) : Rep0 f64 (l - 1 / 256) := by
  have hlpos : 0 < l := lt_of_lt_of_le (by norm_num) hv.1
  have hlog1 : -8 ≤ Int.log 2 l := by
    have := p2_lt_iff.1 ((show p2 (-8) ≤ l by norm_num [p2]; linarith [hv.1]).trans_lt (lt_p2_log l)); omega
  have hlog2 : Int.log 2 l ≤ 8 := by
    have := p2_le_iff.1 ((p2_log_le hlpos).trans (show l ≤ p2 8 by norm_num [p2]; exact hv.2)); exact this
  have hu : ulpExp f64 l = Int.log 2 l - 52 := by
    simp only [ulpExp, f64, abs_of_pos hlpos]; omega
  set u := ulpExp f64 l with hudef
  set n := rne (l / p2 u) with hn
  have hln : l = n * p2 u := by rw [hn, hudef]; exact (rq_of_rep hl).symm
  have hnb : |n| ≤ 2 ^ f64.prec := by
    have h := abs_div_ulp_lt f64 l
    rw [← hudef, hln, mul_div_assoc, div_self (p2_ne u), mul_one] at h
    have : |n| < 2 ^ f64.prec := by exact_mod_cast h
    exact this.le
  have h256 : (1 / 256 : ℚ) = ((2 ^ (-8 - u).toNat : ℤ) : ℚ) * p2 u := by
    rw [← p2_int (by omega), ← p2_add]
    have : (-8 - u + u) = -8 := by ring
    rw [this]; norm_num [p2]
  have hn0 : 0 < n := by
    by_contra hc
    have : (n : ℚ) ≤ 0 := by exact_mod_cast not_lt.1 hc
    have := mul_nonpos_of_nonpos_of_nonneg this (p2_pos u).le
    linarith
  have hge : (2 : ℤ) ^ (-8 - u).toNat ≤ n := by
    have h1 := hv.1
    rw [h256, hln] at h1
    have := le_of_mul_le_mul_right h1 (p2_pos u)
    exact_mod_cast this
  refine rep0_of_le (m := n - 2 ^ (-8 - u).toNat) (e := u) (emin_le_ulpExp f64 l) ?_ ?_
  · have h2 : (0 : ℤ) < 2 ^ (-8 - u).toNat := by positivity
    rw [abs_of_nonneg (by omega)]
    rw [abs_of_pos hn0] at hnb
    omega
  · conv_lhs => rw [h256, hln]
    push_cast; ring

/-- `fabs (a - b) <= eps` decides equality: doubles in the ratio range that differ, differ by at least 2^-60. -/
theorem ratio_diff {a b : ℚ} (ha : Rep0 f64 a) (hb : Rep0 f64 b) (va : ValidRatio a) (vb : ValidRatio b)
    (h : a ≠ b) : p2 (-60) ≤ |a - b| := by
  have key : ∀ {l : ℚ}, Rep0 f64 l → ValidRatio l → ∃ n : ℤ, l = n * p2 (-60) := by
    intro l hl hv
    have hlpos : 0 < l := lt_of_lt_of_le (by norm_num) hv.1
    have hlog1 : -8 ≤ Int.log 2 l := by
      have := p2_lt_iff.1 ((show p2 (-8) ≤ l by norm_num [p2]; linarith [hv.1]).trans_lt (lt_p2_log l)); omega
    have hu : ulpExp f64 l = Int.log 2 l - 52 := by
      simp only [ulpExp, f64, abs_of_pos hlpos]; omega
    refine ⟨rne (l / p2 (ulpExp f64 l)) * 2 ^ (Int.log 2 l - 52 + 60).toNat, ?_⟩
    conv_lhs => rw [← rq_of_rep hl, rq]
    have : p2 (ulpExp f64 l) = ((2 ^ (Int.log 2 l - 52 + 60).toNat : ℤ) : ℚ) * p2 (-60) := by
      rw [← p2_int (by omega), ← p2_add, hu]; congr 1; ring
    rw [mul_comm, this]
    push_cast
    ring_nf
  obtain ⟨n, rfl⟩ := key ha va
  obtain ⟨k, rfl⟩ := key hb vb
  have hnk : n - k ≠ 0 := by
    intro hc; apply h; congr 2; omega
  rw [← sub_mul, abs_mul, abs_of_pos (p2_pos _)]
  have : (1 : ℚ) ≤ |(n : ℚ) - k| := by
    have := Int.one_le_abs hnk
    exact_mod_cast this
  nlinarith [p2_pos (-60)]

/-- The value of the interpolation formula `l + g * (t - l) / n` in double arithmetic. -/
def interpQ (l t : ℚ) (g n : ℤ) : ℚ := r64 (l + r64 (r64 (g * r64 (t - l)) / n))

/-- The increment is at most the full difference. -/
theorem interp_inc {d : ℚ} {g n : ℤ} (hd : Rep0 f64 d) (hd0 : 0 ≤ d) (hd1 : d = 0 ∨ p2 (-100) ≤ d) (hdu : d ≤ 256)
    (hg : 0 ≤ g) (hgn : g < n) (hn : n ≤ 2 ^ 53) :
    0 ≤ r64 (r64 (g * d) / n) ∧ r64 (r64 (g * d) / n) ≤ d := by
  have hnpos : (0 : ℚ) < n := by exact_mod_cast (lt_of_le_of_lt hg hgn)
  have hg0 : (0 : ℚ) ≤ g := by exact_mod_cast hg
  have hgd : 0 ≤ (g : ℚ) * d := mul_nonneg hg0 hd0
  refine ⟨rq_nonneg (div_nonneg (rq_nonneg hgd) hnpos.le), rq_le hd ?_⟩
  rw [div_le_iff₀ hnpos]
  rcases eq_or_lt_of_le hg with h | h
  · rw [← h]; simpa using mul_nonneg hd0 hnpos.le
  rcases hd1 with h1 | h1
  · simp [h1]
  have hg1 : (1 : ℚ) ≤ g := by exact_mod_cast h
  have hpos : 0 < d := (p2_pos _).trans_le h1
  have hnorm : p2 (-1022) ≤ |(g : ℚ) * d| := by
    rw [abs_of_nonneg hgd]
    calc p2 (-1022) ≤ p2 (-100) := p2_le (by norm_num)
      _ ≤ d := h1
      _ = 1 * d := by ring
      _ ≤ g * d := by gcongr
  have he := (abs_le.1 (rel_err hnorm)).2
  rw [abs_of_nonneg hgd] at he
  have hgn' : (g : ℚ) ≤ n - 1 := by
    have : g ≤ n - 1 := by omega
    exact_mod_cast this
  have hn' : (n : ℚ) * p2 (-53) ≤ 1 := by
    have : (n : ℚ) ≤ 2 ^ 53 := by exact_mod_cast hn
    calc (n : ℚ) * p2 (-53) ≤ 2 ^ 53 * p2 (-53) := by gcongr
      _ = 1 := by norm_num [p2]
  have hp53 := p2_pos (-53)
  have hA : (g : ℚ) * p2 (-53) ≤ 1 := le_trans (by gcongr) hn'
  have : (g : ℚ) * (1 + p2 (-53)) ≤ n := by nlinarith
  calc r64 (g * d) ≤ g * d + g * d * p2 (-53) := by linarith
    _ = (g * (1 + p2 (-53))) * d := by ring
    _ ≤ n * d := by gcongr
    _ = d * n := by ring

/-- The interpolated ratio stays between the limits. -/
theorem interpQ_valid {l t : ℚ} {g n : ℤ} (hl : Rep0 f64 l) (ht : Rep0 f64 t) (vl : ValidRatio l) (vt : ValidRatio t)
    (hg : 0 ≤ g) (hgn : g < n) (hn : n ≤ 2 ^ 53) : ValidRatio (interpQ l t g n) := by
  unfold interpQ
  have hdiff : l = t ∨ p2 (-60) ≤ |t - l| := by
    by_cases h : t = l
    · exact Or.inl h.symm
    · exact Or.inr (ratio_diff ht hl vt vl h)
  rcases le_total l t with hlt | hlt
  · have hd0 : 0 ≤ t - l := by linarith
    have hd : r64 (t - l) = 0 ∨ p2 (-100) ≤ r64 (t - l) := by
      rcases hdiff with h | h
      · left; rw [h]; simp
      · right
        rw [abs_of_nonneg hd0] at h
        exact le_rq (rep0_p2 (by decide)) ((p2_le (by norm_num)).trans h)
    have hdu : r64 (t - l) ≤ 256 := rq_le rep64_256 (by linarith [vt.2, vl.1])
    obtain ⟨h1, h2⟩ := interp_inc (rep0_rq f64 _) (rq_nonneg hd0) hd hdu hg hgn hn
    refine ⟨le_rq rep64_inv256 (by linarith [vl.1]), r64_256_up ?_⟩
    have h3 : r64 (t - l) ≤ r64 (256 - l) := rq_mono (by linarith [vt.2])
    have hlp : 0 < l := lt_of_lt_of_le (by norm_num) vl.1
    have h4 := abs_rq_sub_le_of_lt (f := f64) (q := 256 - l) (k := 8)
      (by rw [abs_of_nonneg (by linarith [vl.2])]; norm_num [p2]; exact hlp) (by decide)
    have h5 := (abs_le.1 h4).2
    have e : (8 : ℤ) - (f64.prec : ℤ) - 1 = -46 := by decide
    rw [e] at h5
    generalize p2 (-46) = c at *
    generalize r64 (r64 (↑g * r64 (t - l)) / ↑n) = a at *
    linarith
  · have hd0 : 0 ≤ l - t := by linarith
    have hneg : r64 (t - l) = - r64 (l - t) := by rw [← neg_sub, rq_neg]
    have hd : r64 (l - t) = 0 ∨ p2 (-100) ≤ r64 (l - t) := by
      rcases hdiff with h | h
      · left; rw [h]; simp
      · right
        rw [abs_sub_comm, abs_of_nonneg hd0] at h
        exact le_rq (rep0_p2 (by decide)) ((p2_le (by norm_num)).trans h)
    have hdu : r64 (l - t) ≤ 256 := rq_le rep64_256 (by linarith [vl.2, vt.1])
    obtain ⟨h1, h2⟩ := interp_inc (rep0_rq f64 _) (rq_nonneg hd0) hd hdu hg hgn hn
    have e : r64 (r64 (g * r64 (t - l)) / n) = - r64 (r64 (g * r64 (l - t)) / n) := by
      rw [hneg, mul_neg, rq_neg, neg_div, rq_neg]
    rw [e]
    have h3 : r64 (l - t) ≤ l - 1 / 256 := rq_le (rep_sub_inv256 hl vl) (by linarith [vt.1])
    exact ⟨le_rq rep64_inv256 (by linarith), rq_le rep64_256 (by linarith [vl.2])⟩

/-- The increment is at most the full difference, also before that is rounded, if the number of steps is at most `2^50`. -/
theorem interp_inc_exact {d : ℚ} {g n : ℤ} (hd : d = 0 ∨ p2 (-60) ≤ d) (hg : 0 ≤ g) (hgn : g < n) (hn : n ≤ 2 ^ 50) :
    0 ≤ r64 (r64 (g * r64 d) / n) ∧ r64 (r64 (g * r64 d) / n) ≤ d := by
  rcases hd with rfl | hd
  · simp
  have d0 : 0 < d := (p2_pos _).trans_le hd
  have n0 : (0 : ℚ) < n := by exact_mod_cast (by omega : 0 < n)
  rcases eq_or_lt_of_le hg with rfl | hg
  · simp [d0.le]
  have g1 : (1 : ℚ) ≤ g := by exact_mod_cast hg
  have gn : (g : ℚ) ≤ n - 1 := by exact_mod_cast (by omega : g ≤ n - 1)
  have n50 : (n : ℚ) ≤ 1125899906842624 := by exact_mod_cast (by omega : n ≤ 1125899906842624)
  have e53 : p2 (-53) = 1 / 9007199254740992 := by norm_num [p2]
  have up : ∀ z : ℚ, 0 < z → p2 (-1022) ≤ z → r64 z ≤ z * (1 + 1 / 9007199254740992) ∧ z / 2 ≤ r64 z := by
    intro z z0 hz
    have := rel_err (q := z) (by rw [abs_of_pos z0]; exact hz)
    rw [abs_of_pos z0, e53, abs_le] at this
    constructor <;> linarith
  have r1 := up d d0 ((p2_le (by norm_num)).trans hd)
  have δ0 : 0 < r64 d := by linarith
  have δ1 : p2 (-61) ≤ r64 d := by
    have : p2 (-60) = p2 (-61) * 2 := by rw [show (-60 : ℤ) = -61 + 1 by norm_num, p2_add, show p2 1 = 2 by norm_num [p2]]
    linarith
  generalize r64 d = δ at *
  have p0 : 0 < (g : ℚ) * δ := by positivity
  have p1 : p2 (-61) ≤ g * δ := by nlinarith
  have r2 := up _ p0 ((p2_le (by norm_num)).trans p1)
  have P0 : 0 < r64 (g * δ) := by linarith
  have P1 : p2 (-62) ≤ r64 (g * δ) := by
    have : p2 (-61) = p2 (-62) * 2 := by rw [show (-61 : ℤ) = -62 + 1 by norm_num, p2_add, show p2 1 = 2 by norm_num [p2]]
    linarith
  generalize r64 (g * δ) = P at *
  have q0 : 0 < P / n := by positivity
  have q1 : p2 (-1022) ≤ P / n := by
    rw [le_div_iff₀ n0]
    refine le_trans ?_ P1
    calc p2 (-1022) * n ≤ p2 (-1022) * p2 50 := by
          apply mul_le_mul_of_nonneg_left _ (p2_pos _).le
          norm_num [p2]; exact n50
      _ = p2 (-972) := by rw [← p2_add]; norm_num
      _ ≤ p2 (-62) := p2_le (by norm_num)
  have r3 := up _ q0 q1
  refine ⟨by linarith [r3.2], r3.1.trans ?_⟩
  rw [div_mul_eq_mul_div, div_le_iff₀ n0]
  have s1 : P ≤ (n - 1) * d * ((1 + 1 / 9007199254740992) * (1 + 1 / 9007199254740992)) := by
    calc P ≤ g * δ * (1 + 1 / 9007199254740992) := r2.1
      _ ≤ g * (d * (1 + 1 / 9007199254740992)) * (1 + 1 / 9007199254740992) := by
        apply mul_le_mul_of_nonneg_right _ (by norm_num)
        exact mul_le_mul_of_nonneg_left r1.1 (by linarith)
      _ ≤ (n - 1) * (d * (1 + 1 / 9007199254740992)) * (1 + 1 / 9007199254740992) := by
        apply mul_le_mul_of_nonneg_right _ (by norm_num)
        exact mul_le_mul_of_nonneg_right gn (by positivity)
      _ = _ := by ring
  calc P * (1 + 1 / 9007199254740992) ≤ (n - 1) * d * ((1 + 1 / 9007199254740992) * (1 + 1 / 9007199254740992)) * (1 + 1 / 9007199254740992) :=
        mul_le_mul_of_nonneg_right s1 (by norm_num)
    _ = d * ((n - 1) * ((1 + 1 / 9007199254740992) * (1 + 1 / 9007199254740992) * (1 + 1 / 9007199254740992))) := by ring
    _ ≤ d * n := by
        apply mul_le_mul_of_nonneg_left _ d0.le
        have h0 : (0 : ℚ) ≤ n - 1 := by linarith
        have : (n - 1 : ℚ) * ((1 + 1 / 9007199254740992) * (1 + 1 / 9007199254740992) * (1 + 1 / 9007199254740992)) ≤ (n - 1) * (1 + 4 / 9007199254740992) :=
          mul_le_mul_of_nonneg_left (by norm_num) h0
        linarith

/-- The interpolated ratio stays between the two ratios. -/
theorem interpQ_between {l t : ℚ} {g n : ℤ} (hl : Rep0 f64 l) (ht : Rep0 f64 t) (vl : ValidRatio l) (vt : ValidRatio t)
    (hg : 0 ≤ g) (hgn : g < n) (hn : n ≤ 2 ^ 50) : min l t ≤ interpQ l t g n ∧ interpQ l t g n ≤ max l t := by
  unfold interpQ
  have hdiff : t - l = 0 ∨ p2 (-60) ≤ |t - l| := by
    by_cases h : t = l
    · exact Or.inl (by linarith)
    · exact Or.inr (ratio_diff ht hl vt vl h)
  rcases le_total l t with hlt | hlt
  · rw [abs_of_nonneg (by linarith)] at hdiff
    obtain ⟨h1, h2⟩ := interp_inc_exact hdiff hg hgn hn
    rw [min_eq_left hlt, max_eq_right hlt]
    exact ⟨le_rq hl (by linarith), rq_le ht (by linarith)⟩
  · rw [abs_of_nonpos (by linarith), neg_sub] at hdiff
    obtain ⟨h1, h2⟩ := interp_inc_exact (d := l - t) (by rcases hdiff with h | h; left; linarith; right; exact h) hg hgn hn
    have hneg : r64 (t - l) = - r64 (l - t) := by rw [← neg_sub, rq_neg]
    have e : r64 (r64 (g * r64 (t - l)) / n) = - r64 (r64 (g * r64 (l - t)) / n) := by
      rw [hneg, mul_neg, rq_neg, neg_div, rq_neg]
    rw [e, min_eq_right hlt, max_eq_left hlt]
    exact ⟨le_rq ht (by linarith), rq_le hl (by linarith)⟩

/-- value of the interpolation as computed by the model -/
theorem interp_val {last target : F64} {l t : ℚ} {g n : ℤ} (hl : last.val = some l) (ht : target.val = some t)
    (vl : ValidRatio l) (vt : ValidRatio t) (hg : 0 ≤ g) (hgn : g < n) (hn : n ≤ 2 ^ 53) :
    (Fl.add last (Fl.div (Fl.mul (dbl g) (Fl.sub target last)) (dbl n))).val = some (interpQ l t g n) := by
  have hlp : 0 < l := lt_of_lt_of_le (by norm_num) vl.1
  have htp : 0 < t := lt_of_lt_of_le (by norm_num) vt.1
  have hgv := dbl_val (n := g) (by rw [abs_of_nonneg hg]; omega)
  have hnv := dbl_val (n := n) (by rw [abs_of_nonneg (by omega)]; omega)
  have hnpos : (0 : ℚ) < n := by exact_mod_cast (lt_of_le_of_lt hg hgn)
  have hgq : (0 : ℚ) ≤ g := by exact_mod_cast hg
  have hgq2 : (g : ℚ) ≤ 2 ^ 53 := by
    have : g ≤ 2 ^ 53 := by omega
    exact_mod_cast this
  have hdabs : |t - l| ≤ 256 := by rw [abs_le]; constructor <;> linarith [vl.2, vt.2]
  have s1 := sub64 ht hl (hdabs.trans (by norm_num))
  have hd2 : |r64 (t - l)| ≤ 256 := Fl.abs_rq_le rep64_256 hdabs
  have hm : |(g : ℚ) * r64 (t - l)| ≤ 2 ^ 61 := by
    rw [abs_mul, abs_of_nonneg hgq]
    calc (g : ℚ) * |r64 (t - l)| ≤ 2 ^ 53 * 256 := by gcongr
      _ = 2 ^ 61 := by norm_num
  have s2 := mul64 hgv s1 (hm.trans (by norm_num))
  have hm2 : |r64 (g * r64 (t - l))| ≤ 2 ^ 61 := by
    have h61 : Rep0 f64 (2 ^ 61) := by
      have := rep0_p2 (f := f64) (e := 61) (by decide)
      have e : p2 61 = 2 ^ 61 := by norm_num [p2]
      rwa [e] at this
    exact Fl.abs_rq_le h61 hm
  have hn1 : (1 : ℚ) ≤ n := by
    have : 1 ≤ n := by omega
    exact_mod_cast this
  have hq : |r64 (g * r64 (t - l)) / n| ≤ 2 ^ 61 := by
    rw [abs_div, abs_of_pos hnpos, div_le_iff₀ hnpos]
    calc _ ≤ (2 : ℚ) ^ 61 := hm2
      _ = 2 ^ 61 * 1 := by ring
      _ ≤ 2 ^ 61 * n := by gcongr
  have s3 := div64 s2 hnv hnpos.ne' (hq.trans (by norm_num))
  have hq2 : |r64 (r64 (g * r64 (t - l)) / n)| ≤ 2 ^ 61 := by
    have h61 : Rep0 f64 (2 ^ 61) := by
      have := rep0_p2 (f := f64) (e := 61) (by decide)
      have e : p2 61 = 2 ^ 61 := by norm_num [p2]
      rwa [e] at this
    exact Fl.abs_rq_le h61 hq
  refine add64 hl s3 ?_
  refine (abs_add_le _ _).trans ?_
  rw [abs_of_pos hlp]
  linarith [vl.2, (by norm_num : (256 : ℚ) + 2 ^ 61 ≤ 2 ^ 100)]

end Verif
