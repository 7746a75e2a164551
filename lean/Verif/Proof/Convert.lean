import Verif.Model.Convert
import Verif.Spec.Convert
import Verif.Proof.Numeric
import Verif.Proof.Loop

/-! Facts about the element conversions. -/

namespace Verif

theorem rne_nearestEven (q : ℚ) : NearestEven q (rne q) := by
  intro m hm
  have h := rne_nearest q m
  rcases lt_or_eq_of_le h with h | h
  · exact Or.inl h
  refine Or.inr ⟨h, ?_⟩
  -- a tie between two different integers is at a half integer
  have h0 := Int.floor_le q
  have h1 := Int.lt_floor_add_one q
  have hb := abs_rne_sub_le q
  have ht : |(m : ℚ) - q| ≤ 1 / 2 := h ▸ hb
  rw [abs_le] at ht
  have hfr : q - ⌊q⌋ = 1 / 2 := by
    have m0 : m = ⌊q⌋ ∨ m = ⌊q⌋ + 1 := by
      have a1 : (m : ℚ) < ⌊q⌋ + 2 := by linarith
      have a2 : (⌊q⌋ : ℚ) - 1 < m := by linarith
      have a1' : m < ⌊q⌋ + 2 := by exact_mod_cast a1
      have a2' : ⌊q⌋ - 1 < m := by exact_mod_cast a2
      omega
    rcases rne_cases q with ⟨e, h2⟩ | ⟨e, h2⟩
    · rcases m0 with m0 | m0
      · exact absurd (m0.trans e.symm) hm
      · have : (m : ℚ) = ⌊q⌋ + 1 := by exact_mod_cast m0
        rw [this] at ht
        linarith [ht.2]
    · rcases m0 with m0 | m0
      · have : (m : ℚ) = ⌊q⌋ := by exact_mod_cast m0
        rw [this] at ht
        linarith [ht.1]
      · exact absurd (m0.trans e.symm) hm
  unfold rne
  simp only [hfr]
  norm_num
  split_ifs with he
  · exact Int.even_iff.2 (by omega)
  · rw [Int.even_iff]; omega

/-- a tie goes to one side only, so the nearest even integer is unique -/
theorem nearestEven_unique {q : ℚ} {a b : ℤ} (ha : NearestEven q a) (hb : NearestEven q b) : a = b := by
  by_contra hne
  have key : ∀ {a b : ℤ}, NearestEven q a → a < b → NearestEven q b → False := by
    intro a b ha hlt hb
    rcases ha b hlt.ne' with h | ⟨h, e1⟩ <;> rcases hb a hlt.ne with h' | ⟨h', e2⟩
    · linarith
    · linarith
    · linarith
    · -- both even, so an integer lies strictly between and is nearer
      have hlt2 : a + 2 ≤ b := by
        rw [Int.even_iff] at e1 e2; omega
      have hm : q = ((a : ℚ) + b) / 2 := by
        have hlt' : (a : ℚ) < b := by exact_mod_cast hlt
        rcases abs_eq_abs.1 h with h | h <;> linarith
      have hq : |(a : ℚ) - q| = ((b : ℚ) - a) / 2 := by
        have hlt' : (a : ℚ) < b := by exact_mod_cast hlt
        rw [abs_of_neg] <;> rw [hm] <;> linarith
      have h3 := ha (a + 1) (by omega)
      have hle : |((a + 1 : ℤ) : ℚ) - q| < |(a : ℚ) - q| := by
        have : (a : ℚ) + 2 ≤ b := by exact_mod_cast hlt2
        rw [hq, hm, abs_lt]; push_cast
        constructor <;> linarith
      rcases h3 with h3 | ⟨h3, -⟩ <;> linarith
  rcases lt_or_gt_of_ne hne with h | h
  · exact key ha h hb
  · exact key hb h ha

/-! ### float → short -/

theorem c32_32768 : (Fl.ofInt f32 32768).val = some 32768 := by
  have := Fl.val_ofInt (f := f32) (n := 32768) (by norm_num [f32]); simpa using this
theorem c32_32767 : (Fl.ofInt f32 32767).val = some 32767 := by
  have := Fl.val_ofInt (f := f32) (n := 32767) (by norm_num [f32]); simpa using this
theorem c32_m32768 : (Fl.ofInt f32 (-32768)).val = some (-32768) := by
  have := Fl.val_ofInt (f := f32) (n := -32768) (by norm_num [f32]); simpa using this

/-- scaling by a power of two is exact -/
theorem rep0_scale {f : Fmt} {q : ℚ} (h : Rep0 f q) {k : ℤ} (hk : 0 ≤ k) : Rep0 f (p2 k * q) := by
  obtain ⟨m, e, h1, h2, rfl⟩ := h
  exact ⟨m, e + k, by omega, h2, by rw [p2_add]; ring⟩

theorem toShort_id {n : ℤ} (h : -32768 ≤ n) (h' : n ≤ 32767) : toShort n = n := by
  unfold toShort; omega

theorem floatToShort_quantised (x : F32) : Quantised 32768 (-32768) 32767 x (floatToShort x) := by
  match x with
  | .nan => trivial
  | .inf true =>
    have h1 := c32_32768; have h2 := c32_32767; have h3 := c32_m32768
    obtain ⟨r1, e1⟩ := Fl.eq_fin_of_val h1
    obtain ⟨r2, e2⟩ := Fl.eq_fin_of_val h2
    obtain ⟨r3, e3⟩ := Fl.eq_fin_of_val h3
    simp [Quantised, floatToShort, e1, e2, e3, Fl.mul, Fl.le]
  | .inf false =>
    obtain ⟨r1, e1⟩ := Fl.eq_fin_of_val c32_32768
    obtain ⟨r2, e2⟩ := Fl.eq_fin_of_val c32_32767
    simp [Quantised, floatToShort, e1, e2, Fl.mul, Fl.le]
  | .fin q hq =>
    have hr0 : Rep0 f32 (32768 * q) := by
      have := rep0_scale hq.1 (k := 15) (by norm_num)
      rwa [show p2 15 = 32768 by norm_num [p2]] at this
    refine ⟨rne (32768 * q), rne_nearestEven _, ?_⟩
    obtain ⟨r1, e1⟩ := Fl.eq_fin_of_val c32_32768
    obtain ⟨r2, e2⟩ := Fl.eq_fin_of_val c32_32767
    obtain ⟨r3, e3⟩ := Fl.eq_fin_of_val c32_m32768
    have hmul : Fl.mul (Fl.fin q hq) (Fl.ofInt f32 32768) = Fl.round f32 (32768 * q) := by
      rw [e1]; simp [Fl.mul, mul_comm]
    unfold floatToShort
    simp only [hmul, Fl.ge]
    by_cases hov : |32768 * q| < p2 128
    · have hv : (Fl.round f32 (32768 * q)).val = some (32768 * q) := Fl.val_round_of_rep ⟨hr0, hov⟩
      rw [Fl.le_val c32_32767 hv, Fl.le_val hv c32_m32768]
      by_cases h1 : 32767 ≤ 32768 * q
      · have := le_rne_of_le (n := 32767) (x := 32768 * q) (by exact_mod_cast h1)
        simp only [h1, decide_true, if_true]
        omega
      · simp only [h1, decide_false]
        by_cases h2 : 32768 * q ≤ -32768
        · have := rne_le_of_le (n := -32768) (x := 32768 * q) (by push_cast; exact h2)
          simp only [h2, decide_true, if_true]
          rw [if_neg (by simp)]
          omega
        · simp only [h2, decide_false]
          have a1 := rne_le_of_le (n := 32767) (x := 32768 * q) (by push_cast; linarith)
          have a2 := le_rne_of_le (n := -32768) (x := 32768 * q) (by push_cast; linarith)
          have hl : lrintf (Fl.round f32 (32768 * q)) = rne (32768 * q) := by
            obtain ⟨r, e⟩ := Fl.eq_fin_of_val hv
            rw [e]; simp only [lrintf]
            rw [if_pos (by omega)]
          rw [if_neg (by simp), if_neg (by simp), hl, toShort_id a2 a1]
          omega
    · -- overflow to infinity
      have hinf : Fl.round f32 (32768 * q) = .inf (decide (32768 * q < 0)) := by
        unfold Fl.round
        rw [dif_neg]
        rw [rq_of_rep hr0]
        exact hov
      rw [hinf]
      push Not at hov
      have hbig : (32768 : ℚ) ≤ p2 128 := by
        have : p2 15 ≤ p2 128 := p2_le (by norm_num)
        rwa [show p2 15 = 32768 by norm_num [p2]] at this
      by_cases hneg : 32768 * q < 0
      · rw [abs_of_neg hneg] at hov
        have := rne_le_of_le (n := -32768) (x := 32768 * q) (by push_cast; linarith)
        simp only [hneg, decide_true, e2, e3, Fl.le]
        norm_num
        omega
      · push Not at hneg
        rw [abs_of_nonneg hneg] at hov
        have := le_rne_of_le (n := 32767) (x := 32768 * q) (by push_cast; linarith)
        have hneg' : ¬ 32768 * q < 0 := by linarith
        simp only [hneg', decide_false, e2, Fl.le]
        norm_num
        omega

/-- the quantiser is monotone whatever the scale -/
theorem Quantised.mono {s : ℚ} (hs : 0 ≤ s) {lo hi : ℤ} (hlh : lo ≤ hi) {x y : F32} {a b : ℤ}
    (hx : Quantised s lo hi x a) (hy : Quantised s lo hi y b) (h : Fl.le x y = true) : a ≤ b := by
  match x, y with
  | .nan, _ => simp [Fl.le] at h
  | .inf _, .nan => simp [Fl.le] at h
  | .fin _ _, .nan => simp [Fl.le] at h
  | .inf t, .inf u =>
    simp only [Quantised] at hx hy
    subst hx hy
    cases t <;> cases u <;> simp_all [Fl.le]
  | .inf t, .fin q hq =>
    obtain ⟨k, -, rfl⟩ := hy
    simp only [Quantised] at hx
    subst hx
    cases t
    · simp [Fl.le] at h
    · simp
  | .fin q hq, .inf t =>
    obtain ⟨k, -, rfl⟩ := hx
    simp only [Quantised] at hy
    subst hy
    cases t
    · simp [hlh]
    · simp [Fl.le] at h
  | .fin q hq, .fin r hr =>
    obtain ⟨k, hk, rfl⟩ := hx
    obtain ⟨l, hl, rfl⟩ := hy
    have hqr : q ≤ r := by simpa [Fl.le] using h
    have e1 := nearestEven_unique hk (rne_nearestEven _)
    have e2 := nearestEven_unique hl (rne_nearestEven _)
    have := rne_mono (mul_le_mul_of_nonneg_left hqr hs)
    rw [← e1, ← e2] at this
    omega

/-! ### short → float -/

theorem dbl_32768 : (Fl.mul one64 (dbl 0x8000)).val = some 32768 := by
  have h1 : one64.val = some 1 := one64_val
  have h2 : (dbl 0x8000).val = some 32768 := by
    have := dbl_val (n := 0x8000) (by norm_num); simpa using this
  have hr : Rep0 f64 (1 * 32768 : ℚ) := by
    have := rep0_int (f := f64) (n := 32768) (by norm_num [f64]); simpa using this
  have := Fl.val_mul h1 h2 (by
    rw [rq_of_rep hr]
    have : (p2 15 : ℚ) < p2 f64.emax := p2_lt (by decide)
    rw [show p2 15 = 32768 by norm_num [p2]] at this
    rwa [one_mul, abs_of_pos (by norm_num)])
  rw [rq_of_rep hr] at this
  simpa using this

/-- `n * 2^-k` is representable when `n` has at most `prec` bits -/
theorem rep_frac {f : Fmt} {n : ℤ} {k : ℕ} (h : |n| ≤ 2 ^ f.prec) (hk : f.emin ≤ -(k : ℤ)) (hm : (f.prec : ℤ) < f.emax) :
    Rep f ((n : ℚ) / 2 ^ k) := by
  have e : (n : ℚ) / 2 ^ k = (n : ℚ) * p2 (-(k : ℤ)) := by
    rw [p2, zpow_neg, zpow_natCast]; rfl
  refine ⟨?_, ?_⟩
  · rw [e]
    exact rep0_of_le hk h rfl
  · have h1 : |(n : ℚ)| ≤ 2 ^ f.prec := by exact_mod_cast h
    have h2 : |(n : ℚ) / 2 ^ k| ≤ |(n : ℚ)| := by
      rw [abs_div]
      apply div_le_self (abs_nonneg _)
      rw [abs_of_pos (by positivity)]
      exact one_le_pow₀ (by norm_num)
    refine (h2.trans h1).trans_lt ?_
    rw [← p2_natCast]
    exact p2_lt hm

theorem shortToFloat_val {s : ℤ} (h : |s| ≤ 32768) : (shortToFloat s).val = some ((s : ℚ) / 32768) := by
  unfold shortToFloat
  have h1 : (dbl s).val = some (s : ℚ) := dbl_val (by rw [abs_le] at h; rw [abs_le]; constructor <;> linarith)
  have hr32 : Rep f32 ((s : ℚ) / 32768) := by
    have := rep_frac (f := f32) (n := s) (k := 15) (h.trans (by norm_num [f32])) (by norm_num [f32]) (by norm_num [f32])
    norm_num at this; exact this
  have hr64 := rep64_of_rep32 hr32
  have h2 := Fl.val_div h1 dbl_32768 (by norm_num) (by rw [rq_of_rep hr64.1]; exact hr64.2)
  rw [rq_of_rep hr64.1] at h2
  have h3 := Fl.val_conv (g := f32) h2 (by rw [rq_of_rep hr32.1]; exact hr32.2)
  rwa [rq_of_rep hr32.1] at h3

theorem short_roundtrip {s : ℤ} (h : -32768 ≤ s) (h' : s ≤ 32767) : floatToShort (shortToFloat s) = s := by
  have hv := shortToFloat_val (s := s) (by rw [abs_le]; omega)
  have hq := floatToShort_quantised (shortToFloat s)
  obtain ⟨r, e⟩ := Fl.eq_fin_of_val hv
  rw [e] at hq ⊢
  obtain ⟨k, hk, hn⟩ := hq
  have := nearestEven_unique hk (rne_nearestEven _)
  rw [show (32768 : ℚ) * ((s : ℚ) / 32768) = (s : ℤ) by field_simp, rne_intCast] at this
  omega

/-! ### int ↔ float -/

theorem dbl_2147483648 : (Fl.mul (dbl 8) (dbl 0x10000000)).val = some 2147483648 := by
  have h1 : (dbl 8).val = some 8 := by have := dbl_val (n := 8) (by norm_num); simpa using this
  have h2 : (dbl 0x10000000).val = some 268435456 := by
    have := dbl_val (n := 0x10000000) (by norm_num); simpa using this
  have hr : Rep0 f64 (8 * 268435456 : ℚ) := by
    have := rep0_int (f := f64) (n := 2147483648) (by norm_num [f64]); norm_num at this ⊢; exact this
  have := Fl.val_mul h1 h2 (by
    rw [rq_of_rep hr]
    have : (p2 31 : ℚ) < p2 f64.emax := p2_lt (by decide)
    rw [show p2 31 = 2147483648 by norm_num [p2]] at this
    norm_num; exact this)
  rw [rq_of_rep hr] at this
  rw [this]; norm_num

theorem dbl_m2147483648 : (Fl.mul (dbl (-8)) (dbl 0x10000000)).val = some (-2147483648) := by
  have h1 : (dbl (-8)).val = some (-8) := by have := dbl_val (n := -8) (by norm_num); simpa using this
  have h2 : (dbl 0x10000000).val = some 268435456 := by
    have := dbl_val (n := 0x10000000) (by norm_num); simpa using this
  have hr : Rep0 f64 (-8 * 268435456 : ℚ) := by
    have := rep0_int (f := f64) (n := -2147483648) (by norm_num [f64]); norm_num at this ⊢; exact this
  have := Fl.val_mul h1 h2 (by
    rw [rq_of_rep hr]
    have : (p2 31 : ℚ) < p2 f64.emax := p2_lt (by decide)
    rw [show p2 31 = 2147483648 by norm_num [p2]] at this
    norm_num; exact this)
  rw [rq_of_rep hr] at this
  rw [this]; norm_num

theorem dbl_2147483647 : (Fl.mul one64 (dbl 0x7FFFFFFF)).val = some 2147483647 := by
  have h1 : one64.val = some 1 := one64_val
  have h2 : (dbl 0x7FFFFFFF).val = some 2147483647 := by
    have := dbl_val (n := 0x7FFFFFFF) (by norm_num); simpa using this
  have hr : Rep0 f64 (1 * 2147483647 : ℚ) := by
    have := rep0_int (f := f64) (n := 2147483647) (by norm_num [f64]); simpa using this
  have := Fl.val_mul h1 h2 (by
    rw [rq_of_rep hr]
    have : (p2 31 : ℚ) < p2 f64.emax := p2_lt (by decide)
    rw [show p2 31 = 2147483648 by norm_num [p2]] at this
    rw [one_mul, abs_of_pos (by norm_num)]
    linarith)
  rw [rq_of_rep hr] at this
  simpa using this

theorem floatToInt_quantised (cn : Bool) (x : F32) :
    Quantised 2147483648 (-2147483648) 2147483647 x (floatToInt false cn x) := by
  obtain ⟨r1, e1⟩ := Fl.eq_fin_of_val dbl_2147483648
  obtain ⟨r2, e2⟩ := Fl.eq_fin_of_val dbl_2147483647
  obtain ⟨r3, e3⟩ := Fl.eq_fin_of_val dbl_m2147483648
  match x with
  | .nan => trivial
  | .inf true =>
    simp only [Quantised, floatToInt, e1, e2, e3]
    cases cn <;> simp [Fl.mul, Fl.le, Fl.conv, lrint]
  | .inf false =>
    simp only [Quantised, floatToInt, e1, e2]
    simp [Fl.mul, Fl.le, Fl.conv]
  | .fin q hq =>
    have hr64 := rep64_of_rep32 hq
    have hr0 : Rep0 f64 (2147483648 * q) := by
      have := rep0_scale hr64.1 (k := 31) (by norm_num)
      rwa [show p2 31 = 2147483648 by norm_num [p2]] at this
    refine ⟨rne (2147483648 * q), rne_nearestEven _, ?_⟩
    have hov : |2147483648 * q| < p2 f64.emax := by
      have : |q| < p2 128 := hq.2
      rw [abs_mul, show |(2147483648 : ℚ)| = p2 31 by norm_num [p2]]
      calc p2 31 * |q| < p2 31 * p2 128 := mul_lt_mul_of_pos_left this (p2_pos _)
        _ = p2 159 := by rw [← p2_add]; norm_num
        _ < _ := p2_lt (by decide)
    have hv : (Fl.mul (Fl.conv f64 (Fl.fin q hq)) (Fl.mul (dbl 8) (dbl 0x10000000))).val = some (2147483648 * q) := by
      have := Fl.val_mul (Fl.val_conv64 (x := Fl.fin q hq) rfl) dbl_2147483648
        (by rw [mul_comm, rq_of_rep hr0]; exact hov)
      rwa [mul_comm q, rq_of_rep hr0] at this
    unfold floatToInt
    simp only [Fl.ge]
    have hl : lrint (Fl.mul (Fl.conv f64 (Fl.fin q hq)) (Fl.mul (dbl 8) (dbl 0x10000000))) =
        if -2147483648 ≤ rne (2147483648 * q) ∧ rne (2147483648 * q) ≤ 2147483647 then rne (2147483648 * q)
        else -2147483648 := by
      obtain ⟨r, e⟩ := Fl.eq_fin_of_val hv
      rw [e]; rfl
    have hA := Fl.le_val dbl_2147483647 hv
    have hB := Fl.le_val hv dbl_m2147483648
    simp only [hl, hA, hB]
    by_cases h1 : 2147483647 ≤ 2147483648 * q
    · have := le_rne_of_le (n := 2147483647) (x := 2147483648 * q) (by exact_mod_cast h1)
      simp only [h1, decide_true]
      norm_num
      omega
    · have a1 := rne_le_of_le (n := 2147483647) (x := 2147483648 * q) (by push_cast; linarith)
      simp only [h1, decide_false]
      by_cases h2 : 2147483648 * q ≤ -2147483648
      · have := rne_le_of_le (n := -2147483648) (x := 2147483648 * q) (by push_cast; exact h2)
        simp only [h2, decide_true]
        cases cn <;> norm_num
        · omega
        · split_ifs <;> omega
      · have a2 := le_rne_of_le (n := -2147483648) (x := 2147483648 * q) (by push_cast; linarith)
        simp only [h2, decide_false]
        rw [if_neg (by simp), if_neg (by simp), if_pos ⟨a2, a1⟩]
        omega

theorem intToFloat_val {n : ℤ} (h : |n| ≤ 2147483648) : (intToFloat n).val = some (rq f32 ((n : ℚ) / 2147483648)) := by
  unfold intToFloat
  have h1 : (dbl n).val = some (n : ℚ) := dbl_val (by rw [abs_le] at h; rw [abs_le]; constructor <;> linarith)
  have hr64 : Rep f64 ((n : ℚ) / 2147483648) := by
    have := rep_frac (f := f64) (n := n) (k := 31) (h.trans (by norm_num [f64])) (by norm_num [f64]) (by norm_num [f64])
    norm_num at this; exact this
  have h2 := Fl.val_div h1 dbl_2147483648 (by norm_num) (by rw [rq_of_rep hr64.1]; exact hr64.2)
  rw [rq_of_rep hr64.1] at h2
  refine Fl.val_conv (g := f32) h2 (Fl.abs_rq_lt_emax (k := 0) (by decide) (by decide) ?_)
  rw [p2_zero, abs_div, abs_of_pos (show (0 : ℚ) < 2147483648 by norm_num), div_le_one (by norm_num)]
  exact_mod_cast h

theorem int_roundtrip_near (cn : Bool) {n : ℤ} (h : -2147483648 ≤ n) (h' : n ≤ 2147483647) :
    |floatToInt false cn (intToFloat n) - n| ≤ 64 := by
  have hv := intToFloat_val (n := n) (by rw [abs_le]; omega)
  have hq := floatToInt_quantised cn (intToFloat n)
  obtain ⟨r, e⟩ := Fl.eq_fin_of_val hv
  rw [e] at hq ⊢
  obtain ⟨k, hk, hn⟩ := hq
  have hk' := nearestEven_unique hk (rne_nearestEven _)
  have herr : |rq f32 ((n : ℚ) / 2147483648) - (n : ℚ) / 2147483648| ≤ p2 (-25) := by
    by_cases hm : n = -2147483648
    · rw [hm]
      have : Rep0 f32 (-1) := by
        have := rep0_int (f := f32) (n := -1) (by norm_num [f32]); simpa using this
      rw [show ((-2147483648 : ℤ) : ℚ) / 2147483648 = -1 by norm_num, rq_of_rep this, sub_self, abs_zero]
      exact (p2_pos _).le
    · have := abs_rq_sub_le_of_lt (f := f32) (q := (n : ℚ) / 2147483648) (k := 0) (by
        rw [p2_zero, abs_div, abs_of_pos (show (0 : ℚ) < 2147483648 by norm_num), div_lt_one (by norm_num)]
        have : |n| < 2147483648 := by rw [abs_lt]; omega
        exact_mod_cast this) (by decide)
      simpa [f32] using this
  rw [show p2 (-25) = 1 / 33554432 by norm_num [p2], abs_le] at herr
  have b1 : 2147483648 * rq f32 ((n : ℚ) / 2147483648) ≤ ((n + 64 : ℤ) : ℚ) := by push_cast; linarith [herr.2]
  have b2 : ((n - 64 : ℤ) : ℚ) ≤ 2147483648 * rq f32 ((n : ℚ) / 2147483648) := by push_cast; linarith [herr.1]
  have c1 := rne_le_of_le b1
  have c2 := le_rne_of_le b2
  rw [← hk'] at c1 c2
  rw [abs_le]
  omega

theorem int_roundtrip_exact (cn : Bool) {n : ℤ} (h : |n| ≤ 16777216) : floatToInt false cn (intToFloat n) = n := by
  have hv := intToFloat_val (n := n) (h.trans (by norm_num))
  have hr : Rep f32 ((n : ℚ) / 2147483648) := by
    have := rep_frac (f := f32) (n := n) (k := 31) (h.trans (by norm_num [f32])) (by norm_num [f32]) (by norm_num [f32])
    norm_num at this; exact this
  rw [rq_of_rep hr.1] at hv
  have hq := floatToInt_quantised cn (intToFloat n)
  obtain ⟨r, e⟩ := Fl.eq_fin_of_val hv
  rw [e] at hq ⊢
  obtain ⟨k, hk, hn⟩ := hq
  have := nearestEven_unique hk (rne_nearestEven _)
  rw [show (2147483648 : ℚ) * ((n : ℚ) / 2147483648) = (n : ℤ) by field_simp, rne_intCast] at this
  rw [abs_le] at h
  omega

/-! ### the loop -/

theorem convLoop_spec {α β : Type} (f : α → β) (inp : List α) (out : List β) (len : ℤ) (h1 : len ≤ inp.length)
    (h2 : len ≤ out.length) :
    ∃ out', convLoop f inp out len = .ok out' ∧ out'.length = out.length ∧
      (∀ i : ℕ, (i : ℤ) < len → out'[i]? = inp[i]?.map f) ∧ ∀ i : ℕ, len ≤ i → out'[i]? = out[i]? := by
  unfold convLoop
  obtain ⟨o, ho, h3, h4, h5⟩ := forM'_spec
    (body := fun i o => do let v ← rd inp i; wr o i (f v))
    (fun k (o : List β) => o.length = out.length ∧ (∀ i : ℕ, i < k → o[i]? = inp[i]?.map f) ∧
      ∀ i : ℕ, k ≤ i → o[i]? = out[i]?) len.toNat
    (by
      intro i hi s ⟨p1, p2, p3⟩
      have hi1 : i < inp.length := by omega
      have hi2 : i < s.length := by omega
      refine ⟨s.set i (f inp[i]), ?_, ?_, ?_, ?_⟩
      · simp only [rd, List.getElem?_eq_getElem hi1, wr, hi2, if_true]
        rfl
      · simpa using p1
      · intro j hj
        by_cases hji : j = i
        · subst hji
          rw [List.getElem?_set_self hi2, List.getElem?_eq_getElem hi1]; rfl
        · rw [List.getElem?_set_ne (by omega)]
          exact p2 j (by omega)
      · intro j hj
        rw [List.getElem?_set_ne (by omega)]
        exact p3 j (by omega))
    out ⟨rfl, by intro i hi; omega, by intro i _; rfl⟩
  exact ⟨o, ho, h3, fun i hi => h4 i (by omega), fun i hi => h5 i (by omega)⟩

end Verif
