import Verif.Model.Zoh
import Mathlib.Tactic.Linarith
import Mathlib.Tactic.Positivity
import Mathlib.Tactic.NormNum
import Mathlib.Tactic.FieldSimp
import Mathlib.Tactic.Ring

/-! Numeric facts about the double arithmetic of the converters. -/

namespace Verif

/-- Rounding to double. -/
notation "r64" => rq f64

/-- `|q| ≤ 2^100` is far from overflow. -/
theorem fin64 {q : ℚ} (h : |q| ≤ 2 ^ 100) : |rq f64 q| < p2 f64.emax :=
  Fl.abs_rq_lt_emax (k := 100) (by decide) (by decide) (by simpa [p2] using h)

theorem add64 {x y : F64} {a b : ℚ} (hx : x.val = some a) (hy : y.val = some b) (h : |a + b| ≤ 2 ^ 100) :
    (Fl.add x y).val = some (r64 (a + b)) := Fl.val_add hx hy (fin64 h)
theorem sub64 {x y : F64} {a b : ℚ} (hx : x.val = some a) (hy : y.val = some b) (h : |a - b| ≤ 2 ^ 100) :
    (Fl.sub x y).val = some (r64 (a - b)) := Fl.val_sub hx hy (fin64 h)
theorem mul64 {x y : F64} {a b : ℚ} (hx : x.val = some a) (hy : y.val = some b) (h : |a * b| ≤ 2 ^ 100) :
    (Fl.mul x y).val = some (r64 (a * b)) := Fl.val_mul hx hy (fin64 h)
theorem div64 {x y : F64} {a b : ℚ} (hx : x.val = some a) (hy : y.val = some b) (hb : b ≠ 0) (h : |a / b| ≤ 2 ^ 100) :
    (Fl.div x y).val = some (r64 (a / b)) := Fl.val_div hx hy hb (fin64 h)

theorem rep64_int {n : ℤ} (h : |n| ≤ 2 ^ 53) : Rep0 f64 (n : ℚ) := rep0_int h
theorem rep64_nat {n : ℕ} (h : n ≤ 2 ^ 53) : Rep0 f64 (n : ℚ) := by
  have := rep64_int (n := n) (by rw [abs_of_nonneg (by positivity)]; exact_mod_cast h)
  exact_mod_cast this

theorem rep64_val {x : F64} {a : ℚ} (h : x.val = some a) : Rep0 f64 a := (Fl.rep_of_val h).1

theorem dbl_val {n : ℤ} (h : |n| ≤ 2 ^ 53) : (dbl n).val = some (n : ℚ) := Fl.val_ofInt h
theorem one64_val : one64.val = some 1 := by
  have := dbl_val (n := 1) (by norm_num)
  rw [one64, this]; norm_num
theorem zero64_val : zero64.val = some 0 := by
  have := dbl_val (n := 0) (by norm_num)
  rw [zero64, this]; norm_num
theorem d256_val : (dbl 256).val = some 256 := by
  have := dbl_val (n := 256) (by norm_num)
  rw [this]; norm_num

theorem rep64_inv256 : Rep0 f64 (1 / 256) := ⟨1, -8, by decide, by decide, by norm_num [p2]⟩
theorem rep64_256 : Rep0 f64 256 := by simpa using rep64_int (n := 256) (by norm_num)
theorem rep64_257 : Rep0 f64 257 := by simpa using rep64_int (n := 257) (by norm_num)

theorem min_ratio_val : MIN_RATIO.val = some (1 / 256) := by
  have := div64 one64_val d256_val (by norm_num) (by norm_num [abs_of_pos])
  rwa [rq_of_rep rep64_inv256] at this

theorem max_ratio_val : MAX_RATIO.val = some 256 := by
  have := mul64 one64_val d256_val (by norm_num [abs_of_pos])
  rw [rq_of_rep (by simpa using rep64_256)] at this
  rw [MAX_RATIO, this]; norm_num

/-- The documented range of conversion ratios. -/
def ValidRatio (q : ℚ) : Prop := 1 / 256 ≤ q ∧ q ≤ 256

theorem isBad_val {r : F64} {q : ℚ} (h : r.val = some q) :
    isBadSrcRatio r = decide (q < 1 / 256 ∨ 256 < q) := by
  simp [isBadSrcRatio, Fl.lt_val h min_ratio_val, Fl.gt, Fl.lt_val max_ratio_val h]

theorem isBad_false_iff {r : F64} {q : ℚ} (h : r.val = some q) : isBadSrcRatio r = false ↔ ValidRatio q := by
  rw [isBad_val h, ValidRatio]; simp

theorem min_ratio_diff_val : ∃ e, SRC_MIN_RATIO_DIFF.val = some e ∧ 0 ≤ e ∧ e ≤ p2 (-66) := by
  refine ⟨r64 (1 / 10 ^ 20), Fl.val_round (fin64 ?_), rq_nonneg (by positivity), ?_⟩
  · rw [abs_of_pos (by positivity)]; norm_num
  · exact rq_le (rep0_p2 (by decide)) (by norm_num [p2])

theorem eps15_val : ∃ e, RATIO_EQ_EPS.val = some e ∧ 0 < e ∧ e ≤ p2 (-49) := by
  refine ⟨r64 (1 / 10 ^ 15), Fl.val_round (fin64 ?_), ?_, ?_⟩
  · rw [abs_of_pos (by positivity)]; norm_num
  · exact lt_of_lt_of_le (p2_pos (-60)) (le_rq (rep0_p2 (by decide)) (by norm_num [p2]))
  · exact rq_le (rep0_p2 (by decide)) (by norm_num [p2])

/-! ### rounding to integer -/

theorem lrint_val {x : F64} {q : ℚ} (h : x.val = some q) (hq : |q| ≤ 2147483647) : lrint x = rne q := by
  obtain ⟨_, rfl⟩ := Fl.eq_fin_of_val h
  rw [abs_le] at hq
  have h1 : (-2147483647 : ℤ) ≤ rne q := le_rne_of_le (by push_cast; linarith)
  have h2 : rne q ≤ (2147483647 : ℤ) := rne_le_of_le (by push_cast; linarith)
  simp only [lrint]
  rw [if_pos (by omega)]

theorem lrint_int {x : F64} {n : ℤ} (h : x.val = some (n : ℚ)) (hn : |n| ≤ 2147483647) : lrint x = n := by
  rw [lrint_val h (by exact_mod_cast hn), rne_intCast]

theorem fract_rep {x : ℚ} (hr : Rep0 f64 x) (h0 : 0 ≤ x) (h1 : x ≤ 2 ^ 53) : Rep0 f64 (Int.fract x) := by
  have hfl : (0 : ℤ) ≤ ⌊x⌋ := Int.floor_nonneg.2 h0
  obtain ⟨k, hk⟩ := Int.eq_ofNat_of_zero_le hfl
  have e : Int.fract x = x - k := by
    rw [Int.fract, hk]; simp
  rw [e]
  apply rep0_sub_nat hr h1
  rw [← e]; exact Int.fract_nonneg x

/-- `fmod_one` computes the fractional part exactly. -/
theorem fmodOne_val {x : F64} {q : ℚ} (h : x.val = some q) (h0 : 0 ≤ q) (h1 : q ≤ 2 ^ 30) :
    (fmodOne x).val = some (Int.fract q) := by
  have hrep := rep64_val h
  have hl : lrint x = rne q := lrint_val h (by rw [abs_of_nonneg h0]; exact h1.trans (by norm_num))
  have hfl := floor_le_rne q
  have hfr0 := Int.fract_nonneg q
  have hfr1 := Int.fract_lt_one q
  have hfq : (⌊q⌋ : ℚ) + Int.fract q = q := Int.floor_add_fract q
  have hn0 : 0 ≤ ⌊q⌋ := Int.floor_nonneg.2 h0
  have hn1 : ⌊q⌋ ≤ 2 ^ 30 := by
    have : (⌊q⌋ : ℚ) ≤ 2 ^ 30 := (Int.floor_le q).trans h1
    exact_mod_cast this
  have hfrep := fract_rep hrep h0 (h1.trans (by norm_num))
  have hup := rne_le_floor_add_one q
  have hdv : (dbl (rne q)).val = some (rne q : ℚ) := dbl_val (by rw [abs_of_nonneg (by omega)]; omega)
  have hcase : rne q = ⌊q⌋ ∨ rne q = ⌊q⌋ + 1 := by omega
  have hsmall : ∀ y : ℚ, |y| ≤ 2 → |y| ≤ 2 ^ 100 := fun y hy => hy.trans (by norm_num)
  unfold fmodOne
  rw [hl]
  rcases hcase with hc | hc
  · have hs := sub64 h hdv (hsmall _ (by rw [hc, abs_le]; constructor <;> linarith))
    have e : q - (rne q : ℚ) = Int.fract q := by rw [hc]; linarith
    rw [e, rq_of_rep hfrep] at hs
    simp only [Fl.lt_val hs zero64_val]
    rw [if_neg (by simpa using hfr0)]
    exact hs
  · have hab : |q - (rne q : ℚ)| ≤ 1 / 2 := by rw [abs_sub_comm]; exact abs_rne_sub_le q
    have e : q - (rne q : ℚ) = Int.fract q - 1 := by rw [hc]; push_cast; linarith
    have hhalf : 1 / 2 ≤ Int.fract q := by
      rw [e, abs_le] at hab; linarith [hab.1]
    have hrep2 : Rep0 f64 (Int.fract q - 1) := by
      obtain ⟨m, ex, h3, h4, h5⟩ := hfrep
      have hp := p2_pos ex
      have hexneg : ex ≤ -1 := by
        by_contra hcon
        have h6 : (1 : ℚ) ≤ p2 ex := by
          have := p2_le (a := 0) (b := ex) (by omega); simpa using this
        have hm1 : 0 < m := by
          by_contra hm
          have : (m : ℚ) ≤ 0 := by exact_mod_cast not_lt.1 hm
          nlinarith
        have : (1 : ℚ) ≤ m := by exact_mod_cast hm1
        nlinarith
      have hone : (1 : ℚ) = ((2 ^ (-ex).toNat : ℤ) : ℚ) * p2 ex := by
        rw [← p2_int (by omega), ← p2_add]; simp
      have e2 : Int.fract q - 1 = ((m - 2 ^ (-ex).toNat : ℤ) : ℚ) * p2 ex := by
        rw [h5]
        conv_lhs => rw [hone]
        push_cast; ring
      rw [e2]
      apply rep0_of_abs_le h3 h4
      have hmm : |((m - 2 ^ (-ex).toNat : ℤ) : ℚ)| * p2 ex ≤ |(m : ℚ)| * p2 ex := by
        rw [← abs_of_pos hp, ← abs_mul, ← abs_mul, ← e2, ← h5, abs_of_nonneg hfr0, abs_of_nonpos (by linarith)]
        linarith
      have := le_of_mul_le_mul_right hmm hp
      exact_mod_cast this
    have hs := sub64 h hdv (hsmall _ (hab.trans (by norm_num)))
    rw [e, rq_of_rep hrep2] at hs
    simp only [Fl.lt_val hs zero64_val]
    rw [if_pos (by simp; exact hfr1)]
    have hs2 := add64 hs one64_val (hsmall _ (by rw [abs_le]; constructor <;> linarith))
    have e3 : Int.fract q - 1 + 1 = Int.fract q := by ring
    rw [e3, rq_of_rep hfrep] at hs2
    exact hs2

/-- `psf_lrint (x - fmod_one (x))` is the integer part. -/
theorem lrint_sub_fmodOne {x : F64} {q : ℚ} (h : x.val = some q) (h0 : 0 ≤ q) (h1 : q ≤ 2 ^ 30) :
    lrint (Fl.sub x (fmodOne x)) = ⌊q⌋ := by
  have hf := fmodOne_val h h0 h1
  have hfq : (⌊q⌋ : ℚ) + Int.fract q = q := Int.floor_add_fract q
  have hn0 : 0 ≤ ⌊q⌋ := Int.floor_nonneg.2 h0
  have hn1 : ⌊q⌋ ≤ 2 ^ 30 := by
    have : (⌊q⌋ : ℚ) ≤ 2 ^ 30 := (Int.floor_le q).trans h1
    exact_mod_cast this
  have e : q - Int.fract q = (⌊q⌋ : ℚ) := by linarith
  have hn1' : (⌊q⌋ : ℚ) ≤ 2 ^ 30 := by exact_mod_cast hn1
  have hn0' : (0 : ℚ) ≤ ⌊q⌋ := by exact_mod_cast hn0
  have hs := sub64 h hf (by rw [e, abs_of_nonneg hn0']; exact hn1'.trans (by norm_num))
  rw [e, rq_of_rep (rep64_int (by rw [abs_of_nonneg hn0]; omega))] at hs
  exact lrint_int hs (by rw [abs_of_nonneg hn0]; omega)

end Verif
