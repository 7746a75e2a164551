import Verif.Proof.SincStream
import Verif.Proof.LinearSample
import Verif.Spec.Louder

/-! Rounding commutes with multiplication by powers of two. -/

namespace Verif
open Spec

/-- `q` is an integer multiple of `2^m`. -/
def Grid (m : ℤ) (q : ℚ) : Prop := ∃ z : ℤ, q = z * p2 m

theorem Grid.mono {m m' : ℤ} {q : ℚ} (h : Grid m q) (hm : m' ≤ m) : Grid m' q := by
  obtain ⟨z, rfl⟩ := h
  refine ⟨z * 2 ^ (m - m').toNat, ?_⟩
  rw [show m = (m - m') + m' by ring, p2_add, p2_int (by omega : 0 ≤ m - m')]
  rw [show m - m' + m' - m' = m - m' by ring]
  push_cast
  ring

theorem Grid.add {m : ℤ} {p q : ℚ} (h : Grid m p) (h' : Grid m q) : Grid m (p + q) := by
  obtain ⟨z, rfl⟩ := h
  obtain ⟨w, rfl⟩ := h'
  exact ⟨z + w, by push_cast; ring⟩

theorem Grid.neg {m : ℤ} {p : ℚ} (h : Grid m p) : Grid m (-p) := by
  obtain ⟨z, rfl⟩ := h
  exact ⟨-z, by push_cast; ring⟩

theorem Grid.mul {m k : ℤ} {p q : ℚ} (h : Grid m p) (h' : Grid k q) : Grid (m + k) (p * q) := by
  obtain ⟨z, rfl⟩ := h
  obtain ⟨w, rfl⟩ := h'
  exact ⟨z * w, by rw [p2_add]; push_cast; ring⟩

theorem grid_int (z : ℤ) : Grid 0 (z : ℚ) := ⟨z, by simp [p2]⟩

theorem Grid.rq {m : ℤ} {q : ℚ} (f : Fmt) (h : Grid m q) : Grid m (rq f q) := by
  rcases le_or_gt m (ulpExp f q) with hu | hu
  · exact Grid.mono ⟨_, rfl⟩ hu
  · obtain ⟨z, hz⟩ := h.mono hu.le
    have : Verif.rq f q = q := by
      unfold Verif.rq
      rw [show q / p2 (ulpExp f q) = (z : ℚ) by rw [eq_comm, eq_div_iff (p2_ne _)]; exact hz.symm, rne_intCast]
      exact hz.symm
    rw [this]
    exact h

/-- The result of rounding a number that is not small. -/
theorem grid_rq_of_le {f : Fmt} {k : ℤ} {q : ℚ} (h : p2 k ≤ |q|) : Grid (k - (f.prec - 1)) (rq f q) := by
  refine Grid.mono (m := ulpExp f q) ⟨_, rfl⟩ ?_
  have h0 : 0 < |q| := lt_of_lt_of_le (p2_pos _) h
  have : k ≤ Int.log 2 |q| := (Int.zpow_le_iff_le_log (by norm_num) h0).1 (by simpa [p2] using h)
  have := le_max_left (Int.log 2 |q| - ((f.prec : ℤ) - 1)) f.emin
  unfold ulpExp
  omega

theorem rep_grid {f : Fmt} {q : ℚ} (h : Rep0 f q) : Grid f.emin q := by
  obtain ⟨m, e, h1, -, rfl⟩ := h
  exact Grid.mono ⟨m, rfl⟩ h1

theorem log_scale (n : ℕ) {q : ℚ} (h : q ≠ 0) : Int.log 2 |p2 n * q| = n + Int.log 2 |q| := by
  have h0 : 0 < |q| := abs_pos.2 h
  have hs : |p2 n * q| = p2 n * |q| := by rw [abs_mul, abs_of_pos (p2_pos _)]
  have h1 : 0 < |p2 (n : ℤ) * q| := by rw [hs]; exact mul_pos (p2_pos _) h0
  apply le_antisymm
  · have := (Int.lt_zpow_iff_log_lt (b := 2) (by norm_num) (x := n + Int.log 2 |q| + 1) h1).1 (by
      have := mul_lt_mul_of_pos_left (lt_p2_log |q|) (p2_pos n)
      rw [← p2_add, ← hs] at this
      rw [add_assoc]
      simpa [p2] using this)
    omega
  · refine (Int.zpow_le_iff_le_log (b := 2) (by norm_num) h1).1 ?_
    have := mul_le_mul_of_nonneg_left (p2_log_le h0) (p2_pos n).le
    rw [← p2_add, ← hs] at this
    simpa [p2] using this

theorem rq_scale_normal {f : Fmt} (n : ℕ) {q : ℚ} (h : f.emin ≤ Int.log 2 |q| - (f.prec - 1)) (h0 : q ≠ 0) : rq f (p2 n * q) = p2 n * rq f q := by
  have hu : ulpExp f (p2 n * q) = n + ulpExp f q := by
    unfold ulpExp
    rw [log_scale n h0, max_eq_left h, max_eq_left (by omega)]
    ring
  unfold rq
  rw [hu, p2_add, mul_div_mul_left _ _ (p2_ne _)]
  ring

/-- Numbers that are multiples of the smallest positive float: rounding and scaling commute. -/
theorem rq_scale {f : Fmt} (n : ℕ) {q : ℚ} (h : Grid f.emin q) : rq f (p2 n * q) = p2 n * rq f q := by
  rcases eq_or_ne q 0 with rfl | h0
  · simp
  rcases le_or_gt f.emin (Int.log 2 |q| - (f.prec - 1)) with hl | hl
  · exact rq_scale_normal n hl h0
  · have hu : ulpExp f q = f.emin := max_eq_right hl.le
    obtain ⟨z, hz⟩ := h
    have hlt := abs_div_ulp_lt f q
    rw [hu, hz, mul_div_cancel_right₀ _ (p2_ne _)] at hlt
    have hz' : |z| < 2 ^ f.prec := by exact_mod_cast hlt
    have r1 : Rep0 f q := ⟨z, f.emin, le_rfl, hz', hz⟩
    have r2 : Rep0 f (p2 n * q) := ⟨z, n + f.emin, by omega, hz', by rw [hz, p2_add]; ring⟩
    rw [rq_of_rep r1, rq_of_rep r2]

theorem gain_cases {g : ℚ} (hg : Gain g) : ∃ (n : ℕ) (σ : ℚ), g = σ * p2 n ∧ (σ = 1 ∨ σ = -1) := by
  obtain ⟨n, rfl | rfl⟩ := hg
  · exact ⟨n, 1, by rw [p2_natCast, one_mul], Or.inl rfl⟩
  · exact ⟨n, -1, by rw [p2_natCast]; ring, Or.inr rfl⟩

theorem gain_one_le {g : ℚ} (hg : Gain g) : 1 ≤ |g| := by
  have h : ∀ n : ℕ, (1 : ℚ) ≤ |2 ^ n| := fun n => by rw [abs_of_pos (by positivity)]; exact one_le_pow₀ (by norm_num)
  obtain ⟨n, rfl | rfl⟩ := hg
  · exact h n
  · rw [abs_neg]; exact h n

theorem rq_sign (f : Fmt) {σ : ℚ} (h : σ = 1 ∨ σ = -1) (q : ℚ) : rq f (σ * q) = σ * rq f q := by
  rcases h with rfl | rfl
  · rw [one_mul, one_mul]
  · rw [neg_one_mul, neg_one_mul, rq_neg]

theorem rq_gain {f : Fmt} {g : ℚ} (hg : Gain g) {q : ℚ} (h : Grid f.emin q) : rq f (g * q) = g * rq f q := by
  obtain ⟨n, σ, rfl, hσ⟩ := gain_cases hg
  rw [mul_assoc, rq_sign f hσ, rq_scale n h, mul_assoc]

theorem rq_gain_normal {f : Fmt} {g : ℚ} (hg : Gain g) {q : ℚ} (h : f.emin ≤ Int.log 2 |q| - (f.prec - 1)) (h0 : q ≠ 0) : rq f (g * q) = g * rq f q := by
  obtain ⟨n, σ, rfl, hσ⟩ := gain_cases hg
  rw [mul_assoc, rq_sign f hσ, rq_scale_normal n h h0, mul_assoc]

theorem rq_gain_one (f : Fmt) {g : ℚ} (h : |g| = 1) (q : ℚ) : rq f (g * q) = g * rq f q :=
  rq_sign f (eq_or_eq_neg_of_abs_eq h) q

/-! ### Operations with a finite result -/

section
variable {f : Fmt}

theorem fin_round {q r : ℚ} (h : (Fl.round f q).val = some r) : |rq f q| < p2 f.emax ∧ r = rq f q := by
  unfold Fl.round at h
  split_ifs at h with hc
  · exact ⟨hc, by simpa [Fl.val, eq_comm] using h⟩
  · simp [Fl.val] at h

theorem fin_add {x y : Fl f} {r : ℚ} (h : (Fl.add x y).val = some r) :
    ∃ a b, x.val = some a ∧ y.val = some b ∧ |rq f (a + b)| < p2 f.emax ∧ r = rq f (a + b) := by
  cases x <;> cases y <;> simp only [Fl.add] at h
  case fin.fin a _ b _ => exact ⟨a, b, rfl, rfl, fin_round h⟩
  all_goals first
    | (split_ifs at h <;> simp [Fl.val] at h)
    | simp [Fl.val] at h

theorem fin_neg {x : Fl f} {r : ℚ} (h : (Fl.neg x).val = some r) : x.val = some (-r) := by
  cases x <;> simp [Fl.neg, Fl.val] at h ⊢
  linarith

theorem fin_sub {x y : Fl f} {r : ℚ} (h : (Fl.sub x y).val = some r) :
    ∃ a b, x.val = some a ∧ y.val = some b ∧ |rq f (a - b)| < p2 f.emax ∧ r = rq f (a - b) := by
  obtain ⟨a, b, h1, h2, h3, h4⟩ := fin_add h
  refine ⟨a, -b, h1, fin_neg h2, ?_, ?_⟩ <;> rwa [sub_neg_eq_add]

theorem fin_mul {x y : Fl f} {r : ℚ} (h : (Fl.mul x y).val = some r) :
    ∃ a b, x.val = some a ∧ y.val = some b ∧ |rq f (a * b)| < p2 f.emax ∧ r = rq f (a * b) := by
  cases x <;> cases y <;> simp only [Fl.mul] at h
  case fin.fin a _ b _ => exact ⟨a, b, rfl, rfl, fin_round h⟩
  all_goals first
    | (split_ifs at h <;> simp [Fl.val] at h)
    | simp [Fl.val] at h

theorem fin_conv {g : Fmt} {x : Fl f} {r : ℚ} (h : (Fl.conv g x).val = some r) : ∃ a, x.val = some a ∧ |rq g a| < p2 g.emax ∧ r = rq g a := by
  cases x <;> simp only [Fl.conv] at h
  case fin a _ => exact ⟨a, rfl, fin_round h⟩
  all_goals simp [Fl.val] at h

end

/-! ### Scaled operands -/

/-- `a` is a multiple of `2^m`, and `b` is `g` times `a`. -/
def Sc (g : ℚ) (m : ℤ) {f : Fmt} (a b : Fl f) : Prop := ∃ p, Grid m p ∧ a.val = some p ∧ b.val = some (g * p)

theorem small_of_scaled {f : Fmt} {g : ℚ} (hG : Gain g) {r : ℚ} (h : |g * r| < p2 f.emax) : |r| < p2 f.emax := by
  refine lt_of_le_of_lt ?_ h
  rw [abs_mul]
  nlinarith [abs_nonneg r, gain_one_le hG]

section
variable {f : Fmt} {g : ℚ} {m : ℤ}

theorem Sc.mono {a b : Fl f} {k : ℤ} (h : Sc g m a b) (hk : k ≤ m) : Sc g k a b := by
  obtain ⟨p, h1, h2⟩ := h
  exact ⟨p, h1.mono hk, h2⟩

theorem Sc.add (hG : Gain g) {a b a' b' : Fl f} (hm : f.emin ≤ m) (h : Sc g m a b) (h' : Sc g m a' b') {w : ℚ} (hw : (Fl.add b b').val = some w) : Sc g m (Fl.add a a') (Fl.add b b') := by
  obtain ⟨p, γ, v1, v2⟩ := h
  obtain ⟨p', γ', v1', v2'⟩ := h'
  obtain ⟨c, c', e1, e2, e3, e4⟩ := fin_add hw
  rw [v2] at e1
  rw [v2'] at e2
  cases e1
  cases e2
  have hg := γ.add γ'
  have hs : rq f (g * p + g * p') = g * rq f (p + p') := by rw [← mul_add, rq_gain hG (hg.mono hm)]
  rw [hs] at e3
  exact ⟨_, hg.rq f, Fl.val_add v1 v1' (small_of_scaled hG e3), by rw [hw, e4, hs]⟩

theorem Sc.neg {a b : Fl f} (h : Sc g m a b) : Sc g m (Fl.neg a) (Fl.neg b) := by
  obtain ⟨p, γ, v1, v2⟩ := h
  refine ⟨-p, γ.neg, Fl.val_neg v1, ?_⟩
  rw [Fl.val_neg v2, mul_neg]

theorem Sc.sub (hG : Gain g) {a b a' b' : Fl f} (hm : f.emin ≤ m) (h : Sc g m a b) (h' : Sc g m a' b') {w : ℚ} (hw : (Fl.sub b b').val = some w) : Sc g m (Fl.sub a a') (Fl.sub b b') :=
  h.add hG hm h'.neg hw

theorem Sc.mul (hG : Gain g) {a b h : Fl f} {k : ℤ} (hm : f.emin ≤ k + m) (hh : ∀ c, h.val = some c → Grid k c) (s : Sc g m a b) {w : ℚ} (hw : (Fl.mul h b).val = some w) :
    Sc g (k + m) (Fl.mul h a) (Fl.mul h b) := by
  obtain ⟨p, γ, v1, v2⟩ := s
  obtain ⟨c, c', e1, e2, e3, e4⟩ := fin_mul hw
  rw [v2] at e2
  cases e2
  have hg := (hh c e1).mul γ
  have hs : rq f (c * (g * p)) = g * rq f (c * p) := by rw [mul_left_comm, rq_gain hG (hg.mono hm)]
  rw [hs] at e3
  exact ⟨_, hg.rq f, Fl.val_mul e1 v1 (small_of_scaled hG e3), by rw [hw, e4, hs]⟩

end

/-- Floats as doubles. -/
theorem sc_conv {g : ℚ} {a b : F32} {p : ℚ} (ha : a.val = some p) (hb : b.val = some (g * p)) : Sc g (-149) (Fl.conv f64 a) (Fl.conv f64 b) := by
  have ra := Fl.rep_of_val ha
  have rb := Fl.rep_of_val hb
  have ra' := rep64_of_rep32 ra
  have rb' := rep64_of_rep32 rb
  refine ⟨p, rep_grid (f := f32) ra.1, ?_, ?_⟩
  · rw [Fl.val_conv ha (by rw [rq_of_rep ra'.1]; exact ra'.2), rq_of_rep ra'.1]
  · rw [Fl.val_conv hb (by rw [rq_of_rep rb'.1]; exact rb'.2), rq_of_rep rb'.1]

/-- The conversion of the result to float. -/
theorem sc_float {g : ℚ} (hG : Gain g) {m : ℤ} {a b : F64} (h : Sc g m a b) : LouderSample g (Fl.conv f32 a) (Fl.conv f32 b) := by
  intro q hq
  obtain ⟨p, -, v1, v2⟩ := h
  obtain ⟨c, e1, e2, rfl⟩ := fin_conv hq
  rw [v2] at e1
  cases e1
  have h126 : p2 (-126) = 1 / 2 ^ 126 := by norm_num [p2]
  have h149 : p2 (-149) = 1 / 2 ^ 149 := by norm_num [p2]
  rcases eq_or_ne p 0 with rfl | h0
  · refine ⟨0, ?_, ?_, ?_⟩
    · rw [Fl.val_conv v1 (by rw [rq_zero, abs_zero]; exact p2_pos _), rq_zero]
    · simp; positivity
    · simp
  have hp0 : 0 < |p| := abs_pos.2 h0
  have exact_case : rq f32 (g * p) = g * rq f32 p → ∃ p', (Fl.conv f32 a).val = some p' ∧ |rq f32 (g * p) - g * p'| ≤ |g| / 2 ^ 149 ∧
      (1 / 2 ^ 126 < |p'| ∨ |g| = 1 → rq f32 (g * p) = g * p') := by
    intro hs
    rw [hs] at e2 ⊢
    exact ⟨_, Fl.val_conv v1 (small_of_scaled hG e2), by rw [sub_self, abs_zero]; positivity, fun _ => rfl⟩
  rcases le_or_gt (p2 (-126)) |p| with hl | hl
  · have hlog : -126 ≤ Int.log 2 |p| := (Int.zpow_le_iff_le_log (by norm_num) hp0).1 (by simpa [p2] using hl)
    exact exact_case (rq_gain_normal hG (by show (-149 : ℤ) ≤ _ - (24 - 1); omega) h0)
  by_cases h1 : |g| = 1
  · exact exact_case (rq_gain_one f32 h1 p)
  have hr : |rq f32 p| ≤ p2 (-126) := Fl.abs_rq_le (rep0_p2 (by decide)) hl.le
  refine ⟨_, Fl.val_conv v1 (lt_of_le_of_lt hr (p2_lt (by decide))), ?_, fun h => ?_⟩
  · have key : ∀ (n : ℕ) (σ : ℚ), σ = 1 ∨ σ = -1 → g = σ * p2 n → |rq f32 (g * p) - g * rq f32 p| ≤ |g| / 2 ^ 149 := by
      rintro n σ hσ rfl
      have habs : |σ| = 1 := by rcases hσ with rfl | rfl <;> simp
      rw [mul_assoc, rq_sign f32 hσ, mul_assoc, ← mul_sub, abs_mul, abs_mul, habs, one_mul, one_mul, abs_of_pos (p2_pos n)]
      have a1 := abs_rq_sub_le_of_lt (f := f32) (k := -125) (hl.trans (p2_lt (by norm_num))) (by decide)
      have a2 := abs_rq_sub_le_of_lt (f := f32) (q := p2 n * p) (k := n + -125) (by
        rw [abs_mul, abs_of_pos (p2_pos _), p2_add]
        exact mul_lt_mul_of_pos_left (hl.trans (p2_lt (by norm_num))) (p2_pos _)) (by show (-149 + 24 : ℤ) ≤ _; omega)
      rw [show (-125 : ℤ) - (f32.prec : ℤ) - 1 = -150 by decide] at a1
      rw [show (n : ℤ) + -125 - (f32.prec : ℤ) - 1 = n + -150 by show (n : ℤ) + -125 - 24 - 1 = _; ring, p2_add] at a2
      have h150 : p2 (-150) = 1 / 2 ^ 149 / 2 := by norm_num [p2]
      rw [h150] at a1 a2
      have hn := p2_pos n
      have a3 : |p2 n * (rq f32 p - p)| ≤ p2 n * (1 / 2 ^ 149 / 2) := by rw [abs_mul, abs_of_pos hn]; exact mul_le_mul_of_nonneg_left a1 hn.le
      have e : rq f32 (p2 n * p) - p2 n * rq f32 p = (rq f32 (p2 n * p) - p2 n * p) - p2 n * (rq f32 p - p) := by ring
      rw [e]
      refine (abs_sub _ _).trans ?_
      rw [div_eq_mul_one_div]
      linarith
    obtain ⟨n, σ, h2, h3⟩ := gain_cases hG
    exact key n σ h3 h2
  · rcases h with h | h
    · rw [← h126] at h
      exact absurd hr (not_le.2 h)
    · exact absurd h h1

/-! ### Linear interpolation -/

theorem linear_louder {g : ℚ} (hG : Gain g) {a b a' b' : F32} {i : F64} (ha : ∃ p, a.val = some p ∧ a'.val = some (g * p)) (hb : ∃ p, b.val = some p ∧ b'.val = some (g * p))
    (hi : ∀ c, i.val = some c → Grid (-60) c) : LouderSample g (Spec.between a b i) (Spec.between a' b' i) := by
  obtain ⟨p, a1, a2⟩ := ha
  obtain ⟨r, b1, b2⟩ := hb
  intro q hq
  have sa := sc_conv a1 a2
  have sb := sc_conv b1 b2
  have hq' := hq
  unfold Spec.between at hq'
  obtain ⟨x, h1, -, -⟩ := fin_conv hq'
  obtain ⟨y, z, h2, h3, -, -⟩ := fin_add h1
  obtain ⟨u, v, h4, h5, -, -⟩ := fin_mul h3
  have s1 := sb.sub hG (by decide) sa h5
  have s2 := s1.mul hG (k := -60) (by decide) hi h3
  exact sc_float hG ((sa.mono (k := -60 + -149) (by norm_num)).add hG (by decide) s2 h1) q hq

theorem grid_pos {ρ : ℕ → ℚ} : ∀ j : ℕ, (∀ i < j, ValidRatio (ρ i)) → Grid (-60) (posAt ⟨0, 0⟩ ρ j).i
  | 0, _ => ⟨0, by simp [posAt]⟩
  | j + 1, h => by
    have hv := h j (by omega)
    have hi := (posAt_frac0 ρ j).1
    show Grid (-60) (Int.fract (rq f64 ((posAt ⟨0, 0⟩ ρ j).i + rq f64 (1 / ρ j))))
    have hr : p2 (-8) ≤ rq f64 (1 / ρ j) := le_rq (rep0_p2 (by decide)) (by
      have : (1 : ℚ) / 256 ≤ 1 / ρ j := one_div_le_one_div_of_le (lt_of_lt_of_le (by norm_num) hv.1) hv.2
      have e : p2 (-8) = 1 / 256 := by norm_num [p2]
      rw [e]
      exact this)
    have hg := grid_rq_of_le (f := f64) (k := -8) (q := (posAt ⟨0, 0⟩ ρ j).i + rq f64 (1 / ρ j)) (by
      rw [abs_of_nonneg (by linarith [p2_pos (-8)])]
      linarith)
    have hg' : Grid (-60) (rq f64 ((posAt ⟨0, 0⟩ ρ j).i + rq f64 (1 / ρ j))) := hg
    have := hg'.add ((grid_int ⌊rq f64 ((posAt ⟨0, 0⟩ ρ j).i + rq f64 (1 / ρ j))⌋).mono (m' := -60) (by norm_num)).neg
    rwa [← sub_eq_add_neg] at this

/-! ### The filter -/

theorem sincCoeff_grid {co : ℤ → F32} {fi : ℤ} {c : ℚ} (h : (sincCoeff co fi).val = some c) : Grid (-161) c := by
  have float : ∀ {x : F32} {q : ℚ}, (Fl.conv f64 x).val = some q → Grid (-149) q := by
    intro x q hq
    obtain ⟨a, a1, -, rfl⟩ := fin_conv hq
    exact (rep_grid (f := f32) (Fl.rep_of_val a1).1).rq f64
  unfold sincCoeff at h
  obtain ⟨a, b, h1, h2, -, rfl⟩ := fin_add h
  obtain ⟨u, v, h3, h4, -, rfl⟩ := fin_mul h2
  obtain ⟨s, t, h5, h6, -, rfl⟩ := fin_mul h3
  have g5 : Grid 0 s := by
    obtain ⟨-, rfl⟩ := fin_round h5
    exact (grid_int _).rq f64
  have g6 : Grid (-12) t := by
    have e1 : (Fl.ofInt f64 1).val = some ((1 : ℤ) : ℚ) := Fl.val_ofInt (by norm_num [f64])
    have e2 : (Fl.ofInt f64 4096).val = some ((4096 : ℤ) : ℚ) := Fl.val_ofInt (by norm_num [f64])
    have hq : ((1 : ℤ) : ℚ) / ((4096 : ℤ) : ℚ) = p2 (-12) := by norm_num [p2]
    have hr : rq f64 (p2 (-12)) = p2 (-12) := rq_of_rep (rep0_p2 (by decide))
    have := Fl.val_div e1 e2 (by norm_num) (by rw [hq, hr, abs_of_pos (p2_pos _)]; exact p2_lt (by decide))
    rw [h6, hq, hr] at this
    cases this
    exact ⟨1, by simp⟩
  have := (((g5.mul g6).rq f64).mul (float h4)).rq f64
  exact (((float h1).mono (by norm_num)).add (this.mono (by norm_num))).rq f64

theorem tapSum_louder {g : ℚ} (hG : Gain g) {h X Y : ℕ → F64} (hh : ∀ j c, (h j).val = some c → Grid (-161) c) (hX : ∀ j, Sc g (-149) (X j) (Y j)) :
    ∀ (k : ℕ) (w : ℚ), (tapSum k h Y).val = some w → Sc g (-310) (tapSum k h X) (tapSum k h Y)
  | 0, w, hw => ⟨0, ⟨0, by simp⟩, zero64_val, by rw [mul_zero]; exact zero64_val⟩
  | k + 1, w, hw => by
    unfold tapSum at hw
    obtain ⟨a, b, h1, h2, -, -⟩ := fin_add hw
    exact (tapSum_louder hG hh hX k a h1).add hG (by decide) ((hX k).mul hG (k := -161) (by decide) (hh k) h2) hw

theorem sincOut_louder {g : ℚ} (hG : Gain g) {co : ℤ → F32} {halfLen incr start D : ℤ} {scale : F64} (hs : ∀ c, scale.val = some c → Grid (-70) c) {x y : ℤ → F32}
    (hxy : ∀ k, ∃ p, (x k).val = some p ∧ (y k).val = some (g * p)) : LouderSample g (sincOut co halfLen incr start D scale x) (sincOut co halfLen incr start D scale y) := by
  intro q hq
  have hq' := hq
  unfold sincOut at hq'
  obtain ⟨a, h1, -, -⟩ := fin_conv hq'
  obtain ⟨b, c, h2, h3, -, -⟩ := fin_mul h1
  obtain ⟨l, r, h4, h5, -, -⟩ := fin_add h3
  have hc : ∀ k, Sc g (-149) (Fl.conv f64 (x k)) (Fl.conv f64 (y k)) := fun k => by
    obtain ⟨p, p1, p2'⟩ := hxy k
    exact sc_conv p1 p2'
  have sl := tapSum_louder hG (fun j c h => sincCoeff_grid h) (fun j => hc _) _ _ h4
  have sr := tapSum_louder hG (fun j c h => sincCoeff_grid h) (fun j => hc _) _ _ h5
  exact sc_float hG ((sl.add hG (by decide) sr h3).mul hG (k := -70) (by decide) hs h1) q hq

theorem sincAt_louder {g : ℚ} (hG : Gain g) {co : ℤ → F32} {N inc B : ℤ} (G : Geom N inc B) {ρ i : ℚ} (hρ : 1 / 256 ≤ ρ) {D : ℤ} {x y : ℤ → F32}
    (hxy : ∀ k, ∃ p, (x k).val = some p ∧ (y k).val = some (g * p)) : LouderSample g (sincAt co N inc ρ i D x) (sincAt co N inc ρ i D y) := by
  refine sincOut_louder hG (fun c hc => ?_) hxy
  obtain ⟨-, rfl⟩ := fin_round hc
  have h1 := (G.sincInc_bounds hρ).1
  have hi : (0 : ℚ) < inc := by have := G.inc1; exact_mod_cast (by omega : 0 < inc)
  have hq : p2 (-8) ≤ sincInc inc ρ / inc := by
    rw [le_div_iff₀ hi]
    have e : p2 (-8) = 1 / 256 := by norm_num [p2]
    rw [e]
    linarith
  have := grid_rq_of_le (f := f64) (k := -8) (q := sincInc inc ρ / inc) (hq.trans (le_abs_self _))
  exact this.mono (by decide)

end Verif
