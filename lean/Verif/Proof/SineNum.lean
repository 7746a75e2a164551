import Mathlib.Analysis.Complex.Trigonometric
import Mathlib.Analysis.Complex.Norm
import Mathlib.Analysis.Complex.Basic
import Mathlib.Tactic.Linarith
import Mathlib.Tactic.Ring
import Mathlib.Tactic.NormNum

/-! Points on the unit circle in fixed point arithmetic on natural numbers (which the kernel evaluates fast): a coordinate `v` is stored as `2^60 v + 2^61`. -/

namespace Verif.Sine

/-- `k x`; the kernel evaluates `x` first. -/
def force {α : Type} (x : ℕ) (k : ℕ → α) : α := Nat.rec (motive := fun _ => α) (k 0) (fun n _ => k (Nat.succ n)) x

theorem force_eq {α : Type} (x : ℕ) (k : ℕ → α) : force x k = k x := by cases x <;> rfl

/-- First coordinate of the product of two points. -/
def reMul (a b c d : ℕ) : ℕ :=
  Nat.div (Nat.sub (Nat.add (Nat.add (Nat.mul a c) (Nat.mul 2305843009213693952 (Nat.add b d))) 2658455991569831745807614120560689152)
    (Nat.add (Nat.mul b d) (Nat.mul 2305843009213693952 (Nat.add a c)))) 1152921504606846976

/-- Second coordinate of the product of two points. -/
def imMul (a b c d : ℕ) : ℕ :=
  Nat.div (Nat.sub (Nat.add (Nat.add (Nat.mul a d) (Nat.mul b c)) 13292279957849158729038070602803445760)
    (Nat.mul 2305843009213693952 (Nat.add (Nat.add a b) (Nat.add c d)))) 1152921504606846976

/-- Powers of the point `c`, `d`, beginning with the point `a`, `b`. -/
def pows (c d n : ℕ) : ℕ → ℕ → List (ℕ × ℕ) :=
  Nat.rec (motive := fun _ => ℕ → ℕ → List (ℕ × ℕ)) (fun _ _ => [])
    (fun _ ih a b => force a fun a => force b fun b => (a, b) :: ih (reMul a b c d) (imMul a b c d)) n

/-- The number stored as `a`. -/
noncomputable def coord (a : ℕ) : ℝ := ((a : ℝ) - 2 ^ 61) / 2 ^ 60

/-- The complex number stored as `a`, `b`. -/
noncomputable def point (a b : ℕ) : ℂ := ⟨coord a, coord b⟩

/-- The stored point is within `e` of the point of the unit circle at angle `θ`. -/
def Near (e θ : ℝ) (a b : ℕ) : Prop := ‖point a b - Complex.exp (θ * Complex.I)‖ ≤ e

theorem Near.re {e θ : ℝ} {a b : ℕ} (h : Near e θ a b) : |coord a - Real.cos θ| ≤ e := by
  have := (Complex.abs_re_le_norm _).trans h
  simpa [point, Complex.exp_ofReal_mul_I_re] using this

theorem Near.im {e θ : ℝ} {a b : ℕ} (h : Near e θ a b) : |coord b - Real.sin θ| ≤ e := by
  have := (Complex.abs_im_le_norm _).trans h
  simpa [point, Complex.exp_ofReal_mul_I_im] using this

theorem near_of {e θ : ℝ} {a b : ℕ} (h1 : |coord a - Real.cos θ| ≤ e / 2) (h2 : |coord b - Real.sin θ| ≤ e / 2) : Near e θ a b := by
  unfold Near
  refine (Complex.norm_le_abs_re_add_abs_im _).trans ?_
  simp only [point, Complex.sub_re, Complex.sub_im, Complex.exp_ofReal_mul_I_re, Complex.exp_ofReal_mul_I_im]
  linarith

theorem Near.norm_le {e θ : ℝ} {a b : ℕ} (h : Near e θ a b) : ‖point a b‖ ≤ 1 + e := by
  have := norm_le_norm_add_norm_sub' (point a b) (Complex.exp (θ * Complex.I))
  rw [Complex.norm_exp_ofReal_mul_I] at this
  unfold Near at h
  linarith

theorem reMul_eq (a b c d : ℕ) : reMul a b c d = (a * c + 2305843009213693952 * (b + d) + 2658455991569831745807614120560689152 -
    (b * d + 2305843009213693952 * (a + c))) / 1152921504606846976 := rfl

theorem imMul_eq (a b c d : ℕ) : imMul a b c d = (a * d + b * c + 13292279957849158729038070602803445760 -
    2305843009213693952 * (a + b + (c + d))) / 1152921504606846976 := rfl

/-- `2^60`, `2^61`, `2^121`. -/
structure Consts (S O C : ℕ) : Prop where
  s : (S : ℝ) = 2 ^ 60
  o : (O : ℝ) = 2 ^ 61
  c : (C : ℝ) = 2 ^ 121

theorem coord_div {S O C : ℕ} (H : Consts S O C) {m : ℕ} {x : ℝ} (hN : (m : ℝ) = x * 2 ^ 120 + 2 ^ 121) :
    |coord (m / S) - x| ≤ 1 / 2 ^ 60 := by
  have hS : 0 < S := by
    have : (0 : ℝ) < S := by rw [H.s]; norm_num
    exact_mod_cast this
  have e := Nat.div_add_mod m S
  have l := Nat.mod_lt m hS
  generalize m / S = k at *
  generalize m % S = r at *
  have e' : (m : ℝ) = S * k + r := by exact_mod_cast e.symm
  have l' : (r : ℝ) < S := by exact_mod_cast l
  have r0 : (0 : ℝ) ≤ r := by positivity
  unfold coord
  rw [H.s] at e' l'
  rw [hN] at e'
  have : ((k : ℝ) - 2 ^ 61) / 2 ^ 60 - x = - r / 2 ^ 120 := by
    rw [show (2 : ℝ) ^ 120 = 2 ^ 60 * 2 ^ 60 by norm_num, div_sub' (by norm_num), div_eq_div_iff (by norm_num) (by norm_num)]
    norm_num at e' ⊢
    linarith
  rw [this, abs_div, abs_neg, abs_of_nonneg r0, abs_of_pos (by norm_num), div_le_div_iff₀ (by norm_num) (by norm_num)]
  have := mul_le_mul_of_nonneg_right l'.le (show (0 : ℝ) ≤ 2 ^ 60 by norm_num)
  rw [← pow_add] at this
  simpa using this

theorem sub_real {x y : ℕ} {z : ℝ} (h : (x : ℝ) - y = z) (h0 : 0 ≤ z) : ((x - y : ℕ) : ℝ) = z := by
  rw [Nat.cast_sub (by have : (y : ℝ) ≤ x := by linarith
                       exact_mod_cast this), h]

theorem two_pow {x : ℝ} (h : |x| ≤ 2) : 0 ≤ x * 2 ^ 120 + 2 ^ 121 := by
  rw [abs_le] at h
  have := mul_le_mul_of_nonneg_right h.1 (show (0 : ℝ) ≤ 2 ^ 120 by norm_num)
  rw [show (-2 : ℝ) * 2 ^ 120 = - 2 ^ 121 by norm_num] at this
  linarith

theorem re_diff {S O C : ℕ} (H : Consts S O C) (a b c d : ℕ) :
    ((a * c + O * (b + d) + C : ℕ) : ℝ) - ((b * d + O * (a + c) : ℕ) : ℝ) = (point a b * point c d).re * 2 ^ 120 + 2 ^ 121 := by
  push_cast
  rw [H.o, H.c]
  simp only [point, Complex.mul_re, coord]
  rw [show (2 : ℝ) ^ 120 = 2 ^ 60 * 2 ^ 60 by norm_num]
  field_simp
  ring

theorem im_diff {S O C : ℕ} (H : Consts S O C) {E : ℕ} (hE : E = 5 * C) (a b c d : ℕ) :
    ((a * d + b * c + E : ℕ) : ℝ) - ((O * (a + b + (c + d)) : ℕ) : ℝ) = (point a b * point c d).im * 2 ^ 120 + 2 ^ 121 := by
  rw [hE]
  push_cast
  rw [H.o, H.c]
  simp only [point, Complex.mul_im, coord]
  rw [show (2 : ℝ) ^ 120 = 2 ^ 60 * 2 ^ 60 by norm_num, show (2 : ℝ) ^ 121 = 2 * 2 ^ 60 * 2 ^ 60 by norm_num, show (2 : ℝ) ^ 61 = 2 * 2 ^ 60 by norm_num]
  field_simp
  ring

theorem le_of_diff {x y : ℕ} {z : ℝ} (h : (x : ℝ) - y = z) (h0 : 0 ≤ z) : y ≤ x := by
  have : (y : ℝ) ≤ x := by linarith
  exact_mod_cast this

theorem re_near {S O C : ℕ} (H : Consts S O C) {a b c d : ℕ} (r : |(point a b * point c d).re| ≤ 2) :
    |coord ((a * c + O * (b + d) + C - (b * d + O * (a + c))) / S) - (point a b * point c d).re| ≤ 1 / 2 ^ 60 :=
  coord_div H (sub_real (re_diff H a b c d) (two_pow r))

theorem im_near {S O C : ℕ} (H : Consts S O C) {E : ℕ} (hE : E = 5 * C) {a b c d : ℕ} (r : |(point a b * point c d).im| ≤ 2) :
    |coord ((a * d + b * c + E - O * (a + b + (c + d))) / S) - (point a b * point c d).im| ≤ 1 / 2 ^ 60 :=
  coord_div H (sub_real (im_diff H hE a b c d) (two_pow r))

theorem consts : Consts 1152921504606846976 2305843009213693952 2658455991569831745807614120560689152 := by
  constructor <;> norm_num

theorem reMul_near {a b c d : ℕ} (r : |(point a b * point c d).re| ≤ 2) : |coord (reMul a b c d) - (point a b * point c d).re| ≤ 1 / 2 ^ 60 := by
  rw [reMul_eq]
  exact re_near consts r

theorem imMul_near {a b c d : ℕ} (r : |(point a b * point c d).im| ≤ 2) : |coord (imMul a b c d) - (point a b * point c d).im| ≤ 1 / 2 ^ 60 := by
  rw [imMul_eq]
  exact im_near consts (by norm_num) r

theorem Near.mul_le {e f θ φ : ℝ} {a b c d : ℕ} (h1 : Near e θ a b) (h2 : Near f φ c d) (he : e ≤ 1 / 8) (hf : f ≤ 1 / 8) :
    Near (e + 9 / 8 * f + 2 / 2 ^ 60) (θ + φ) (reMul a b c d) (imMul a b c d) := by
  have e0 : 0 ≤ e := (norm_nonneg _).trans h1
  have f0 : 0 ≤ f := (norm_nonneg _).trans h2
  have n1 := h1.norm_le
  have n2 := h2.norm_le
  have np : ‖point a b * point c d‖ ≤ 2 := by
    rw [norm_mul]
    have : ‖point a b‖ * ‖point c d‖ ≤ (9 / 8) * (9 / 8) := mul_le_mul (by linarith) (by linarith) (norm_nonneg _) (by norm_num)
    linarith
  have r1 := (Complex.abs_re_le_norm _).trans np
  have r2 := (Complex.abs_im_le_norm _).trans np
  have k1 := reMul_near r1
  have k2 := imMul_near r2
  have k3 : ‖point (reMul a b c d) (imMul a b c d) - point a b * point c d‖ ≤ 2 / 2 ^ 60 := by
    refine (Complex.norm_le_abs_re_add_abs_im _).trans ?_
    rw [Complex.sub_re, Complex.sub_im]
    simp only [point] at k1 k2 ⊢
    linarith
  unfold Near at *
  rw [show ((θ + φ : ℝ) : ℂ) * Complex.I = θ * Complex.I + φ * Complex.I by push_cast; ring, Complex.exp_add]
  have n3 : ‖Complex.exp (φ * Complex.I)‖ = 1 := Complex.norm_exp_ofReal_mul_I φ
  generalize Complex.exp (θ * Complex.I) = u at *
  generalize Complex.exp (φ * Complex.I) = v at *
  generalize point (reMul a b c d) (imMul a b c d) = w at *
  generalize point a b = p at *
  generalize point c d = q at *
  have : w - u * v = (w - p * q) + (p * (q - v) + (p - u) * v) := by ring
  rw [this]
  refine (norm_add_le _ _).trans ?_
  have h3 : ‖p * (q - v) + (p - u) * v‖ ≤ 9 / 8 * f + e := by
    refine (norm_add_le _ _).trans ?_
    rw [norm_mul, norm_mul, n3, mul_one]
    have : ‖p‖ * ‖q - v‖ ≤ 9 / 8 * f := mul_le_mul (by linarith) h2 (norm_nonneg _) (by norm_num)
    linarith
  linarith

theorem Near.mul {e f θ φ : ℝ} {a b c d : ℕ} (h1 : Near e θ a b) (h2 : Near f φ c d) (he : e ≤ 1 / 8) (hf : f ≤ 1 / 8) :
    Near (e + 2 * f + 2 / 2 ^ 60) (θ + φ) (reMul a b c d) (imMul a b c d) := by
  have f0 : 0 ≤ f := (norm_nonneg _).trans h2
  exact le_trans (h1.mul_le h2 he hf) (by linarith)

theorem Near.mul_abs {e f θ φ : ℝ} {a b c d : ℕ} (h1 : Near e θ a b) (h2 : Near f φ c d) (he : e ≤ 1 / 8) (hf : f ≤ 1 / 8) :
    |(point a b * point c d).re| ≤ 2 ∧ |(point a b * point c d).im| ≤ 2 := by
  have n1 := h1.norm_le
  have n2 := h2.norm_le
  have np : ‖point a b * point c d‖ ≤ 2 := by
    rw [norm_mul]
    have : ‖point a b‖ * ‖point c d‖ ≤ (9 / 8) * (9 / 8) := mul_le_mul (by linarith) (by linarith) (norm_nonneg _) (by norm_num)
    linarith
  exact ⟨(Complex.abs_re_le_norm _).trans np, (Complex.abs_im_le_norm _).trans np⟩

theorem pows_succ (c d n a b : ℕ) : pows c d (n + 1) a b = (a, b) :: pows c d n (reMul a b c d) (imMul a b c d) := by
  show force a (fun a => force b fun b => (a, b) :: pows c d n (reMul a b c d) (imMul a b c d)) = _
  rw [force_eq, force_eq]

theorem pows_length (c d n : ℕ) : ∀ a b, (pows c d n a b).length = n := by
  induction n with
  | zero => intro a b; rfl
  | succ n ih => intro a b; rw [pows_succ, List.length_cons, ih]

theorem pows_near {c d : ℕ} {f φ : ℝ} (h2 : Near f φ c d) (hf : f ≤ 1 / 8) (n : ℕ) : ∀ {a b : ℕ} {e θ : ℝ}, Near e θ a b → e + n * (2 * f + 2 / 2 ^ 60) ≤ 1 / 8 →
    ∀ k < n, Near (e + k * (2 * f + 2 / 2 ^ 60)) (θ + k * φ) ((pows c d n a b).getD k (0, 0)).1 ((pows c d n a b).getD k (0, 0)).2 := by
  have f0 : 0 ≤ f := (norm_nonneg _).trans h2
  induction n with
  | zero => intro a b e θ _ _ k hk; omega
  | succ n ih =>
    intro a b e θ h1 he k hk
    rw [pows_succ]
    cases k with
    | zero => simpa using h1
    | succ k =>
      rw [List.getD_cons_succ]
      have g0 : 0 ≤ 2 * f + 2 / 2 ^ 60 := by positivity
      push_cast at he
      have h3 := h1.mul h2 (by nlinarith [mul_nonneg (Nat.cast_nonneg (α := ℝ) n) g0]) hf
      have := ih h3 (by linarith) k (by omega)
      push_cast
      rw [show e + ((k : ℝ) + 1) * (2 * f + 2 / 2 ^ 60) = e + 2 * f + 2 / 2 ^ 60 + k * (2 * f + 2 / 2 ^ 60) by ring,
        show θ + ((k : ℝ) + 1) * φ = θ + φ + k * φ by ring]
      exact this

theorem near_one : Near 0 0 3458764513820540928 2305843009213693952 := by
  unfold Near
  have : point 3458764513820540928 2305843009213693952 = 1 := by
    apply Complex.ext <;> norm_num [point, coord]
  rw [this]; simp

/-- `coord`, as a quotient of integers. -/
theorem coord_int {O : ℕ} (hO : (O : ℝ) = 2 ^ 61) (a : ℕ) : (((a : ℤ) - (O : ℤ) : ℤ) : ℝ) / 2 ^ 60 = coord a := by
  unfold coord; push_cast; rw [hO]

theorem coord_neg {O : ℕ} (hO : (O : ℝ) = 2 ^ 61) {a : ℕ} (h : a ≤ 2 * O) : ((((2 * O - a : ℕ) : ℤ) - (O : ℤ) : ℤ) : ℝ) / 2 ^ 60 = -coord a := by
  unfold coord
  push_cast [Nat.cast_sub h]
  rw [hO]; ring

theorem coord_abs {O : ℕ} (hO : (O : ℝ) = 2 ^ 61) {a : ℕ} (h : |coord a| ≤ 2) : |(a : ℤ) - (O : ℤ)| ≤ (O : ℤ) ∧ a ≤ 2 * O := by
  have : |(((a : ℤ) - (O : ℤ) : ℤ) : ℝ)| ≤ (O : ℝ) := by
    rw [← coord_int hO, abs_div, abs_of_pos (by positivity : (0 : ℝ) < 2 ^ 60), div_le_iff₀ (by positivity)] at h
    rw [hO]
    refine h.trans (le_of_eq ?_)
    norm_num
  have h' : |(a : ℤ) - (O : ℤ)| ≤ (O : ℤ) := by exact_mod_cast this
  refine ⟨h', ?_⟩
  rw [abs_le] at h'
  omega

theorem near_abs {e θ : ℝ} {a b : ℕ} (h : Near e θ a b) (he : e ≤ 1) : |coord a| ≤ 2 ∧ |coord b| ≤ 2 := by
  have h1 := h.re
  have h2 := h.im
  have c1 := abs_le.1 (Real.abs_cos_le_one θ)
  have c2 := abs_le.1 (Real.abs_sin_le_one θ)
  rw [abs_le] at h1 h2
  constructor <;> rw [abs_le] <;> constructor <;> linarith

end Verif.Sine
