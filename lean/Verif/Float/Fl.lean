import Verif.Float.Round

/-! IEEE-754 values and operations used by the C code.

Simplifications, for all of this file: all NaNs are identified, and `-0` is identified with `+0` (so a division by
zero gives the infinity with the sign of the numerator; the modelled code never divides by zero).  Exceptions flags are
not modelled. -/

namespace Verif

/-- representable finite value of format `f` -/
def Rep (f : Fmt) (q : ℚ) : Prop := Rep0 f q ∧ |q| < p2 f.emax

/-- A floating point datum. -/
inductive Fl (f : Fmt) where
  | nan : Fl f
  | inf (neg : Bool) : Fl f
  | fin (q : ℚ) (h : Rep f q) : Fl f

/-- C `double` -/
abbrev F64 := Fl f64
/-- C `float` -/
abbrev F32 := Fl f32

namespace Fl
variable {f : Fmt}

/-- The rational value of a finite datum. -/
def val : Fl f → Option ℚ
  | fin q _ => some q
  | _ => none

/-- Round a rational, overflowing to infinity. -/
def round (f : Fmt) (q : ℚ) : Fl f :=
  if h : |rq f q| < p2 f.emax then fin (rq f q) ⟨rep0_rq f q, h⟩ else inf (decide (q < 0))

/-- conversion from an integer type (`(double) n`) -/
def ofInt (f : Fmt) (n : ℤ) : Fl f := round f n

def neg : Fl f → Fl f
  | nan => nan
  | inf s => inf (!s)
  | fin q h => fin (-q) ⟨rep0_neg h.1, by rw [abs_neg]; exact h.2⟩

/-- C `fabs` -/
def abs : Fl f → Fl f
  | nan => nan
  | inf _ => inf false
  | fin q h => if q < 0 then neg (fin q h) else fin q h

def add : Fl f → Fl f → Fl f
  | nan, _ => nan
  | _, nan => nan
  | inf s, inf t => if s = t then inf s else nan
  | inf s, fin _ _ => inf s
  | fin _ _, inf t => inf t
  | fin a _, fin b _ => round f (a + b)

def sub (x y : Fl f) : Fl f := add x (neg y)

def mul : Fl f → Fl f → Fl f
  | nan, _ => nan
  | _, nan => nan
  | inf s, inf t => inf (s != t)
  | inf s, fin b _ => if b = 0 then nan else inf (s != decide (b < 0))
  | fin a _, inf t => if a = 0 then nan else inf (decide (a < 0) != t)
  | fin a _, fin b _ => round f (a * b)

def div : Fl f → Fl f → Fl f
  | nan, _ => nan
  | _, nan => nan
  | inf _, inf _ => nan
  | inf s, fin b _ => inf (s != decide (b < 0))
  | fin _ _, inf _ => round f 0
  | fin a _, fin b _ => if b = 0 then (if a = 0 then nan else inf (decide (a < 0))) else round f (a / b)

/-- C `<`: false if either side is NaN. -/
def lt : Fl f → Fl f → Bool
  | nan, _ => false
  | _, nan => false
  | inf s, inf t => s && !t
  | inf s, fin _ _ => s
  | fin _ _, inf t => !t
  | fin a _, fin b _ => decide (a < b)

/-- C `<=`: false if either side is NaN. -/
def le : Fl f → Fl f → Bool
  | nan, _ => false
  | _, nan => false
  | inf s, inf t => s || !t
  | inf s, fin _ _ => s
  | fin _ _, inf t => !t
  | fin a _, fin b _ => decide (a ≤ b)

/-- C `>` -/
abbrev gt (x y : Fl f) : Bool := lt y x
/-- C `>=` -/
abbrev ge (x y : Fl f) : Bool := le y x

/-- conversion between formats (`(float) d`, `(double) f`) -/
def conv (g : Fmt) : Fl f → Fl g
  | nan => nan
  | inf s => inf s
  | fin q _ => round g q

/-! ### characterisation through `val` -/

theorem val_inj {x y : Fl f} {a : ℚ} (hx : x.val = some a) (hy : y.val = some a) : x = y := by
  cases x <;> cases y <;> simp_all [val]

theorem eq_fin_of_val {x : Fl f} {a : ℚ} (hx : x.val = some a) : ∃ h, x = fin a h := by
  cases x <;> simp_all [val]
  rename_i q h; subst hx; exact h

theorem rep_of_val {x : Fl f} {a : ℚ} (hx : x.val = some a) : Rep f a := by
  obtain ⟨h, _⟩ := eq_fin_of_val hx; exact h

theorem val_round {q : ℚ} (h : |rq f q| < p2 f.emax) : (round f q).val = some (rq f q) := by
  simp [round, h, val]

theorem val_round_of_rep {q : ℚ} (h : Rep f q) : (round f q).val = some q := by
  rw [val_round] <;> rw [rq_of_rep h.1]; exact h.2

theorem val_add {x y : Fl f} {a b : ℚ} (hx : x.val = some a) (hy : y.val = some b)
    (h : |rq f (a + b)| < p2 f.emax) : (add x y).val = some (rq f (a + b)) := by
  obtain ⟨_, rfl⟩ := eq_fin_of_val hx
  obtain ⟨_, rfl⟩ := eq_fin_of_val hy
  exact val_round h

theorem val_neg {x : Fl f} {a : ℚ} (hx : x.val = some a) : (neg x).val = some (-a) := by
  obtain ⟨_, rfl⟩ := eq_fin_of_val hx; rfl

theorem val_abs {x : Fl f} {a : ℚ} (hx : x.val = some a) : (abs x).val = some |a| := by
  obtain ⟨_, rfl⟩ := eq_fin_of_val hx
  simp only [abs]
  split_ifs with h
  · simp [neg, val, abs_of_neg h]
  · simp [val, abs_of_nonneg (not_lt.1 h)]

theorem val_sub {x y : Fl f} {a b : ℚ} (hx : x.val = some a) (hy : y.val = some b)
    (h : |rq f (a - b)| < p2 f.emax) : (sub x y).val = some (rq f (a - b)) := by
  rw [sub_eq_add_neg] at *
  exact val_add hx (val_neg hy) h

theorem val_mul {x y : Fl f} {a b : ℚ} (hx : x.val = some a) (hy : y.val = some b)
    (h : |rq f (a * b)| < p2 f.emax) : (mul x y).val = some (rq f (a * b)) := by
  obtain ⟨_, rfl⟩ := eq_fin_of_val hx
  obtain ⟨_, rfl⟩ := eq_fin_of_val hy
  exact val_round h

theorem val_div {x y : Fl f} {a b : ℚ} (hx : x.val = some a) (hy : y.val = some b) (hb : b ≠ 0)
    (h : |rq f (a / b)| < p2 f.emax) : (div x y).val = some (rq f (a / b)) := by
  obtain ⟨_, rfl⟩ := eq_fin_of_val hx
  obtain ⟨_, rfl⟩ := eq_fin_of_val hy
  simp only [div, hb, if_false]
  exact val_round h

theorem lt_val {x y : Fl f} {a b : ℚ} (hx : x.val = some a) (hy : y.val = some b) :
    lt x y = decide (a < b) := by
  obtain ⟨_, rfl⟩ := eq_fin_of_val hx
  obtain ⟨_, rfl⟩ := eq_fin_of_val hy
  rfl

theorem le_val {x y : Fl f} {a b : ℚ} (hx : x.val = some a) (hy : y.val = some b) :
    le x y = decide (a ≤ b) := by
  obtain ⟨_, rfl⟩ := eq_fin_of_val hx
  obtain ⟨_, rfl⟩ := eq_fin_of_val hy
  rfl

theorem val_conv {g : Fmt} {x : Fl f} {a : ℚ} (hx : x.val = some a) (h : |rq g a| < p2 g.emax) :
    (conv g x).val = some (rq g a) := by
  obtain ⟨_, rfl⟩ := eq_fin_of_val hx
  exact val_round h

/-- magnitude bound transfer: rounding cannot cross a representable bound -/
theorem abs_rq_le {q r : ℚ} (hr : Rep0 f r) (h : |q| ≤ r) : |rq f q| ≤ r := by
  rw [abs_le] at *
  exact ⟨le_rq (rep0_neg hr) h.1, rq_le hr h.2⟩

theorem abs_rq_lt_emax {q : ℚ} {k : ℤ} (hk : f.emin ≤ k) (hk2 : k < f.emax) (h : |q| ≤ p2 k) :
    |rq f q| < p2 f.emax :=
  (abs_rq_le (rep0_p2 hk) h).trans_lt (p2_lt hk2)

theorem val_ofInt {n : ℤ} (h : |n| ≤ 2 ^ f.prec) : (ofInt f n).val = some (n : ℚ) := by
  apply val_round_of_rep
  refine ⟨rep0_int h, ?_⟩
  have h1 : |(n : ℚ)| ≤ 2 ^ f.prec := by exact_mod_cast h
  refine h1.trans_lt ?_
  rw [← p2_natCast]
  apply p2_lt
  have := f.hmax; omega

end Fl

/-- A binary32 value is a binary64 value. -/
theorem rep64_of_rep32 {q : ℚ} (h : Rep f32 q) : Rep f64 q := by
  obtain ⟨⟨m, e, h1, h2, h3⟩, h4⟩ := h
  refine ⟨⟨m, e, ?_, ?_, h3⟩, h4.trans (p2_lt (by decide))⟩
  · have : (f64.emin : ℤ) ≤ f32.emin := by decide
    omega
  · refine h2.trans_le ?_
    exact pow_le_pow_right₀ (by norm_num) (by decide)

theorem Fl.val_conv64 {x : F32} {a : ℚ} (hx : x.val = some a) : (Fl.conv f64 x).val = some a := by
  obtain ⟨h, rfl⟩ := Fl.eq_fin_of_val hx
  exact Fl.val_round_of_rep (rep64_of_rep32 h)

end Verif
