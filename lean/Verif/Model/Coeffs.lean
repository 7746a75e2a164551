import Verif.Model.New

/-! Model of the coefficient tables compiled into the library. -/

namespace Verif.Coeffs

/-- A non-negative table entry times `10^27`. -/
def p (n : ℕ) : ℤ := n
/-- A negative table entry times `10^27`. -/
def m (n : ℕ) : ℤ := -n

/-- A table entry: a decimal literal of type `double`, converted to `coeff_t` = `float` by the initialiser
(src_sinc.c:43, fastest_coeffs.h:23-31). -/
def literal (n : ℤ) : F32 := Fl.conv f32 (Fl.round f64 ((n : ℚ) / 10 ^ 27))

/-- Entry `i ≥ 0` of a list of entries (accesses outside the table are faults of the model, see `rdCoeff`). -/
def entry (l : List ℤ) (i : ℤ) : ℤ := l.getD i.toNat 0

/-- A coefficient table whose entries are written in rows. -/
def ofRows (increment count : ℤ) (rows : List (List ℤ)) : CoeffTable where
  increment := increment
  count := count
  coeffs := fun i => literal (entry rows.flatten i)

end Verif.Coeffs
