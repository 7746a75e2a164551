import Verif.Spec.SincHistory
import Verif.Spec.Endless
import Verif.Model.Varispeed

/-! Specification of the example program `examples/varispeed-play.c`. -/

namespace Verif.Spec
open Verif

/-- The frames of a file, played over and over. -/
def looped (f : SndFile) (k c : ℕ) : F32 := f.x (k % f.len) c

/-- A function that can serve as `sin`: its values are numbers between -1 and 1. -/
def SineLike (sin : F64 → F64) : Prop := ∀ a, ∃ q, (sin a).val = some q ∧ -1 ≤ q ∧ q ≤ 1

/-- The double nearest to `pi`, by its value `884279719003555 / 2^48`. -/
def piDouble : F64 := Fl.round f64 (884279719003555 / 281474976710656)

/-- The ratio the program asks for in block `k`: `1 - 0.5 * sin (2 * k * pi / 20000)`, in double precision. -/
def speedAt (sin : F64 → F64) (k : ℕ) : F64 :=
  Fl.sub one64 (Fl.mul (Fl.round f64 (1 / 2)) (sin (Fl.div (Fl.mul (dbl ((k : ℤ) * 2)) piDouble) (dbl 20000))))

/-- The calls `ps`, with the observations `qs`, fall into blocks of `n` output frames each, and all calls of block number `k + i` are calls of `src_process` that ask for the ratio `r (k + i)`. -/
inductive InBlocks (ch : ℕ) (r : ℕ → F64) (n : ℕ) : ℕ → List Op → List Obs → Prop
  | nil (k : ℕ) : InBlocks ch r n k [] []
  | block (k : ℕ) (ps : List Op) (qs : List Obs) (ps' : List Op) (qs' : List Obs) : ps.length = qs.length →
      (∀ p ∈ ps, ∃ m d, p = .process m (some d) ∧ d.srcRatio = r k) → (outputs ch qs).length = n → InBlocks ch r n (k + 1) ps' qs' →
      InBlocks ch r n k (ps ++ ps') (qs ++ qs')

end Verif.Spec
