import Verif.Spec.Stream

/-! Specification: the same channel in two outputs. -/

namespace Verif.Spec
open Verif

/-- Channel `c` of the output of one history is channel `c'` of the output of the other, as far as both go. -/
def SameChannel (c c' : ℕ) (x y : List (List F32)) : Prop :=
  ∀ (j : ℕ) (f f' : List F32) (u v : F32), x[j]? = some f → y[j]? = some f' → f[c]? = some u → f'[c']? = some v → u = v

end Verif.Spec
