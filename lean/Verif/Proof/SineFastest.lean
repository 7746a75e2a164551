import Verif.Model.CoeffsFastest
import Verif.Proof.SineMoment

/-! The table of fastest_coeffs.h on complex exponentials, evaluated by the kernel: angles 0, 1/256, ..., 512/256 per frame, all phases of the table. -/

set_option maxRecDepth 1000000
set_option Elab.async false

namespace Verif.Fastest
open Verif.Sine Verif.Coeffs

theorem bent : Bent rows 128 237200000000000000000000000000000 := by
  constructor
  all_goals decide +kernel

theorem sines : checkAll scale (packed 1000000000000000000000000000 (Nat.pow 2 161) 128 20 rows.flatten) 8 128 20 (Nat.mul 14000000000000000000000 1152921504606846976)
    3458764513283670016 2305878193585777323 3458623228925223710 2323891854793186987 (List.replicate 513 1000000000000000000000000000) 3458764513820540928 2305843009213693952 = true := by
  decide +kernel

end Verif.Fastest
