import Verif.Model.CoeffsFastest
import Verif.Proof.TableSums

/-! Sums over the entries of fastest_coeffs.h, evaluated by the kernel. -/

set_option maxRecDepth 1000000

namespace Verif.Fastest
open Verif.Coeffs

theorem checked : Checked rows 128 2464 (10 ^ 27 - 1900000000000000000000) (10 ^ 27 + 1900000000000000000000) 1887100000000000000000000000
    118900000000000000000000000000 1718500000000000000000000000 7400000000000000000000000 840000000000000000000000000 130000000000000000000 := by
  constructor
  all_goals decide +kernel

end Verif.Fastest
