import Verif.Model.CoeffsMid
import Verif.Proof.TableSums

/-! Sums over the entries of mid_qual_coeffs.h, evaluated by the kernel. -/

set_option maxRecDepth 1000000

namespace Verif.MidQual
open Verif.Coeffs

theorem checked : Checked rows 491 22438 (10 ^ 27 - 100000000000000000000) (10 ^ 27 + 100000000000000000000) 2363000000000000000000000000
    541400000000000000000000000000 2400500000000000000000000000 7400000000000000000000000 920000000000000000000000000 130000000000000000000 := by
  constructor
  all_goals decide +kernel

end Verif.MidQual
