import Verif.Proof.SineMid1
import Verif.Proof.SineMoment

/-! The table of mid_qual_coeffs.h on complex exponentials, evaluated by the kernel: angles 833, ..., 1664 times 1/640 per frame, all phases of the table. -/

set_option maxRecDepth 1000000
set_option Elab.async false

namespace Verif.MidQual
open Verif.Sine Verif.Coeffs

theorem sines5 : checkAll scale (packed 1000000000000000000000000000 (Nat.pow 2 161) 491 46 rows.flatten) 9 491 46 (Nat.mul 1500000000000000000000 1152921504606846976)
    3458764513814703160 2305846678133960643 3458758187548347823 2309662348225526902 (List.replicate 208 1000000000000000000000000000) 3458760463060095796 2308899216216545338 = true := by
  decide +kernel

theorem sines6 : checkAll scale (packed 1000000000000000000000000000 (Nat.pow 2 161) 491 46 rows.flatten) 9 491 46 (Nat.mul 1500000000000000000000 1152921504606846976)
    3458764513814703160 2305846678133960643 3458755406909023366 2310425478561138650 (List.replicate 208 1000000000000000000000000000) 3458758187548347823 2309662348225526902 = true := by
  decide +kernel

theorem sines7 : checkAll scale (packed 1000000000000000000000000000 (Nat.pow 2 161) 491 46 rows.flatten) 9 491 46 (Nat.mul 1500000000000000000000 1152921504606846976)
    3458764513814703160 2305846678133960643 3458752121143340720 2311188606889029726 (List.replicate 208 1000000000000000000000000000) 3458755406909023366 2310425478561138650 = true := by
  decide +kernel

theorem sines8 : checkAll scale (packed 1000000000000000000000000000 (Nat.pow 2 161) 491 46 rows.flatten) 9 491 46 (Nat.mul 1500000000000000000000 1152921504606846976)
    3458764513814703160 2305846678133960643 3458748330252739462 2311951732874850154 (List.replicate 208 1000000000000000000000000000) 3458752121143340720 2311188606889029726 = true := by
  decide +kernel

end Verif.MidQual
