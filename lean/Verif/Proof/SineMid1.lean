import Verif.Model.CoeffsMid
import Verif.Proof.SineMoment

/-! The table of mid_qual_coeffs.h on complex exponentials, evaluated by the kernel: angles 0, ..., 832 times 1/640 per frame, all phases of the table. -/

set_option maxRecDepth 1000000
set_option Elab.async false

namespace Verif.MidQual
open Verif.Sine Verif.Coeffs

theorem bent : Bent rows 491 16273000000000000000000000000000000 := by
  constructor
  all_goals decide +kernel

theorem sines1 : checkAll scale (packed 1000000000000000000000000000 (Nat.pow 2 161) 491 46 rows.flatten) 9 491 46 (Nat.mul 1500000000000000000000 1152921504606846976)
    3458764513814703160 2305846678133960643 3458764258821017695 2306609813492900439 (List.replicate 209 1000000000000000000000000000) 3458764513820540928 2305843009213693952 = true := by
  decide +kernel

theorem sines2 : checkAll scale (packed 1000000000000000000000000000 (Nat.pow 2 161) 491 46 rows.flatten) 9 491 46 (Nat.mul 1500000000000000000000 1152921504606846976)
    3458764513814703160 2305846678133960643 3458763498697095734 2307372948515879715 (List.replicate 208 1000000000000000000000000000) 3458764258821017695 2306609813492900439 = true := by
  decide +kernel

theorem sines3 : checkAll scale (packed 1000000000000000000000000000 (Nat.pow 2 161) 491 46 rows.flatten) 9 491 46 (Nat.mul 1500000000000000000000 1152921504606846976)
    3458764513814703160 2305846678133960643 3458762233443270321 2308136082868545550 (List.replicate 208 1000000000000000000000000000) 3458763498697095734 2307372948515879715 = true := by
  decide +kernel

theorem sines4 : checkAll scale (packed 1000000000000000000000000000 (Nat.pow 2 161) 491 46 rows.flatten) 9 491 46 (Nat.mul 1500000000000000000000 1152921504606846976)
    3458764513814703160 2305846678133960643 3458760463060095796 2308899216216545338 (List.replicate 208 1000000000000000000000000000) 3458762233443270321 2308136082868545550 = true := by
  decide +kernel

end Verif.MidQual
