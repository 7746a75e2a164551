import Verif.Model.CoeffsMid
import Verif.Proof.BandFastest
import Verif.Proof.SineMoment

/-! The table of mid_qual_coeffs.h on complex exponentials, evaluated by the kernel, where its gain falls: angles 1665, ..., 1810 times 1/640 per frame, all phases of the table. -/

set_option maxRecDepth 1000000
set_option Elab.async false

namespace Verif.MidQual
open Verif.Sine Verif.Coeffs

/-- The gains at these angles, in units of `10^-7`. -/
def fallingGains : List ℕ :=
  [
    10000000, 10000000, 10000000, 10000000, 10000000, 10000000, 10000000, 10000000, 10000000, 10000000, 10000000, 9999993, 9999983, 9999970, 9999954,
    9999933, 9999907, 9999876, 9999838, 9999793, 9999740, 9999678, 9999606, 9999522, 9999425, 9999314, 9999187, 9999042, 9998879, 9998694, 9998486,
    9998253, 9997992, 9997701, 9997377, 9997018, 9996620, 9996180, 9995695, 9995162, 9994577, 9993935, 9993233, 9992467, 9991631, 9990722, 9989733,
    9988660, 9987498, 9986241, 9984882, 9983415, 9981835, 9980134, 9978305, 9976341, 9974234, 9971978, 9969562, 9966980, 9964223, 9961281, 9958146,
    9954808, 9951257, 9947483, 9943476, 9939225, 9934720, 9929949, 9924901, 9919564, 9913926, 9907976, 9901700, 9895087, 9888123, 9880794, 9873089,
    9864993, 9856492, 9847573, 9838222, 9828423, 9818164, 9807428, 9796203, 9784471, 9772220, 9759434, 9746097, 9732196, 9717713, 9702635, 9686947,
    9670632, 9653677, 9636065, 9617782, 9598813, 9579144, 9558759, 9537644, 9515785, 9493168, 9469778, 9445603, 9420629, 9394842, 9368230, 9340780,
    9312481, 9283320, 9253287, 9222369, 9190558, 9157842, 9124213, 9089660, 9054176, 9017753, 8980383, 8942060, 8902777, 8862528, 8821309, 8779115,
    8735942, 8691789, 8646651, 8600529, 8553421, 8505327, 8456247, 8406183, 8355138, 8303115, 8250116, 8196148, 8141214, 8085323, 8028479, 7970693,
    7911971, 7852324, 7791762]

theorem falling : checkAll scale (packed 1000000000000000000000000000 (Nat.pow 2 161) 491 46 rows.flatten) 9 491 46 (Nat.mul 1500000000000000000000 1152921504606846976)
    3458764513814703160 2305846678133960643 3458745367624095493 2312487387036089147 (fallingGains.map (Nat.mul 100000000000000000000)) 3458748330252739462 2311951732874850154 = true := by
  decide +kernel

theorem fallingGains_ge : ∀ κ ∈ fallingGains, 7079500 ≤ κ := by
  decide +kernel

theorem fallingGains_length : fallingGains.length = 146 := by
  decide +kernel

end Verif.MidQual
