import Verif.Model.CoeffsFastest
import Verif.Proof.BandMid
import Verif.Proof.SineMoment

/-! The table of fastest_coeffs.h on complex exponentials, evaluated by the kernel, up to half the rate: angles 645, ..., 805 times 1/256 per frame, all phases of the table. -/

set_option maxRecDepth 1000000
set_option Elab.async false

namespace Verif.Fastest
open Verif.Sine Verif.Coeffs

/-- The gains at these angles, in units of `10^-6`. -/
def closingGains : List ℕ :=
  [
    710871, 702744, 694522, 686209, 677807, 669321, 660753, 652108, 643389, 634600, 625746, 616830, 607856, 598829, 589753, 580632, 571471, 562275,
    553047, 543792, 534516, 525222, 515915, 506601, 497283, 487966, 478656, 469356, 460072, 450807, 441568, 432358, 423181, 414044, 404948, 395901,
    386904, 377964, 369083, 360267, 351519, 342843, 334242, 325722, 317285, 308934, 300674, 292507, 284437, 276467, 268599, 260837, 253183, 245640,
    238210, 230895, 223697, 216619, 209662, 202828, 196119, 189535, 183078, 176749, 170550, 164481, 158543, 152736, 147060, 141516, 136104, 130825,
    125677, 120661, 115776, 111022, 106398, 101903, 97537, 93298, 89186, 85199, 81335, 77595, 73976, 70476, 67094, 63828, 60677, 57639, 54711, 51892,
    49179, 46571, 44066, 41660, 39353, 37142, 35023, 32997, 31059, 29207, 27440, 25755, 24149, 22620, 21165, 19783, 18472, 17227, 16048, 14932, 13877,
    12881, 11940, 11054, 10219, 9435, 8698, 8006, 7358, 6752, 6186, 5657, 5164, 4706, 4280, 3885, 3519, 3180, 2868, 2579, 2315, 2071, 1849, 1645,
    1459, 1290, 1136, 997, 871, 758, 657, 566, 485, 413, 349, 292, 243, 200, 163, 131, 103, 80, 60, 44, 30, 19, 11, 4, 0]

theorem closing : checkAll scale (packed 1000000000000000000000000000 (Nat.pow 2 161) 128 20 rows.flatten) 8 128 20 (Nat.mul 14000000000000000000000 1152921504606846976)
    3458764513283670016 2305878193585777323 3458415760732853347 2334198753613531204 (closingGains.map (Nat.mul 1000000000000000000000)) 3458541169310815991 2328535463766356349 = true := by
  decide +kernel

theorem closingGains_length : closingGains.length = 161 := by
  decide +kernel

end Verif.Fastest
