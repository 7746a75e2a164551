import Verif.Model.CoeffsFastest
import Verif.Proof.AliasMid
import Verif.Proof.SineMoment

/-! The table of fastest_coeffs.h on complex exponentials, evaluated by the kernel, where its gain falls: angles 513, ..., 644 times 1/256 per frame, all phases of the table. -/

set_option maxRecDepth 1000000
set_option Elab.async false

namespace Verif.Fastest
open Verif.Sine Verif.Coeffs

/-- The gains at these angles, in units of `10^-6`. -/
def fallingGains : List ℕ :=
  [
    999992, 999993, 999994, 999995, 999996, 999997, 999999, 1000000, 1000000, 1000000, 1000000, 1000000, 1000000, 1000000, 1000000, 1000000, 1000000,
    1000000, 1000000, 1000000, 1000000, 999996, 999988, 999979, 999966, 999951, 999933, 999911, 999886, 999856, 999820, 999780, 999733, 999680,
    999619, 999551, 999474, 999387, 999290, 999181, 999061, 998927, 998780, 998617, 998438, 998242, 998027, 997792, 997536, 997258, 996956, 996628,
    996273, 995890, 995477, 995032, 994554, 994040, 993490, 992900, 992270, 991597, 990879, 990114, 989300, 988436, 987518, 986545, 985514, 984424,
    983272, 982055, 980771, 979419, 977995, 976498, 974924, 973272, 971539, 969723, 967822, 965832, 963753, 961581, 959314, 956950, 954486, 951921,
    949253, 946478, 943596, 940604, 937500, 934283, 930950, 927500, 923931, 920241, 916429, 912494, 908435, 904249, 899936, 895495, 890925, 886225,
    881395, 876434, 871341, 866116, 860760, 855271, 849651, 843898, 838014, 831999, 825854, 819580, 813176, 806645, 799988, 793205, 786299, 779272,
    772123, 764857, 757474, 749978, 742369, 734652, 726828, 718900]

theorem falling : checkAll scale (packed 1000000000000000000000000000 (Nat.pow 2 161) 128 20 rows.flatten) 8 128 20 (Nat.mul 14000000000000000000000 1152921504606846976)
    3458764513283670016 2305878193585777323 3458541169310815991 2328535463766356349 (fallingGains.map (Nat.mul 1000000000000000000000)) 3458623228925223710 2323891854793186987 = true := by
  decide +kernel

theorem fallingGains_ge : ∀ κ ∈ fallingGains, 707950 ≤ κ := by
  decide +kernel

theorem fallingGains_length : fallingGains.length = 132 := by
  decide +kernel

end Verif.Fastest
