import Verif.Model.CoeffsMid
import Verif.Proof.CloseFastest
import Verif.Proof.SineMoment

/-! The table of mid_qual_coeffs.h on complex exponentials, evaluated by the kernel, up to half the rate: angles 1811, ..., 2011 times 1/640 per frame, all phases of the table. -/

set_option maxRecDepth 1000000
set_option Elab.async false

namespace Verif.MidQual
open Verif.Sine Verif.Coeffs

/-- The gains at these angles, in units of `10^-7`. -/
def closingGains : List ℕ :=
  [
    7730297, 7667939, 7604703, 7540601, 7475648, 7409859, 7343251, 7275839, 7207643, 7138679, 7068967, 6998526, 6927378, 6855544, 6783044, 6709902,
    6636142, 6561786, 6486859, 6411387, 6335394, 6258907, 6181952, 6104557, 6026749, 5948555, 5870005, 5791127, 5711949, 5632502, 5552815, 5472917,
    5392840, 5312613, 5232266, 5151831, 5071338, 4990818, 4910301, 4829818, 4749401, 4669079, 4588883, 4508844, 4428992, 4349357, 4269969, 4190857,
    4112051, 4033580, 3955472, 3877755, 3800458, 3723608, 3647231, 3571355, 3496005, 3421206, 3346984, 3273363, 3200366, 3128016, 3056336, 2985348,
    2915072, 2845529, 2776738, 2708719, 2641489, 2575066, 2509467, 2444707, 2380801, 2317764, 2255609, 2194348, 2133994, 2074558, 2016048, 1958476,
    1901849, 1846175, 1791462, 1737714, 1684937, 1633137, 1582315, 1532476, 1483621, 1435751, 1388868, 1342970, 1298057, 1254128, 1211179, 1169207,
    1128210, 1088182, 1049118, 1011012, 973859, 937650, 902380, 868038, 834618, 802109, 770502, 739788, 709954, 680991, 652886, 625629, 599206,
    573605, 548814, 524819, 501607, 479164, 457476, 436529, 416308, 396800, 377989, 359860, 342400, 325592, 309421, 293873, 278932, 264584, 250812,
    237603, 224940, 212808, 201194, 190081, 179456, 169303, 159608, 150356, 141534, 133127, 125121, 117503, 110259, 103376, 96841, 90640, 84763,
    79195, 73925, 68941, 64232, 59786, 55592, 51639, 47917, 44415, 41124, 38034, 35135, 32418, 29875, 27497, 25275, 23202, 21269, 19470, 17797, 16243,
    14802, 13467, 12231, 11090, 10037, 9067, 8175, 7355, 6604, 5916, 5288, 4714, 4192, 3718, 3288, 2899, 2548, 2232, 1948, 1693, 1466, 1264, 1084,
    925, 784, 661, 553, 459, 378, 308, 248]

theorem closing : checkAll scale (packed 1000000000000000000000000000 (Nat.pow 2 161) 491 46 rows.flatten) 9 491 46 (Nat.mul 30000000000000000000000 1152921504606846976)
    3458764513814703160 2305846678133960643 3458740881776839214 2313224826353533483 (closingGains.map (Nat.mul 100000000000000000000)) 3458745367624095493 2312487387036089147 = true := by
  decide +kernel

theorem closingGains_length : closingGains.length = 201 := by
  decide +kernel

end Verif.MidQual
