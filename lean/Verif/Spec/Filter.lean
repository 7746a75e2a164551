import Mathlib.Algebra.Order.BigOperators.Group.Finset
import Mathlib.Data.Int.Interval
import Verif.Spec.Sinc
import Verif.Spec.SincHistory
import Verif.Model.CoeffsFastest
import Verif.Model.CoeffsMid

/-! Specification: the filter of the sinc converters in exact arithmetic. -/

namespace Verif.Spec
open Verif

/-- Filter response at the fixed point position `p ≥ 0` (12 fraction bits): the table `q` samples one half of a symmetric impulse
response, and between the entries the response is interpolated linearly. -/
def response (q : ℤ → ℚ) (p : ℤ) : ℚ :=
  q (p / 4096) + ((p % 4096 : ℤ) : ℚ) / 4096 * (q (p / 4096 + 1) - q (p / 4096))

/-- Exact sum of the filter response times the input, over all frames `k` (counted from the current frame) from `-D` on that lie within
`halfLen` table entries of the output position. -/
def exactSum (q : ℤ → ℚ) (halfLen incr start D : ℤ) (x : ℤ → ℚ) : ℚ :=
  ∑ k ∈ Finset.Icc (-D) (4096 * halfLen + 1), if |k * incr - start| ≤ 4096 * halfLen then response q |k * incr - start| * x k else 0

/-- Exact output at ratio `ρ` and position `i` after the current frame. -/
def exactAt (q : ℤ → ℚ) (halfLen inc : ℤ) (ρ i : ℚ) (D : ℤ) (x : ℤ → ℚ) : ℚ :=
  sincInc inc ρ / inc * exactSum q halfLen (rne (sincInc inc ρ * 4096)) (rne (rq f64 (i * sincInc inc ρ) * 4096)) D x

/-- Frame `k` is under the filter at ratio `ρ` and position `i`. -/
def UnderFilter (halfLen inc : ℤ) (ρ i : ℚ) (D k : ℤ) : Prop :=
  -D ≤ k ∧ |k * rne (sincInc inc ρ * 4096) - rne (rq f64 (i * sincInc inc ρ) * 4096)| ≤ 4096 * halfLen

/-- The number a finite sample stands for (0 for NaN and infinities). -/
def valOf (x : F32) : ℚ := x.val.getD 0

/-- Like `sincIdeal`, in exact arithmetic: the output in channel `c` for the stream `x` at input time `τ`, ratio `ρ`, looking back at most
`D` frames. -/
def exactIdeal (t : CoeffTable) (x : ℕ → ℕ → F32) (D : ℤ) (ρ τ : ℚ) (c : ℕ) : ℚ :=
  exactAt (fun i => valOf (t.coeffs i)) (t.count - 2) t.increment ρ (Int.fract τ) D (fun z => valOf (signal x (⌊τ⌋ + z) c))

/-- The filter involves no input frame further than this many frames from the output position: half the length of the filter in input frames,
which is longer for ratios below 1. -/
def filterReach (t : CoeffTable) (ρ : ℚ) : ℚ := ((t.count : ℚ) / t.increment + 1) / min 1 ρ

/-- All samples in channel `c` of the stream closer than `R` frames to time `τ` satisfy `P`. -/
def Around (x : ℕ → ℕ → F32) (c : ℕ) (τ R : ℚ) (P : F32 → Prop) : Prop := ∀ k : ℕ, |(k : ℚ) - τ| < R → P (x k c)

/-- The fast and the medium table of the build are those of the repository. -/
structure ShippedTables (cfg : Config) : Prop where
  fast : ∀ t, cfg.fast = some t → t = Fastest.table
  mid : ∀ t, cfg.mid = some t → t = MidQual.table

end Verif.Spec
