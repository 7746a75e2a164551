import Verif.Spec.Contract

/-! Specification: sample magnitudes. -/

namespace Verif.Spec
open Verif

/-- The sample is a finite number of magnitude at most `u` (so neither NaN nor infinite; for `u = 0` it is zero). -/
def Within (u : ℚ) (x : F32) : Prop := ∃ q, x.val = some q ∧ |q| ≤ u

/-- All input samples the call may look at are within `u`. -/
def InputWithin (u : ℚ) (ch : ℤ) (op : Op) : Prop :=
  ∀ m d, op = .process m (some d) → ∀ i, 0 ≤ i → i < d.inputFrames * ch → Within u (m (d.dataIn + i))

/-- All output samples a successful call reports as generated are within `u`. -/
def OutputWithin (u : ℚ) (ch : ℤ) (op : Op) (o : Obs) : Prop :=
  ∀ m d, op = .process m (some d) → o.ret = 0 → ∃ d' m', o.data = some d' ∧ o.mem = some m' ∧
    ∀ i, 0 ≤ i → i < d'.outputFramesGen * ch → Within u (m' (d.dataOut + i))

/-- All coefficients of the filter tables have magnitude at most 1 (the largest one in the tables of the library is below 1). -/
def TablesWithin (cfg : Config) : Prop :=
  ∀ t, cfg.fast = some t ∨ cfg.mid = some t ∨ cfg.best = some t → ∀ i, 0 ≤ i → i < t.count → Within 1 (t.coeffs i)

end Verif.Spec
