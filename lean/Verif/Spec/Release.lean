import Verif.Model.Release
import Verif.Spec.SincHistory

/-! Histories of calls in a build without assertions; see `Verif.Spec.History`. -/

namespace Verif.Release
open Verif.Spec

/-- Effect of a call on the handle `st`. -/
def opRun (st : SrcState) : Op → M (Obs × SrcState)
  | .process m d => do
    let (e, m, st', d) ← srcProcess m (some st) d
    pure (⟨e, some m, d, 0, srcError st', srcGetChannels st'⟩, st'.getD st)
  | .read cb dummy fuel calls m ratio frames data => do
    let (n, m, st', k) ← srcCallbackRead cb dummy fuel calls m (some st) ratio frames data
    pure (⟨n, some m, none, k, srcError st', srcGetChannels st'⟩, st'.getD st)
  | .setRatio r =>
    let (e, st') := srcSetRatio (some st) r
    pure (⟨e, none, none, 0, srcError st', srcGetChannels st'⟩, st'.getD st)
  | .reset =>
    let (e, st') := srcReset (some st)
    pure (⟨e, none, none, 0, srcError st', srcGetChannels st'⟩, st'.getD st)

/-- A history: the observations, and the handle at the end. -/
def run : List Op → SrcState → M (List Obs × SrcState)
  | [], st => pure ([], st)
  | op :: ops, st => do
    let (o, st) ← opRun st op
    let (os, st) ← run ops st
    pure (o :: os, st)

end Verif.Release

namespace Verif.Spec
open Verif

/-- The call asks for a valid ratio below `q` (`AsksBelow`, and reads). -/
def PullsBelow (q : ℚ) (op : Op) : Prop := AsksBelow q op ∨
  ∃ cb dummy fuel calls m r frames data, ∃ v : ℚ, op = .read cb dummy fuel calls m r frames data ∧ r.val = some v ∧ 1 / 256 ≤ v ∧ v < q

end Verif.Spec
