import Verif.Model.New

/-! Histories: sequences of API calls on one handle, and what the caller observes. -/

namespace Verif.Spec
open Verif

/-- One API call on a handle.  The sample memory at the time of the call is part of the call: between calls the caller may change
its memory in any way.  `read` is `src_callback_read`; the behaviour of the user callback during the call is an arbitrary
function, and `fuel` bounds the number of its loop iterations (a history in which the fuel runs out is one in which the call has not
returned). -/
inductive Op where
  | process (m : Mem) (d : Option SrcData)
  | read (cb : Callback) (dummy : ℤ) (fuel calls : ℕ) (m : Mem) (ratio : F64) (frames data : ℤ)
  | setRatio (ratio : F64)
  | reset

/-- What the caller sees of a call: return value, memory and `SRC_DATA` afterwards, number of callbacks made, and the answers of
`src_error` and `src_get_channels` afterwards. -/
structure Obs where
  ret : ℤ
  mem : Option Mem
  data : Option SrcData
  calls : ℕ
  err : ℤ
  chans : ℤ

/-- Effect of a call on the handle `st`. -/
def Op.run (st : SrcState) : Op → M (Obs × SrcState)
  | .process m d => do
    let (e, m, st', d) ← srcProcess m (some st) d
    pure (⟨e, some m, d, 0, srcError st', srcGetChannels st'⟩, st'.getD st)
  | .read cb dummy fuel calls m ratio frames data => do
    let (n, m, st', k) ← srcCallbackRead cb dummy fuel calls m (some st) ratio frames data
    pure (⟨n, some m, none, k, srcError st', srcGetChannels st'⟩, st'.getD st)
  | .setRatio r =>
    let (e, st') := srcSetRatio (some st) r
    pure (⟨e, none, none, 0, srcError st', srcGetChannels st'⟩, st'.getD st)
  | .reset =>
    let (e, st') := srcReset (some st)
    pure (⟨e, none, none, 0, srcError st', srcGetChannels st'⟩, st'.getD st)

/-- A history: the observations, and the handle at the end. -/
def run : List Op → SrcState → M (List Obs × SrcState)
  | [], st => pure ([], st)
  | op :: ops, st => do
    let (o, st) ← op.run st
    let (os, st) ← run ops st
    pure (o :: os, st)

/-- The handle `st` can be the result of a successful `src_new` or `src_callback_new`. -/
inductive Created (cfg : Config) : SrcState → Prop
  | new (type channels e : ℤ) (st : SrcState) : srcNew cfg type channels = .ok (e, some st) → Created cfg st
  | callbackNew (func : Option ℕ) (type channels : ℤ) (userData : ℕ) (e : ℤ) (st : SrcState) :
      srcCallbackNew cfg func type channels userData = .ok (e, some st) → Created cfg st

/-- `st'` is the handle `st` after some history. -/
def Reach (st st' : SrcState) : Prop := ∃ ops os, run ops st = .ok (os, st')

end Verif.Spec
