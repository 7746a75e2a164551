import Verif.Spec.History

/-! Specification of histories that differ in sample values only. -/

namespace Verif.Spec
open Verif

/-- Two API calls with the same arguments, on memories with arbitrary different contents. -/
inductive SameCall : Op → Op → Prop
  | process (m m' : Mem) (d : Option SrcData) : SameCall (.process m d) (.process m' d)
  | setRatio (r : F64) : SameCall (.setRatio r) (.setRatio r)
  | reset : SameCall .reset .reset

/-- Two observations that agree in everything but sample values: return value, `SRC_DATA` with its frame counts, `src_error`,
`src_get_channels`. -/
structure SameTiming (o o' : Obs) : Prop where
  ret : o'.ret = o.ret
  data : o'.data = o.data
  err : o'.err = o.err
  chans : o'.chans = o.chans

end Verif.Spec
