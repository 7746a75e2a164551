import Verif.Spec.Contract

/-! Specification: two histories that differ in sample values only. -/

namespace Verif.Spec
open Verif

/-- Two corresponding calls of two histories: the same function with the same arguments, but sample memories that may differ.  Sample `i` of the input buffer
is a sample of channel `i % ch`; the two values are related by `R` for this channel.  Nothing is assumed about the rest of the
memories. -/
inductive Twin (R : ℤ → F32 → F32 → Prop) (ch : ℤ) : Op → Op → Prop
  | process (m m' : Mem) (d : Option SrcData) :
      (∀ x, d = some x → ∀ i, 0 ≤ i → i < x.inputFrames * ch → R (i % ch) (m (x.dataIn + i)) (m' (x.dataIn + i))) →
      Twin R ch (.process m d) (.process m' d)
  | setRatio (r : F64) : Twin R ch (.setRatio r) (.setRatio r)
  | reset : Twin R ch .reset .reset

/-- The observations `o` and `o'` of two corresponding calls: the same return value, frame counts and answers of `src_error` and
`src_get_channels`, and, after a successful `src_process`, generated output samples that are related by `R` for their channel. -/
structure TwinObs (R : ℤ → F32 → F32 → Prop) (ch : ℤ) (op : Op) (o o' : Obs) : Prop where
  ret : o'.ret = o.ret
  data : o'.data = o.data
  err : o'.err = o.err
  chans : o'.chans = o.chans
  out : ∀ m x, op = .process m (some x) → o.ret = 0 → ∃ d m1 m1', o.data = some d ∧ o.mem = some m1 ∧ o'.mem = some m1' ∧
    ∀ i, 0 ≤ i → i < d.outputFramesGen * ch → R (i % ch) (m1 (x.dataOut + i)) (m1' (x.dataOut + i))

/-- The observations of two corresponding histories. -/
inductive TwinHist (R : ℤ → F32 → F32 → Prop) (ch : ℤ) : List Op → List Obs → List Obs → Prop
  | nil : TwinHist R ch [] [] []
  | cons (op : Op) (o o' : Obs) (ops : List Op) (os os' : List Obs) : TwinObs R ch op o o' → TwinHist R ch ops os os' →
      TwinHist R ch (op :: ops) (o :: os) (o' :: os')

end Verif.Spec
