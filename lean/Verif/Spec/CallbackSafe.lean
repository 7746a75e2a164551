import Verif.Spec.Callback

/-! Specification: what a caller of `src_callback_read` does so that a sinc converter stays inside its buffers (compare `SafeUse`). -/

namespace Verif.Spec
open Verif

/-- The callback reports the end of the input from its invocation number `c` on. -/
def MayEnd (cnt : ℕ → ℤ) (c : ℕ) : Prop := ∃ i, c ≤ i ∧ cnt i = 0

/-- A read at ratio `r` is allowed in the phase `p`, after `c` invocations of the callback: as a `src_process` call at this ratio, with
`end_of_input` set if the callback can report the end of the input. -/
def AllowsPull (ch : ℤ) (cnt : ℕ → ℤ) (c : ℕ) (p : Phase) (r : F64) : Prop := ∀ eoi : ℤ, (eoi ≠ 0 → MayEnd cnt c) → p.Allows ch r eoi

/-- `SafePulls ch cnt c p ops os c' p'`: the history of a callback handle, whose callback returns the counts `cnt`, leads from the phase `p` and
`c` invocations of the callback to the phase `p'` and `c'` invocations.  A read in which the callback returned 0 counts as a call that sets
`end_of_input`.  So between two resets
* the callback never returns 0; or
* all ratios are at least 1/180, and if there are several channels: from the read on in which the callback returned 0 no ratio below 1 is
  smaller than an earlier one; or
* there is one channel, and no ratio below 1 is smaller than an earlier one. -/
inductive SafePulls (ch : ℤ) (cnt : ℕ → ℤ) : ℕ → Phase → List Op → List Obs → ℕ → Phase → Prop
  | nil (c : ℕ) (p : Phase) : SafePulls ch cnt c p [] [] c p
  | reset (c : ℕ) (p p1 : Phase) (o : Obs) (ops : List Op) (os : List Obs) (c' : ℕ) (p' : Phase) : p1.First →
      SafePulls ch cnt c p1 ops os c' p' → SafePulls ch cnt c p (.reset :: ops) (o :: os) c' p'
  | process (c : ℕ) (p : Phase) (m : Mem) (d : Option SrcData) (o : Obs) (ops : List Op) (os : List Obs) (c' : ℕ) (p' : Phase) :
      SafePulls ch cnt c p ops os c' p' → SafePulls ch cnt c p (.process m d :: ops) (o :: os) c' p'
  | ratio (c : ℕ) (p : Phase) (r : F64) (o : Obs) (ops : List Op) (os : List Obs) (c' : ℕ) (p' : Phase) : p.Allows ch r 0 →
      SafePulls ch cnt c (p.next r 0) ops os c' p' → SafePulls ch cnt c p (.setRatio r :: ops) (o :: os) c' p'
  | read (c : ℕ) (p : Phase) (cb : Callback) (dummy : ℤ) (fuel : ℕ) (m : Mem) (r : F64) (frames data : ℤ) (o : Obs) (ops : List Op)
      (os : List Obs) (c' : ℕ) (p' : Phase) : Counts cnt cb → AllowsPull ch cnt c p r → (∀ i, c ≤ i → i < o.calls → cnt i ≠ 0) →
      SafePulls ch cnt o.calls (p.next r 0) ops os c' p' →
      SafePulls ch cnt c p (.read cb dummy fuel c m r frames data :: ops) (o :: os) c' p'
  | readEnd (c : ℕ) (p : Phase) (cb : Callback) (dummy : ℤ) (fuel : ℕ) (m : Mem) (r : F64) (frames data : ℤ) (o : Obs) (ops : List Op)
      (os : List Obs) (c' : ℕ) (p' : Phase) : Counts cnt cb → AllowsPull ch cnt c p r → (∃ i, c ≤ i ∧ i < o.calls ∧ cnt i = 0) →
      SafePulls ch cnt o.calls (p.next r 1) ops os c' p' →
      SafePulls ch cnt c p (.read cb dummy fuel c m r frames data :: ops) (o :: os) c' p'

/-- The call does nothing undefined: with any number of iterations allowed it returns or is still running. -/
def Defined {α : Type} (f : ℕ → M α) : Prop := ∀ fuel, (∃ r, f fuel = .ok r) ∨ f fuel = .error .outOfFuel

end Verif.Spec
