import Verif.Spec.Callback

/-! Specification: a callback that always has input. -/

namespace Verif.Spec
open Verif

/-- The callback returns at least one frame in each invocation, in a buffer inside the `len` samples at `inp`. -/
def Supplies (ch : ℕ) (inp len : ℤ) (cb : Callback) : Prop :=
  ∀ ud c m, 1 ≤ (cb ud c m).1 ∧ samples ch (cb ud c m).1 < 2 ^ 31 ∧
    ∃ a, (cb ud c m).2.1 = some a ∧ inp ≤ a ∧ a + samples ch (cb ud c m).1 ≤ inp + len

/-- A call on a callback handle whose callback always has input: a `src_callback_read` at a valid ratio for at least one frame, into a buffer apart
from the `len` samples at `inp` that hold the buffers of the callback; or a `src_set_ratio`, or a `src_reset`. -/
def EndlessCall (ch : ℕ) (inp len : ℤ) : Op → Prop
  | .read cb _ _ _ _ ratio frames data => Supplies ch inp len cb ∧ GoodRatio ratio ∧ 1 ≤ frames ∧ samples ch frames ≤ 2 ^ 50 ∧ 0 < data ∧
      (data + samples ch frames ≤ inp ∨ inp + len ≤ data)
  | .setRatio r => r ≠ .nan
  | .reset => True
  | .process .. => False

/-- `InTurn cnt c ops os c'`: a history of a callback handle whose callback returns the counts `cnt`, one after the other: `c` callbacks were made
before the history and `c'` after it. -/
inductive InTurn (cnt : ℕ → ℤ) : ℕ → List Op → List Obs → ℕ → Prop
  | nil (c : ℕ) : InTurn cnt c [] [] c
  | read (c : ℕ) (cb : Callback) (dummy : ℤ) (fuel : ℕ) (m : Mem) (ratio : F64) (frames data : ℤ) (o : Obs) (ops : List Op) (os : List Obs) (c' : ℕ) :
      Counts cnt cb → InTurn cnt o.calls ops os c' → InTurn cnt c (.read cb dummy fuel c m ratio frames data :: ops) (o :: os) c'
  | setRatio (c : ℕ) (r : F64) (o : Obs) (ops : List Op) (os : List Obs) (c' : ℕ) : InTurn cnt c ops os c' → InTurn cnt c (.setRatio r :: ops) (o :: os) c'
  | reset (c : ℕ) (o : Obs) (ops : List Op) (os : List Obs) (c' : ℕ) : InTurn cnt c ops os c' → InTurn cnt c (.reset :: ops) (o :: os) c'

/-- The result of a `src_callback_read` call for `frames` frames is `frames`, and `src_error` then reports no error. -/
def Delivers (frames : ℤ) (r : ℤ × Mem × Option SrcState × ℕ) : Prop := r.1 = frames ∧ ∃ s, r.2.2.1 = some s ∧ srcError (some s) = 0

end Verif.Spec
