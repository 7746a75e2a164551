import Verif.Spec.SincHistory

/-! Specification: programs with several threads, each with its own handles and its own part of the memory.  `κ` names the handles, `ι` the threads. -/

namespace Verif.Spec
open Verif

/-- What a thread does in one turn: it calls the library with one of its handles, or computes something on the memory by itself (prepares input, copies output, …). -/
inductive Action (κ : Type) where
  | process (h : κ) (d : Option SrcData)
  | setRatio (h : κ) (ratio : F64)
  | reset (h : κ)
  | compute (f : Mem → Mem)

/-- The memory of the program, and the state of its handles. -/
structure Shared (κ : Type) where
  mem : Mem
  handles : κ → SrcState

/-- What a thread is told by a call: the return value, the `SRC_DATA` afterwards, and the answers of `src_error` and `src_get_channels`. -/
structure Told where
  ret : ℤ
  data : Option SrcData
  err : ℤ
  chans : ℤ

section
variable {κ : Type} [DecidableEq κ]

/-- A call on the handle `h`. -/
def onHandle (s : Shared κ) (h : κ) (op : Op) : M (Option Told × Shared κ) := do
  let (o, st) ← op.run (s.handles h)
  pure (some ⟨o.ret, o.data, o.err, o.chans⟩, { mem := o.mem.getD s.mem, handles := Function.update s.handles h st })

/-- One turn. -/
def Action.run (s : Shared κ) : Action κ → M (Option Told × Shared κ)
  | .process h d => onHandle s h (.process s.mem d)
  | .setRatio h r => onHandle s h (.setRatio r)
  | .reset h => onHandle s h .reset
  | .compute f => pure (none, { s with mem := f s.mem })

/-- Turns one after the other. -/
def runActions : List (Action κ) → Shared κ → M (List (Option Told) × Shared κ)
  | [], s => pure ([], s)
  | a :: as, s => do
    let (t, s) ← a.run s
    let (ts, s) ← runActions as s
    pure (t :: ts, s)

end

section
variable {ι κ : Type} [DecidableEq ι]

/-- The turns of thread `i` in a schedule. -/
def turnsOf (i : ι) (sched : List (ι × Action κ)) : List (Action κ) := (sched.filter fun x => x.1 = i).map Prod.snd

/-- What thread `i` is told. -/
def toldTo (i : ι) : List (ι × Action κ) → List (Option Told) → List (Option Told)
  | x :: xs, t :: ts => if x.1 = i then t :: toldTo i xs ts else toldTo i xs ts
  | _, _ => []

end

/-- The `len` samples from `start` on are in `T`. -/
def InsidePart (T : Set ℤ) (start len : ℤ) : Prop := ∀ k, 0 ≤ k → k < len → start + k ∈ T

/-- Thread `i` uses only its own handles and its own part `T i` of the memory: its calls (arguments in the usual ranges) have their input and output arrays in `T i`, and what it computes by
itself changes nothing outside `T i` and depends on nothing outside `T i`. -/
inductive Minds {ι κ : Type} (owner : κ → ι) (T : ι → Set ℤ) (ch : κ → ℕ) (i : ι) : Action κ → Prop
  | process (h : κ) (d : Option SrcData) : owner h = i →
      (∀ x, d = some x → SincSized (ch h) x ∧ InsidePart (T i) x.dataIn (samples (ch h) x.inputFrames) ∧ InsidePart (T i) x.dataOut (samples (ch h) x.outputFrames)) →
      Minds owner T ch i (.process h d)
  | setRatio (h : κ) (r : F64) : owner h = i → r ≠ .nan → Minds owner T ch i (.setRatio h r)
  | reset (h : κ) : owner h = i → Minds owner T ch i (.reset h)
  | compute (f : Mem → Mem) : (∀ m a, a ∉ T i → f m a = m a) → (∀ m m' : Mem, (∀ a ∈ T i, m a = m' a) → ∀ a ∈ T i, f m a = f m' a) →
      Minds owner T ch i (.compute f)

end Verif.Spec
