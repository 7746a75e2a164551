import Verif.Model.Heap

/-! Programs with any number of handles: which handles are in use, and the part of a program that concerns one handle. -/

namespace Verif.Spec
open Verif

/-- The call uses no handle but `NULL` and those in `L`. -/
def Call.uses (L : Set ℕ) : Call → Prop
  | .clone p | .delete p | .on p _ => p = 0 ∨ p ∈ L
  | _ => True

/-- The handles in use after a call, from those before it and the answer: constructors add the handle they return, `src_delete` removes. -/
def Call.live (L : Set ℕ) : Call → Answer → Set ℕ
  | .new _ _, .handle _ p => if p = 0 then L else insert p L
  | .callbackNew _ _ _ _, .handle _ p => if p = 0 then L else insert p L
  | .clone _, .handle _ p => if p = 0 then L else insert p L
  | .delete p, _ => L \ {p}
  | _, _ => L

/-- A correct program: every call uses `NULL` or handles that earlier calls have returned and that are not deleted. -/
def Correct (A : Alloc) (cfg : Config) : Set ℕ → List Call → World → Prop
  | _, [], _ => True
  | L, c :: cs, w => Call.uses L c ∧ ∀ a w', c.run A cfg w = .ok (a, w') → Correct A cfg (Call.live L c a) cs w'

/-- The handles in use after a program. -/
def liveAfter : Set ℕ → List Call → List Answer → Set ℕ
  | L, c :: cs, a :: as => liveAfter (Call.live L c a) cs as
  | L, _, _ => L

/-- The calls of a program on handle `p`. -/
def callsOn (p : ℕ) : List Call → List Op
  | [] => []
  | .on p' op :: cs => if p' = p then op :: callsOn p cs else callsOn p cs
  | _ :: cs => callsOn p cs

/-- The answers to them. -/
def answersOn (p : ℕ) : List Call → List Answer → List Answer
  | .on p' _ :: cs, a :: as => if p' = p then a :: answersOn p cs as else answersOn p cs as
  | _ :: cs, _ :: as => answersOn p cs as
  | _, _ => []

/-- The program does not delete `p`. -/
def Keeps (p : ℕ) (cs : List Call) : Prop := ∀ c ∈ cs, ∀ p', c = Call.delete p' → p' ≠ p

/-- The program consisting of calls on `p` only. -/
def only (p : ℕ) (ops : List Op) : List Call := ops.map (Call.on p)

/-- The heap `w`, with the handles `L` in use, can arise: some correct program leads to it from a heap that contains no handle (but any
blocks of the application; no block is at `NULL`). -/
def At (A : Alloc) (cfg : Config) (w : World) (L : Set ℕ) : Prop :=
  ∃ w0 cs as, w0.blocks 0 = none ∧ Correct A cfg ∅ cs w0 ∧ runCalls A cfg cs w0 = .ok (as, w) ∧ liveAfter ∅ cs as = L

/-- The converter exists in this build. -/
def Known (cfg : Config) (type : ℤ) : Prop := type = SRC_ZERO_ORDER_HOLD ∨ type = SRC_LINEAR ∨ cfg.table type ≠ none

/-- What the program is told, without the heap. -/
def answers {α : Type} (x : H (α × World)) : H α := x.map Prod.fst

end Verif.Spec
