import Verif.Spec.History

/-! The call through the function pointer in `src_callback_read`: `state->callback_func (state->user_callback_data, &ptr)`, samplerate.c:199.  `srcCallbackRead` takes the function as an argument; here
it is looked up by the address that `src_callback_new` has stored in the handle. -/

namespace Verif
open Spec

/-- The functions of a program, by address. -/
abbrev Functions := ℕ → Callback

/-- The call `op`, with `cb` as the function that `src_callback_read` invokes. -/
def callbackIs (cb : Callback) : Op → Op
  | .read _ dummy fuel calls m ratio frames data => .read cb dummy fuel calls m ratio frames data
  | op => op

/-- The function whose address is in `state->callback_func`.  `src_callback_read` has checked before that the address is not `NULL` (samplerate.c:163-167), so 0 is never looked up. -/
def storedFunction (F : Functions) (st : SrcState) : Callback := F (st.callbackFunc.getD 0)

/-- A history of calls on a handle in a program with the functions `F`. -/
def runProgram (F : Functions) : List Op → SrcState → M (List Obs × SrcState)
  | [], st => pure ([], st)
  | op :: ops, st => do
    let (o, st) ← (callbackIs (storedFunction F st) op).run st
    let (os, st) ← runProgram F ops st
    pure (o :: os, st)

end Verif
