import Verif.Model.Dispatch
import Verif.Proof.Frame
import Verif.Props.History
import Verif.Props.Heap

/-! C85: `src_callback_read` calls the function, and passes the pointer, that were given to `src_callback_new`. -/

namespace Verif
open Spec

theorem whileM_congr {σ : Type} {f g : σ → M (Bool × σ)} (I : σ → Prop) (hfg : ∀ s, I s → f s = g s)
    (hI : ∀ s b s', I s → f s = .ok (b, s') → I s') : ∀ (n : ℕ) (s : σ), I s → whileM f n s = whileM g n s := by
  intro n
  induction n with
  | zero => intro s _; rfl
  | succ n ih =>
    intro s hs
    unfold whileM
    rw [← hfg s hs]
    cases h : f s with
    | error e => rfl
    | ok p =>
      obtain ⟨b, s'⟩ := p
      cases b
      · rfl
      · exact ih s' (hI s true s' hs h)

theorem cbStep_pointer {cb cb' : Callback} {ud : ℕ} (hcb : ∀ c m, cb ud c m = cb' ud c m) (dummy frames : ℤ) {s : CbSt} (hs : s.st.userData = ud) :
    cbStep cb dummy frames s = cbStep cb' dummy frames s := by
  have : cbFetch cb dummy s = cbFetch cb' dummy s := by
    unfold cbFetch
    rw [hs, hcb]
  unfold cbStep
  rw [this]

theorem op_pointer {st0 st : SrcState} (L : Like st0 st) {cb cb' : Callback} (hcb : ∀ c m, cb st0.userData c m = cb' st0.userData c m) (op : Op) :
    (callbackIs cb op).run st = (callbackIs cb' op).run st := by
  cases op with
  | read _ dummy fuel calls m ratio frames data =>
    have : srcCallbackRead cb dummy fuel calls m (some st) ratio frames data = srcCallbackRead cb' dummy fuel calls m (some st) ratio frames data := by
      unfold srcCallbackRead
      dsimp only
      by_cases hf : frames ≤ 0
      · rw [if_pos hf, if_pos hf]
      by_cases hm : st.mode ≠ .callback
      · rw [if_neg hf, if_neg hf, if_pos hm, if_pos hm]
      rw [whileM_congr (fun s : CbSt => Like st0 s.st) (fun s hs => cbStep_pointer hcb dummy frames hs.ud)
        (fun s b s' hI h => cbStep_like (by rw [← L.mode]; simpa using hm) hI h) _ _ L]
    simp only [callbackIs, Op.run, this]
  | _ => rfl

theorem program_pointer {F : Functions} {st0 : SrcState} {cb : Callback} (hcb : ∀ c m, F (st0.callbackFunc.getD 0) st0.userData c m = cb st0.userData c m) :
    ∀ (ops : List Op) (st : SrcState), Like st0 st → runProgram F ops st = run (ops.map (callbackIs cb)) st := by
  intro ops
  induction ops with
  | nil => intro st _; rfl
  | cons op ops ih =>
    intro st L
    have e : (callbackIs (storedFunction F st) op).run st = (callbackIs cb op).run st := by
      unfold storedFunction
      rw [L.cb]
      exact op_pointer L hcb op
    simp only [runProgram, List.map_cons, run, e]
    cases h : (callbackIs cb op).run st with
    | error e => rfl
    | ok p =>
      obtain ⟨o, st'⟩ := p
      show (do let (os, st) ← runProgram F ops st'; pure (o :: os, st)) = (do let (os, st) ← run (ops.map (callbackIs cb)) st'; pure (o :: os, st))
      rw [ih st' (op_like L h)]

/-- **C85.** On a handle that `src_callback_new (func, …, user_data)` has returned, in every history of calls, `src_callback_read` invokes `func` and no other function of the program, and always with
`user_data`: the program does what it would do if every read were given a callback that runs `func (user_data, …)` whatever pointer it receives. -/
theorem C85 {cfg : Config} {func ud : ℕ} {type channels e : ℤ} {st : SrcState} (h : srcCallbackNew cfg (some func) type channels ud = .ok (e, some st))
    (F : Functions) (ops : List Op) :
    runProgram F ops st = run (ops.map (callbackIs fun _ c m => F func ud c m)) st := by
  have L := created_like (Created.callbackNew (some func) type channels ud e st h)
  have hst : st.callbackFunc = some func ∧ st.userData = ud := by
    simp only [srcCallbackNew, if_neg (show ¬ (some func = none) by simp)] at h
    obtain ⟨⟨e', s⟩, _, h⟩ := bind_ok h
    cases s with
    | none => have h := ok_inj h; simp at h
    | some s =>
      have h := ok_inj h
      simp only [Prod.mk.injEq, Option.some.injEq] at h
      rw [← h.2]
      exact ⟨rfl, rfl⟩
  refine program_pointer (fun c m => ?_) ops st L
  rw [hst.1, hst.2]
  rfl

/-- The same in a program with any number of handles: after `src_callback_new (func, …, user_data)` has returned `p`, whatever the program does with other handles, what it is told by its calls on `p`, where
`src_callback_read` runs the function `cb`, is what it would be told if these were the only calls and `cb` received `user_data` by magic. -/
theorem C85_program (A : Alloc) (cfg : Config) (w w1 : World) (L : Set ℕ) (hw : At A cfg w L) (func ud p : ℕ) (type ch e : ℤ)
    (h : (Call.callbackNew (some func) type ch ud).run A cfg w = .ok (.handle e p, w1)) (hp : p ≠ 0) (cb : Callback) (cs : List Call) (as : List Answer) (w2 : World)
    (hC : Correct A cfg (insert p L) cs w1) (hk : Keeps p cs) (hcb : ∀ op ∈ callsOn p cs, callbackIs cb op = op) (hr : runCalls A cfg cs w1 = .ok (as, w2)) :
    answers (runCalls A cfg (only p ((callsOn p cs).map (callbackIs fun _ c m => cb ud c m))) w1) = .ok (answersOn p cs as) := by
  obtain ⟨w0, V, S, rfl⟩ := at_sep hw
  rcases step_sep A cfg S (.callbackNew (some func) type ch ud) trivial with ⟨f, hf⟩ | ⟨a, w', V', hr1, hF, S'⟩
  · rw [hf] at h; cases h
  rw [hr1] at h
  injection h with h
  simp only [Prod.mk.injEq] at h
  obtain ⟨rfl, rfl⟩ := h
  have hl := (flat_live hF S.v0).1
  cases hF with
  | cbFail => exact absurd rfl hp
  | cb f t c u p st hst hp0 hv =>
    have e1 : Function.update V p (some st) p = some st := by rw [Function.update_self]
    have hl' : {q | Function.update V p (some st) q ≠ none} = insert p {q | V q ≠ none} := by
      rw [hl]; simp [Call.live, hp]
    rw [← hl'] at hC
    obtain ⟨-, i2⟩ := prog_sep A cfg cs w' _ S' hC
    obtain ⟨V2, S2, -, hp2⟩ := i2 as w2 hr
    obtain ⟨os, st', a1, a2, a3⟩ := hp2 p st e1 hk
    have e2 := C85 hst (fun _ => cb) (callsOn p cs)
    rw [program_pointer (F := fun _ => cb) (cb := cb) (fun _ _ => rfl) _ st (created_like (Created.callbackNew _ _ _ _ _ _ hst)),
      List.map_congr_left hcb, List.map_id', a1] at e2
    rw [only_answers A cfg _ S' e1, ← e2, a2]
    rfl

/-- Non-vacuity: a handle with the function 3 and the pointer 7 exists, and there are functions that look at the pointer: a read on it gets the frames of pointer 7. -/
example : ∃ st, srcCallbackNew ⟨none, none, none⟩ (some 3) SRC_ZERO_ORDER_HOLD 2 7 = .ok (0, some st) ∧
    storedFunction (fun f u _ m => (f + u, none, m)) st st.userData 0 (fun _ => zero32) = (10, none, fun _ => zero32) := by
  refine ⟨{ srcResetState zoh2 with mode := .callback, callbackFunc := some 3, userData := 7 }, ?_, rfl⟩
  unfold srcCallbackNew
  rw [if_neg (by simp), zoh2_new]
  rfl

end Verif
