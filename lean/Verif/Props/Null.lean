import Verif.Props.Heap

/-! C81: `NULL` pointers. -/

namespace Verif
open Spec

/-- C81: with the handle `NULL` (0) every function of the interface answers and touches nothing, in every state of the heap: `src_process`, `src_set_ratio`, `src_reset` and
`src_clone` report `SRC_ERR_BAD_STATE` (2), `src_callback_read` delivers 0 frames, does not call the callback and writes no sample, `src_error` is 0, `src_get_channels` is -2 and
`src_delete` does nothing.  A `NULL` callback is refused with `SRC_ERR_BAD_CALLBACK` (17). -/
theorem C81 (A : Alloc) (cfg : Config) (w : World) :
    (∀ m d, (Call.on 0 (.process m d)).run A cfg w = .ok (.obs ⟨2, some m, d, 0, 0, -2⟩, w)) ∧
    (∀ cb dummy fuel calls m ratio frames data, (Call.on 0 (.read cb dummy fuel calls m ratio frames data)).run A cfg w = .ok (.obs ⟨0, some m, none, calls, 0, -2⟩, w)) ∧
    (∀ r, (Call.on 0 (.setRatio r)).run A cfg w = .ok (.obs ⟨2, none, none, 0, 0, -2⟩, w)) ∧
    (Call.on 0 .reset).run A cfg w = .ok (.obs ⟨2, none, none, 0, 0, -2⟩, w) ∧
    (Call.clone 0).run A cfg w = .ok (.handle 2 0, w) ∧ (Call.delete 0).run A cfg w = .ok (.deleted, w) ∧
    ∀ type ch ud, (Call.callbackNew none type ch ud).run A cfg w = .ok (.handle 17 0, w) :=
  ⟨fun _ _ => rfl, fun _ _ _ _ _ _ _ _ => rfl, fun _ => rfl, rfl, rfl, rfl, fun _ _ _ => rfl⟩

/-- C81 for a `NULL` pointer to `SRC_DATA`: `src_process` on a handle made by `src_new` reports `SRC_ERR_BAD_DATA` (3) and changes nothing, whatever the history of the handle. -/
theorem C81_data (cfg : Config) (type channels e : ℤ) (st0 st : SrcState) (h : srcNew cfg type channels = .ok (e, some st0)) (r : Reach st0 st) (m : Mem) :
    srcProcess m (some st) none = .ok (3, m, some st, none) := by
  unfold srcProcess
  dsimp only
  rw [if_neg (by rw [(reach_like (.new _ _ _ _ h) r).mode, (new_params h).1]; simp)]
  rfl

/-- The other side of C81: `src_simple` does not check its `SRC_DATA` pointer: with `NULL` it crashes whenever a converter can be created, and otherwise it reports why there is none. -/
theorem C81_simple (A : Alloc) (cfg : Config) (w : World) (type ch : ℤ) (m : Mem) (p : ℕ) (w' : World) (e : ℤ)
    (h : (Call.new type ch).run A cfg w = .ok (.handle e p, w')) :
    (Call.simple m none type ch).run A cfg w = if p = 0 then .ok (.simple e m none, w') else .error (.code .nullDeref) := by
  simp only [Call.run] at h ⊢
  rcases h1 : newH A cfg w type ch with x | ⟨e1, p1, w1⟩
  · rw [h1] at h
    simp [bind, Except.bind] at h
  rw [h1] at h
  simp only [bind, Except.bind, pure, Except.pure, Except.ok.injEq, Prod.mk.injEq, Answer.handle.injEq] at h
  obtain ⟨⟨rfl, rfl⟩, rfl⟩ := h
  unfold simpleH
  rw [h1]
  simp only [bind, Except.bind, pure, Except.pure]
  split_ifs <;> rfl

/-- Non-vacuity: a linear converter for two channels can be created on an empty heap, so `src_simple` with `NULL` crashes there. -/
example (m : Mem) : (Call.simple m none SRC_LINEAR 2).run (refuseNth none) ⟨none, none, none⟩ ⟨fun _ => none, 0, 0⟩ = .error (.code .nullDeref) := by
  rw [C81_simple _ _ _ _ _ m 1 _ 0 rfl]
  rfl

end Verif
