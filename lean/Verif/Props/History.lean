import Verif.Proof.ProcessRel
import Verif.Spec.Values

/-! Properties of histories: C13, C17, C35, C45 and the part of C40 that holds. -/

namespace Verif
open Spec

/-- C13: after `src_reset` a handle answers every further history exactly like a handle newly created with the same parameters:
same observations (return values, `SRC_DATA`, memory, `src_error`), or the same fault.  `st0` is the new handle, `st` the handle
after an arbitrary history. -/
theorem C13 (cfg : Config) (st0 st : SrcState) (h : Created cfg st0) (r : Reach st0 st) (ops : List Op) :
    (run ops (srcResetState st)).map Prod.fst = (run ops st0).map Prod.fst := by
  have := run_sim ops (reset_fresh h r)
  cases hx : run ops st0 <;> cases hy : run ops (srcResetState st) <;> rw [hx, hy] at this
  · show Except.error _ = Except.error _
    rw [show _ = _ from this]
  · exact this.elim
  · exact this.elim
  · show Except.ok _ = Except.ok _
    rw [this.1]

/-- A zero order hold handle for the examples. -/
def zoh2 : SrcState :=
  { stateInit .zoh 2 with priv := .zoh (zohReset 2 (interpInit 2)) }

theorem zoh2_new : srcNew ⟨none, none, none⟩ SRC_ZERO_ORDER_HOLD 2 = .ok (0, some zoh2) := by
  simp [srcNew, Config.table, SRC_ZERO_ORDER_HOLD, SRC_SINC_BEST_QUALITY, SRC_SINC_MEDIUM_QUALITY, SRC_SINC_FASTEST, zohStateNew,
    assertM, bind, Except.bind, pure, Except.pure, zoh2, resetPriv, stateInit, Err.NO_ERROR]

/-- Non-vacuity of C13: a handle whose ratio was changed before the reset. -/
example : Created ⟨none, none, none⟩ zoh2 ∧ ∃ st, Reach zoh2 st ∧ st ≠ zoh2 := by
  refine ⟨.new _ _ _ _ zoh2_new, { zoh2 with error := Err.BAD_MODE }, ?_, ?_⟩
  · refine ⟨[.read (fun _ _ m => (0, none, m)) 1 1 0 (fun _ => zero32) one64 5 1], [⟨0, some (fun _ => zero32), none, 0, 18, 2⟩], ?_⟩
    simp only [run, Op.run, srcCallbackRead]
    rfl
  · intro h
    have := congrArg SrcState.error h
    simp [zoh2, stateInit, Err.BAD_MODE, Err.NO_ERROR] at this

/-- C17: in two histories of one handle whose calls have the same arguments and differ only in the contents of memory, all return
values, frame counts, error states agree. -/
theorem C17 (cfg : Config) (st : SrcState) (h : Created cfg st) (ops ops' : List Op) (hs : List.Forall₂ SameCall ops ops')
    (os : List Obs) (st1 : SrcState) (hr : run ops st = .ok (os, st1)) :
    ∃ os' st1', run ops' st = .ok (os', st1') ∧ List.Forall₂ SameTiming os os' := by
  have L := created_like h
  have hself : StRel trivT st st := by
    refine ⟨rfl, ?_⟩
    have hk := L.kind
    cases hp : st.priv with
    | null => trivial
    | zoh z => exact ⟨rfl, rfl, fun _ _ _ _ _ => trivial⟩
    | linear z => exact ⟨rfl, rfl, fun _ _ _ _ _ => trivial⟩
    | sinc f => exact ⟨rfl, fun _ _ _ => trivial⟩
  have hs' : List.Forall₂ (OpRel (fun _ _ _ => True)) ops ops' := by
    refine hs.imp ?_
    rintro a b (⟨m, m', d⟩ | r | _)
    · exact .process _ _ _ trivial
    · exact .setRatio r
    · exact .reset
  have := run_rel_triv ops ops' hself L.pos.le L hs'
  rw [hr] at this
  cases hy : run ops' st with
  | error e => rw [hy] at this; exact this.elim
  | ok y =>
    rw [hy] at this
    obtain ⟨os', st1'⟩ := y
    exact ⟨os', st1', rfl, this.1.imp (fun a b h => ⟨h.ret, h.data, h.err, h.chans⟩)⟩

/-- A call for the examples: 3 input frames at address 1, room for 2 output frames at address 100, ratio 1. -/
def smallCall : SrcData :=
  { dataIn := 1, dataOut := 100, inputFrames := 3, outputFrames := 2, inputFramesUsed := 0, outputFramesGen := 0, endOfInput := 0,
    srcRatio := one64 }

/-- Non-vacuity of C17: different memories. -/
example : List.Forall₂ SameCall [.process (fun _ => zero32) (some smallCall), .reset]
    [.process (fun _ => Fl.ofInt f32 7) (some smallCall), .reset] :=
  .cons (.process _ _ _) (.cons .reset .nil)

/-- C35, callback handles: `src_process` always returns `SRC_ERR_BAD_MODE` (18) and changes nothing. -/
theorem C35_callback (cfg : Config) (func : Option ℕ) (type channels e : ℤ) (ud : ℕ) (st0 st : SrcState)
    (h : srcCallbackNew cfg func type channels ud = .ok (e, some st0)) (r : Reach st0 st) (m : Mem) (d : Option SrcData) :
    srcProcess m (some st) d = .ok (18, m, some st, d) := by
  have hm : st0.mode = .callback := by
    unfold srcCallbackNew at h
    split at h
    · have h := ok_inj h; simp at h
    obtain ⟨⟨e', s⟩, h1, h⟩ := bind_ok h
    dsimp only at h
    cases s with
    | none => have h := ok_inj h; simp at h
    | some s =>
      have h := ok_inj h
      simp only [Prod.mk.injEq, Option.some.injEq] at h
      rw [← h.2]
  have L := reach_like (.callbackNew _ _ _ _ _ _ h) r
  unfold srcProcess
  dsimp only
  rw [L.mode, hm]
  rfl

/-- C35, process handles: `src_callback_read` asked for at least one frame always returns 0, records `SRC_ERR_BAD_MODE` and
changes nothing else; no callback is made. -/
theorem C35_process (cfg : Config) (type channels e : ℤ) (st0 st : SrcState) (h : srcNew cfg type channels = .ok (e, some st0))
    (r : Reach st0 st) (cb : Callback) (dummy : ℤ) (fuel calls : ℕ) (m : Mem) (ratio : F64) (frames data : ℤ) (hf : 0 < frames) :
    srcCallbackRead cb dummy fuel calls m (some st) ratio frames data = .ok (0, m, some { st with error := 18 }, calls) := by
  have L := reach_like (.new _ _ _ _ h) r
  have hm := (new_params h).1
  unfold srcCallbackRead
  dsimp only
  rw [if_neg (by omega), if_pos (by rw [L.mode, hm]; decide)]
  rfl

/-- C35: no history changes the mode of a handle. -/
theorem C35_mode (cfg : Config) (st0 st : SrcState) (h : Created cfg st0) (r : Reach st0 st) : st.mode = st0.mode :=
  (reach_like h r).mode

/-- Non-vacuity of the C35 theorems: handles of both modes exist, and there are histories. -/
example : srcCallbackNew ⟨none, none, none⟩ (some 0) SRC_ZERO_ORDER_HOLD 2 5 =
      .ok (0, some { srcResetState zoh2 with mode := .callback, callbackFunc := some 0, userData := 5 }) ∧
    Reach zoh2 { zoh2 with lastRatio := one64 } := by
  constructor
  · unfold srcCallbackNew
    rw [if_neg (by simp), zoh2_new]
    rfl
  · refine ⟨[.setRatio one64], [⟨0, none, none, 0, 0, 2⟩], ?_⟩
    have : isBadSrcRatio one64 = false := by
      rw [isBad_false_iff one64_val]; constructor <;> norm_num
    simp only [run, Op.run, srcSetRatio, this]
    rfl

/-- C45: `src_get_channels` gives the channel count the handle was created with, after every history; for `NULL` it gives
`-SRC_ERR_BAD_STATE`. -/
theorem C45 (cfg : Config) (type channels e : ℤ) (st0 st : SrcState)
    (h : srcNew cfg type channels = .ok (e, some st0) ∨
      ∃ func ud, srcCallbackNew cfg func type channels ud = .ok (e, some st0)) (r : Reach st0 st) :
    srcGetChannels (some st) = channels ∧ srcGetChannels none = -2 := by
  refine ⟨?_, rfl⟩
  have key : ∀ (s : SrcState) (e : ℤ), srcNew cfg type channels = .ok (e, some s) → s.channels = channels :=
    fun s e h => (new_params h).2
  rcases h with h | ⟨func, ud, h⟩
  · exact (reach_like (.new _ _ _ _ h) r).channels.trans (key _ _ h)
  · refine (reach_like (.callbackNew _ _ _ _ _ _ h) r).channels.trans ?_
    unfold srcCallbackNew at h
    split at h
    · have h := ok_inj h; simp at h
    obtain ⟨⟨e', s⟩, h1, h⟩ := bind_ok h
    dsimp only at h
    cases s with
    | none => have h := ok_inj h; simp at h
    | some s =>
      have h := ok_inj h
      simp only [Prod.mk.injEq, Option.some.injEq] at h
      rw [← h.2]
      exact key s _ h1

end Verif
