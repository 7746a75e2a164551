import Verif.Proof.CallbackSafe
import Verif.Props.Terminate

/-! C58: `src_callback_read` does nothing undefined. -/

namespace Verif
open Spec

theorem defined_of {α : Type} {f : ℕ → M α} (h : ∀ fuel e, f fuel = .error e → e = .outOfFuel) : Defined f := by
  intro fuel
  cases hx : f fuel with
  | ok r => exact Or.inl ⟨r, rfl⟩
  | error e => exact Or.inr (by rw [h fuel e hx])

/-- A call that does nothing undefined and returns, returns a result. -/
theorem returns_ok {α : Type} {f : ℕ → M α} (h : Defined f) (h' : Returns f) : ∃ N r, ∀ fuel, N ≤ fuel → f fuel = .ok r := by
  obtain ⟨N, r, h1, h2⟩ := h'
  rcases h N with ⟨x, hx⟩ | hx
  · exact ⟨N, x, fun fuel hf => (h2 fuel hf).trans ((h2 N le_rfl).symm.trans hx)⟩
  · exact absurd ((h2 N le_rfl).symm.trans hx) h1

theorem held_new {cfg : Config} {func : Option ℕ} {type e : ℤ} {ch ud : ℕ} {st : SrcState} (h : srcCallbackNew cfg func type ch ud = .ok (e, some st)) :
    ∃ st0, srcNew cfg type ch = .ok (e, some st0) ∧ st = { st0 with mode := .callback, callbackFunc := func, userData := ud } ∧ Held ch st0 st ∧ st.savedFrames = 0 := by
  obtain ⟨_, st0, h0, rfl⟩ := callbackNew_inv h
  have hs : st0.savedFrames = 0 := by
    have := new_reset h0
    rw [← this]
    simp [srcResetState]
  exact ⟨st0, h0, rfl, ⟨⟨_, _, _, callback_backed h0 func ud⟩, by dsimp only; rw [hs]; simp [samples]⟩, hs⟩

/-- C58 for zero order hold: after any history of calls, with any callbacks, `src_callback_read` does nothing undefined: no access outside the
buffers that the caller and the callback provide, no overflow, no failed assertion. -/
theorem C58_zoh (cfg : Config) (hL : LibraryTables cfg) (func : Option ℕ) (e : ℤ) (ch ud : ℕ) (st st1 : SrcState) (hc : ch ≤ 8355967)
    (h : srcCallbackNew cfg func SRC_ZERO_ORDER_HOLD ch ud = .ok (e, some st)) (ops : List Op) (os : List Obs) (hO : ∀ op ∈ ops, OrdinaryPull ch op)
    (hr : run ops st = .ok (os, st1)) (cb : Callback) (hsz : ∀ ud c m, samples ch (cb ud c m).1 ≤ 2 ^ 52) (dummy : ℤ) (calls : ℕ) (m : Mem)
    (ratio : F64) (hrat : ratio ≠ .nan) (frames data : ℤ) (hf : samples ch frames ≤ 2 ^ 52) :
    Defined fun fuel => srcCallbackRead cb dummy fuel calls m (some st1) ratio frames data := by
  have L := created_like (.callbackNew _ _ _ _ _ _ h)
  obtain ⟨st0, h0, rfl, H, _⟩ := held_new h
  have H1 := (history_held hL hc h0 rfl ops H L hO hr).2
  refine defined_of fun fuel f hff => ?_
  rcases read_interp_fault (K := .zoh) rfl hL hc h0 hsz hrat hf H1 hff with h | ⟨h, _⟩
  · exact h
  · cases h

/-- C58 for linear: the only undefined thing `src_callback_read` can do is the read before the input presented to the converter described
by `C07_exact` (in a frame that the callback returned earlier, unless the first frame of a buffer is the last one left). -/
theorem C58_linear (cfg : Config) (hL : LibraryTables cfg) (func : Option ℕ) (e : ℤ) (ch ud : ℕ) (st st1 : SrcState) (hc : ch ≤ 8355967)
    (h : srcCallbackNew cfg func SRC_LINEAR ch ud = .ok (e, some st)) (ops : List Op) (os : List Obs) (hO : ∀ op ∈ ops, OrdinaryPull ch op)
    (hr : run ops st = .ok (os, st1)) (cb : Callback) (hsz : ∀ ud c m, samples ch (cb ud c m).1 ≤ 2 ^ 52) (dummy : ℤ) (calls : ℕ) (m : Mem)
    (ratio : F64) (hrat : ratio ≠ .nan) (frames data : ℤ) (hf : samples ch frames ≤ 2 ^ 52) (fuel : ℕ) (f : Fault)
    (hff : srcCallbackRead cb dummy fuel calls m (some st1) ratio frames data = .error f) : f = .outOfFuel ∨ f = .oobRead := by
  have L := created_like (.callbackNew _ _ _ _ _ _ h)
  obtain ⟨st0, h0, rfl, H, _⟩ := held_new h
  have H1 := (history_held hL hc h0 rfl ops H L hO hr).2
  rcases read_interp_fault (K := .linear) rfl hL hc h0 hsz hrat hf H1 hff with h | ⟨_, h⟩
  · exact Or.inl h
  · exact Or.inr h

/-- C58 for the sinc converters, in the histories described by `SafePulls`. -/
theorem C58_sinc (cfg : Config) (hL : LibraryTables cfg) (func : Option ℕ) (type e : ℤ) (ht : SincType type) (ch ud : ℕ) (st st1 : SrcState)
    (hc : ch ≤ 8355967) (h : srcCallbackNew cfg func type ch ud = .ok (e, some st)) (cnt : ℕ → ℤ) (p0 p : Phase) (hp0 : p0.First) (ops : List Op) (os : List Obs)
    (calls : ℕ) (hO : ∀ op ∈ ops, SincPull ch op) (hr : run ops st = .ok (os, st1)) (hS : SafePulls ch cnt 0 p0 ops os calls p) (cb : Callback)
    (hcnt : Counts cnt cb) (hsz : ∀ i, samples ch (cnt i) < 2 ^ 31) (dummy : ℤ) (m : Mem) (ratio : F64) (hrat : ratio ≠ .nan) (frames data : ℤ)
    (hf : samples ch frames ≤ 2 ^ 50) (hP : AllowsPull ch cnt calls p ratio) :
    Defined fun fuel => srcCallbackRead cb dummy fuel calls m (some st1) ratio frames data := by
  have L := created_like (.callbackNew _ _ _ _ _ _ h)
  obtain ⟨st0, h0, rfl, H, hs⟩ := held_new h
  obtain ⟨t, B, _, S⟩ := sinc_new_hist hL ht h0 hp0
  have S' := S.alike (st' := { st0 with mode := .process, callbackFunc := func, userData := ud }) (alike_iff.2 ⟨rfl, rfl, rfl, rfl, rfl⟩) rfl
  obtain ⟨H1, hs1, S1, _⟩ := history_phase hL hc h0 rfl hS H (by rw [hs]; simp [samples]) S' L hO hr
  exact defined_of fun fuel f hff => (read_sinc_safe hL hc h0 hcnt (fun ud c m => by rw [hcnt]; exact hsz c) hrat hf hP H1 hs1 S1).1 f hff

/-- C58 and C39 together for the sinc converters: `src_callback_read` returns a result. -/
theorem C58_sinc_result (cfg : Config) (hL : LibraryTables cfg) (func : Option ℕ) (type e : ℤ) (ht : SincType type) (ch ud : ℕ) (st st1 : SrcState)
    (hc : ch ≤ 8355967) (h : srcCallbackNew cfg func type ch ud = .ok (e, some st)) (cnt : ℕ → ℤ) (p0 p : Phase) (hp0 : p0.First) (ops : List Op) (os : List Obs)
    (calls : ℕ) (ended : Prop) (hO : ∀ op ∈ ops, SincPull ch op ∧ NonnegPull op) (hr : run ops st = .ok (os, st1)) (hS : SafePulls ch cnt 0 p0 ops os calls p)
    (hD : StaysAtEnd cnt 0 False ops os calls ended) (cb : Callback)
    (hcnt : Counts cnt cb) (hcb : ∀ i, 0 ≤ cnt i ∧ samples ch (cnt i) < 2 ^ 31) (hend : ended → ∀ i, calls ≤ i → cnt i = 0)
    (dummy : ℤ) (m : Mem) (ratio : F64) (hrat : ratio ≠ .nan) (frames data : ℤ)
    (hf : samples ch frames ≤ 2 ^ 50) (hP : AllowsPull ch cnt calls p ratio) :
    ∃ N r, ∀ fuel, N ≤ fuel → srcCallbackRead cb dummy fuel calls m (some st1) ratio frames data = .ok r :=
  returns_ok (C58_sinc cfg hL func type e ht ch ud st st1 hc h cnt p0 p hp0 ops os calls (fun op ho => (hO op ho).1) hr hS cb hcnt (fun i => (hcb i).2) dummy m ratio
      hrat frames data hf hP)
    (C39_sinc cfg hL func type e ht ch ud st st1 hc h cnt ops os calls ended hO hr hD cb hcnt hcb hend dummy m ratio hrat frames data hf)

/-- C58 and C39 together for zero order hold. -/
theorem C58_zoh_result (cfg : Config) (hL : LibraryTables cfg) (func : Option ℕ) (e : ℤ) (ch ud : ℕ) (st st1 : SrcState) (hc : ch ≤ 8355967)
    (h : srcCallbackNew cfg func SRC_ZERO_ORDER_HOLD ch ud = .ok (e, some st)) (ops : List Op) (os : List Obs)
    (hO : ∀ op ∈ ops, OrdinaryPull ch op ∧ NonnegPull op) (hr : run ops st = .ok (os, st1)) (cb : Callback) (hcb : NonnegCounts cb)
    (hsz : ∀ ud c m, samples ch (cb ud c m).1 ≤ 2 ^ 52) (dummy : ℤ) (calls : ℕ) (m : Mem)
    (ratio : F64) (hrat : ratio ≠ .nan) (frames data : ℤ) (hf : samples ch frames ≤ 2 ^ 52) :
    ∃ N r, ∀ fuel, N ≤ fuel → srcCallbackRead cb dummy fuel calls m (some st1) ratio frames data = .ok r :=
  returns_ok (C58_zoh cfg hL func e ch ud st st1 hc h ops os (fun op ho => (hO op ho).1) hr cb hsz dummy calls m ratio hrat frames data hf)
    (C39_interp cfg hL func SRC_ZERO_ORDER_HOLD e (Or.inl rfl) ch ud st st1 hc h ops os hO hr cb hcb hsz dummy calls m ratio hrat frames data hf)

theorem one64_ratio : one64.val = some 1 := one64_val

theorem list3_zero (i : ℕ) (hi : 0 < i) : [(3 : ℤ)].getD i 0 = 0 := by
  match i, hi with
  | i + 1, _ => simp

/-- Non-vacuity of `C58_sinc` and `C58_sinc_result`: after a read that has met the end of the input, another read at the same ratio. -/
example : ∃ e st o st1, srcCallbackNew fastCfg (some 1) SRC_SINC_FASTEST (1 : ℕ) 0 = .ok (e, some st) ∧ run [listRead [3]] st = .ok ([o], st1) ∧
    o.ret = 3 ∧ ∃ N r, ∀ fuel, N ≤ fuel → srcCallbackRead (listCb [3]) 1 fuel o.calls (fun _ => zero32) (some st1) one64 10 1 = .ok r := by
  obtain ⟨e, st, o, st1, h1, h2, h3, h4, h5⟩ := pull_one listRead_outcome.2
  have hall : ∀ v, one64.val = some v → 1 / 256 ≤ v → v ≤ 256 → (1 : ℚ) ≤ v := by
    intro v hv _ _
    rw [one64_val] at hv
    cases hv
    norm_num
  have hrise : riseTo 0 one64 = 1 := riseTo_valid one64_val ⟨by norm_num, by norm_num⟩
  refine ⟨e, st, o, st1, h1, h2, h3, C58_sinc_result _ fastCfg_tables _ _ _ (Or.inr (Or.inr rfl)) _ _ _ _ (by norm_num) h1 (fun i => [(3 : ℤ)].getD i 0)
    .live (.flushing 1) (Or.inr (Or.inl rfl)) _ _ _ _ ?_ h2 ?_
    (stays_one (listCb_counts _) o fun i j hi _ _ => list3_zero j (by omega)) _ (listCb_counts _) (fun i => ⟨(list3 i).1, lt_of_le_of_lt (samples_mono (list3 i).2) (by decide)⟩)
    (fun _ i hi => list3_zero i (by omega)) _ _ _ one64_ne_nan _ _ (by decide) ?_⟩
  · intro op hop
    rw [List.mem_singleton.1 hop]
    exact listRead_sincPull
  · refine .readEnd _ _ _ _ _ _ _ _ _ _ _ _ _ _ (listCb_counts _) (fun eoi _ v h a b => le_trans (by norm_num) (hall v h a b))
      ⟨1, by omega, by omega, list3_zero 1 (by omega)⟩ ?_
    have : Phase.live.next one64 1 = .flushing 1 := by simp [Phase.next, hrise]
    rw [this]
    exact .nil _ _
  · exact fun eoi _ => ⟨fun v h a b => le_trans (by norm_num) (hall v h a b), Or.inr hall⟩

set_option maxRecDepth 100000 in
theorem listRead_zoh : pullOutcome ⟨none, none, none⟩ SRC_ZERO_ORDER_HOLD (1 : ℕ) [listRead [3]] = .ok [(4, 0, 2)] := by
  decide +kernel

/-- Non-vacuity of `C58_zoh_result`: a read after a read that has met the end of the input, with a callback that again returns frames. -/
example : ∃ e st o st1, srcCallbackNew ⟨none, none, none⟩ (some 1) SRC_ZERO_ORDER_HOLD (1 : ℕ) 0 = .ok (e, some st) ∧ run [listRead [3]] st = .ok ([o], st1) ∧
    o.ret = 4 ∧ ∃ N r, ∀ fuel, N ≤ fuel → srcCallbackRead (fun _ _ m => (5, some 1000, m)) 1 fuel o.calls (fun _ => zero32) (some st1) one64 10 1 = .ok r := by
  obtain ⟨e, st, o, st1, h1, h2, h3, h4, h5⟩ := pull_one listRead_zoh
  refine ⟨e, st, o, st1, h1, h2, h3, C58_zoh_result _ ⟨(fun _ h => by cases h), (fun _ h => by cases h), (fun _ h => by cases h)⟩ _ _ _ _ _ _ (by norm_num) h1 _ _ ?_ h2 _ (fun _ _ _ => by norm_num)
    (fun _ _ _ => by dsimp only; decide) _ _ _ _ one64_ne_nan _ _ (by decide)⟩
  intro op hop
  rw [List.mem_singleton.1 hop]
  exact listRead_ordinary

set_option maxRecDepth 100000 in
/-- The fault left in `C58_linear` occurs: a callback that returns single frames makes the first read of a linear handle, at ratio 1, access a
frame before its buffer. -/
theorem C58_linear_fault : pullOutcome ⟨none, none, none⟩ SRC_LINEAR 1 [.read (listCb [1, 1, 1, 1]) 1 20 0 (fun _ => zero32) one64 2 1] = .error .oobRead := by
  decide +kernel

end Verif
