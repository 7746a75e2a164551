import Verif.Proof.Endless
import Verif.Props.CallbackSafe

/-! C59: `src_callback_read` delivers what was asked for while the callback has input. -/

namespace Verif
open Spec

theorem endless_sincPull {ch : ℕ} {inp len : ℤ} {op : Op} (h : EndlessCall ch inp len op) : SincPull ch op ∧ NonnegPull op := by
  cases op with
  | process m d => exact h.elim
  | read cb dummy fuel calls m ratio frames data =>
    obtain ⟨a1, ⟨q, hq, _, _⟩, _, a4, _, _⟩ := h
    exact ⟨⟨(fun h => by rw [h] at hq; cases hq), a4, fun ud c m => (a1 ud c m).2.1⟩, fun ud c m => le_trans (by norm_num) (a1 ud c m).1⟩
  | setRatio r => exact ⟨h, trivial⟩
  | reset => exact ⟨trivial, trivial⟩

theorem endless_ordinary {ch : ℕ} {inp len : ℤ} {op : Op} (h : EndlessCall ch inp len op) : OrdinaryPull ch op := by
  cases op with
  | process m d => exact h.elim
  | read cb dummy fuel calls m ratio frames data =>
    obtain ⟨a1, a2, a3⟩ := endless_sincPull h |>.1
    exact ⟨a1, le_trans a2 (by norm_num), fun ud c m => le_trans (a3 ud c m).le (by norm_num)⟩
  | setRatio r => exact h
  | reset => trivial

theorem ready_new {cfg : Config} {fn : ℕ} {type e : ℤ} {ch ud : ℕ} {st : SrcState} (inp len : ℤ) (h : srcCallbackNew cfg (some fn) type ch ud = .ok (e, some st)) :
    ∃ st0, srcNew cfg type ch = .ok (e, some st0) ∧ EReady ch st0 inp len st ∧ Like st st ∧ st.mode = .callback ∧ st.callbackFunc ≠ none := by
  have L := created_like (.callbackNew _ _ _ _ _ _ h)
  obtain ⟨st0, h0, rfl, H, hs⟩ := held_new h
  refine ⟨st0, h0, ⟨H, ⟨by rw [hs], by rw [hs]; simp [samples], Or.inl hs⟩, ?_⟩, L, rfl, by simp⟩
  have := new_reset h0
  dsimp only
  rw [← this]
  simp [srcResetState, Err.NO_ERROR]

/-- C59 for every converter: if `src_callback_read` returns at all, it delivers exactly what was asked for, and there is no error. -/
theorem C59_any (cfg : Config) (hL : LibraryTables cfg) (fn : ℕ) (type e : ℤ) (ch ud : ℕ) (st st1 : SrcState) (hc : ch ≤ 8355967)
    (h : srcCallbackNew cfg (some fn) type ch ud = .ok (e, some st)) (inp len : ℤ) (hinp : 0 < inp) (ops : List Op) (os : List Obs)
    (hO : ∀ op ∈ ops, EndlessCall ch inp len op) (hr : run ops st = .ok (os, st1)) (cb : Callback) (dummy : ℤ) (calls : ℕ) (m : Mem)
    (ratio : F64) (frames data : ℤ) (fuel : ℕ) (hop : EndlessCall ch inp len (.read cb dummy fuel calls m ratio frames data))
    (r : ℤ × Mem × Option SrcState × ℕ) (hret : srcCallbackRead cb dummy fuel calls m (some st1) ratio frames data = .ok r) : Delivers frames r := by
  obtain ⟨st0, h0, E, L, hm, hfn⟩ := ready_new inp len h
  obtain ⟨E1, L1⟩ := history_endless hL hc h0 hinp hm hfn ops E L hO hr
  obtain ⟨n, m', s', k⟩ := r
  obtain ⟨a1, a2, a3, a4, a5, a6⟩ := hop
  obtain ⟨hn, s1, rfl, E2⟩ := read_endless hL hc h0 hinp a1 a2 a3 a4 a5 a6 E1 (L1.mode.trans hm) (by rw [L1.cb]; exact hfn) hret
  exact ⟨hn, s1, rfl, E2.err⟩

/-- C59 for zero order hold. -/
theorem C59_zoh (cfg : Config) (hL : LibraryTables cfg) (fn : ℕ) (e : ℤ) (ch ud : ℕ) (st st1 : SrcState) (hc : ch ≤ 8355967)
    (h : srcCallbackNew cfg (some fn) SRC_ZERO_ORDER_HOLD ch ud = .ok (e, some st)) (inp len : ℤ) (hinp : 0 < inp) (ops : List Op) (os : List Obs)
    (hO : ∀ op ∈ ops, EndlessCall ch inp len op) (hr : run ops st = .ok (os, st1)) (cb : Callback) (dummy : ℤ) (calls : ℕ) (m : Mem)
    (ratio : F64) (frames data : ℤ) (hop : EndlessCall ch inp len (.read cb dummy 0 calls m ratio frames data)) :
    ∃ N r, Delivers frames r ∧ ∀ fuel, N ≤ fuel → srcCallbackRead cb dummy fuel calls m (some st1) ratio frames data = .ok r := by
  obtain ⟨o1, o2, o3⟩ := endless_ordinary hop
  obtain ⟨N, r, hN⟩ := C58_zoh_result cfg hL (some fn) e ch ud st st1 hc h ops os (fun op ho => ⟨endless_ordinary (hO op ho), (endless_sincPull (hO op ho)).2⟩) hr cb
    (endless_sincPull hop).2 o3 dummy calls m ratio o1 frames data o2
  exact ⟨N, r, C59_any cfg hL fn _ e ch ud st st1 hc h inp len hinp ops os hO hr cb dummy calls m ratio frames data N hop r (hN N le_rfl), hN⟩

theorem inTurn_safe {cnt : ℕ → ℤ} (ch : ℤ) (hcnt : ∀ i, cnt i ≠ 0) {c c' : ℕ} {ops : List Op} {os : List Obs} (h : InTurn cnt c ops os c') :
    SafePulls ch cnt c .endless ops os c' .endless := by
  induction h with
  | nil c => exact .nil _ _
  | read c cb dummy fuel m ratio frames data o ops os c' h1 _ ih =>
    exact .read _ _ _ _ _ _ _ _ _ _ _ _ _ _ h1 (fun eoi he => by
      by_contra hne
      obtain ⟨i, _, hi⟩ := he hne
      exact hcnt i hi) (fun i _ _ => hcnt i) ih
  | setRatio c r o ops os c' _ ih => exact .ratio _ _ _ _ _ _ _ _ rfl ih
  | reset c o ops os c' _ ih => exact .reset _ _ _ _ _ _ _ _ (Or.inl rfl) ih

theorem inTurn_stays {cnt : ℕ → ℤ} (hcnt : ∀ i, cnt i ≠ 0) {c c' : ℕ} {ops : List Op} {os : List Obs} (h : InTurn cnt c ops os c') (e : Prop) (he : ¬ e) :
    ∃ e', ¬ e' ∧ StaysAtEnd cnt c e ops os c' e' := by
  induction h generalizing e with
  | nil c => exact ⟨e, he, .nil _ _⟩
  | read c cb dummy fuel m ratio frames data o ops os c' h1 _ ih =>
    obtain ⟨e', he', h'⟩ := ih (e ∨ ∃ i, c ≤ i ∧ i < o.calls ∧ cnt i = 0) (by
      rintro (h | ⟨i, _, _, hi⟩)
      · exact he h
      · exact hcnt i hi)
    exact ⟨e', he', .read _ _ _ _ _ _ _ _ _ _ _ _ _ _ h1 (fun h => absurd h he) (fun i j _ _ _ hi => absurd hi (hcnt i)) h'⟩
  | setRatio c r o ops os c' _ ih =>
    obtain ⟨e', he', h'⟩ := ih e he
    exact ⟨e', he', .setRatio _ _ _ _ _ _ _ _ h'⟩
  | reset c o ops os c' _ ih =>
    obtain ⟨e', he', h'⟩ := ih False id
    exact ⟨e', he', .reset _ _ _ _ _ _ _ h'⟩

/-- C59 for the sinc converters. -/
theorem C59_sinc (cfg : Config) (hL : LibraryTables cfg) (fn : ℕ) (type e : ℤ) (ht : SincType type) (ch ud : ℕ) (st st1 : SrcState) (hc : ch ≤ 8355967)
    (h : srcCallbackNew cfg (some fn) type ch ud = .ok (e, some st)) (inp len : ℤ) (hinp : 0 < inp) (cnt : ℕ → ℤ) (ops : List Op) (os : List Obs)
    (calls : ℕ) (hO : ∀ op ∈ ops, EndlessCall ch inp len op) (hr : run ops st = .ok (os, st1)) (hS : InTurn cnt 0 ops os calls)
    (cb : Callback) (hcnt : Counts cnt cb) (dummy : ℤ) (m : Mem)
    (ratio : F64) (frames data : ℤ) (hop : EndlessCall ch inp len (.read cb dummy 0 calls m ratio frames data)) :
    ∃ N r, Delivers frames r ∧ ∀ fuel, N ≤ fuel → srcCallbackRead cb dummy fuel calls m (some st1) ratio frames data = .ok r := by
  have hcn : ∀ i, 1 ≤ cnt i ∧ samples ch (cnt i) < 2 ^ 31 := fun i => by
    have := hop.1 ud i m
    rw [hcnt] at this
    exact ⟨this.1, this.2.1⟩
  have hnz : ∀ i, cnt i ≠ 0 := fun i => by have := (hcn i).1; omega
  obtain ⟨o1, o2, o3⟩ := (endless_sincPull hop).1
  obtain ⟨e', he', hD⟩ := inTurn_stays hnz hS False id
  obtain ⟨N, r, hN⟩ := C58_sinc_result cfg hL (some fn) type e ht ch ud st st1 hc h cnt .endless .endless (Or.inl rfl) ops os calls e'
    (fun op ho => endless_sincPull (hO op ho)) hr (inTurn_safe ch hnz hS) hD cb hcnt (fun i => ⟨by have := (hcn i).1; omega, (hcn i).2⟩) (fun h => absurd h he') dummy m
    ratio o1 frames data o2 (fun eoi he => by
      by_contra hne
      obtain ⟨i, _, hi⟩ := he hne
      exact hnz i hi)
  exact ⟨N, r, C59_any cfg hL fn _ e ch ud st st1 hc h inp len hinp ops os hO hr cb dummy calls m ratio frames data N hop r (hN N le_rfl), hN⟩

/-- A callback that returns five frames in each invocation. -/
def fiveCb : Callback := fun _ _ m => (5, some 1000, m)

theorem fiveCb_supplies : Supplies 1 1000 5 fiveCb := by
  intro _ _ _
  refine ⟨?_, ?_, 1000, rfl, le_rfl, ?_⟩ <;> dsimp only [fiveCb] <;> decide

theorem fiveCb_call (fuel calls : ℕ) (frames : ℤ) (h1 : 1 ≤ frames) (h2 : frames ≤ 100) :
    EndlessCall 1 1000 5 (.read fiveCb 1 fuel calls (fun _ => zero32) one64 frames 1) := by
  refine ⟨fiveCb_supplies, ⟨1, one64_val, by norm_num, by norm_num⟩, h1, ?_, by norm_num, Or.inl ?_⟩ <;>
    unfold samples <;> rw [max_eq_left (by omega)] <;> push_cast <;> norm_num <;> omega

set_option maxRecDepth 100000 in
theorem fiveRead_outcome : pullOutcome fastCfg SRC_SINC_FASTEST (1 : ℕ) [.read fiveCb 1 100 0 (fun _ => zero32) one64 3 1] = .ok [(3, 0, 5)] := by
  decide +kernel

/-- Non-vacuity of `C59_sinc`: a read after another one. -/
example : ∃ e st o st1, srcCallbackNew fastCfg (some 1) SRC_SINC_FASTEST (1 : ℕ) 0 = .ok (e, some st) ∧
    run [.read fiveCb 1 100 0 (fun _ => zero32) one64 3 1] st = .ok ([o], st1) ∧ o.calls = 5 ∧
    ∃ N r, Delivers 100 r ∧ ∀ fuel, N ≤ fuel → srcCallbackRead fiveCb 1 fuel o.calls (fun _ => zero32) (some st1) one64 100 1 = .ok r := by
  obtain ⟨e, st, o, st1, h1, h2, h3, h4, h5⟩ := pull_one fiveRead_outcome
  refine ⟨e, st, o, st1, h1, h2, h5, C59_sinc _ fastCfg_tables _ _ _ (Or.inr (Or.inr rfl)) _ _ _ _ (by norm_num) h1 1000 5 (by norm_num) (fun _ => 5) _ _ _ ?_ h2
    (.read _ _ _ _ _ _ _ _ _ _ _ _ (fun _ _ _ => rfl) (.nil _)) _ (fun _ _ _ => rfl) _ _ _ _ _ (fiveCb_call _ _ _ (by norm_num) (by norm_num))⟩
  intro op hop
  rw [List.mem_singleton.1 hop]
  exact fiveCb_call _ _ _ (by norm_num) (by norm_num)

/-- Non-vacuity of `C59_zoh`. -/
example : ∃ e st, srcCallbackNew ⟨none, none, none⟩ (some 1) SRC_ZERO_ORDER_HOLD (1 : ℕ) 0 = .ok (e, some st) ∧
    ∃ N r, Delivers 100 r ∧ ∀ fuel, N ≤ fuel → srcCallbackRead fiveCb 1 fuel 0 (fun _ => zero32) (some st) one64 100 1 = .ok r := by
  obtain ⟨e, st, o, st1, h1, h2, h3, h4, h5⟩ := pull_one listRead_zoh
  exact ⟨e, st, h1, C59_zoh _ ⟨(fun _ h => by cases h), (fun _ h => by cases h), (fun _ h => by cases h)⟩ _ _ _ _ _ _ (by norm_num) h1 1000 5 (by norm_num) [] []
    (fun op h => absurd h (by simp)) rfl _ _ _ _ _ _ _ (fiveCb_call _ _ _ (by norm_num) (by norm_num))⟩

end Verif
