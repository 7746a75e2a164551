import Verif.Proof.CallbackHang
import Verif.Props.Callback

/-! C39: when `src_callback_read` returns. -/

namespace Verif
open Spec

/-- C39 for zero order hold and linear: on a handle with any history of calls whose callbacks never return a negative count, a
`src_callback_read` whose callback never returns a negative count returns. -/
theorem C39_interp (cfg : Config) (hL : LibraryTables cfg) (func : Option ℕ) (type e : ℤ) (ht : type = SRC_ZERO_ORDER_HOLD ∨ type = SRC_LINEAR)
    (ch ud : ℕ) (st st1 : SrcState) (hc : ch ≤ 8355967) (h : srcCallbackNew cfg func type ch ud = .ok (e, some st))
    (ops : List Op) (os : List Obs) (hO : ∀ op ∈ ops, OrdinaryPull ch op ∧ NonnegPull op) (hr : run ops st = .ok (os, st1))
    (cb : Callback) (hcb : NonnegCounts cb) (hsz : ∀ ud c m, samples ch (cb ud c m).1 ≤ 2 ^ 52) (dummy : ℤ) (calls : ℕ) (m : Mem)
    (ratio : F64) (hrat : ratio ≠ .nan) (frames data : ℤ) (hf : samples ch frames ≤ 2 ^ 52) :
    Returns fun fuel => srcCallbackRead cb dummy fuel calls m (some st1) ratio frames data := by
  have L := created_like (.callbackNew _ _ _ _ _ _ h)
  obtain ⟨_, st0, h0, rfl⟩ := callbackNew_inv h
  have hs : st0.savedFrames = 0 := by
    have := new_reset h0
    rw [← this]
    simp [srcResetState]
  have H : Held ch st0 { st0 with mode := .callback, callbackFunc := func, userData := ud } :=
    ⟨⟨_, _, _, callback_backed h0 func ud⟩, by dsimp only; rw [hs]; simp [samples]⟩
  obtain ⟨H1, hs1⟩ := history_nonneg hL hc h0 rfl ops H L (by dsimp only; omega) hO hr
  rcases ht with rfl | rfl
  · exact read_returns (read_interp (K := .zoh) rfl hL hc h0 hsz hcb hrat hf H1 hs1 le_rfl)
  · exact read_returns (read_interp (K := .linear) rfl hL hc h0 hsz hcb hrat hf H1 hs1 le_rfl)

/-- C39 for the sinc converters: the callback never returns a negative count, and once it has returned 0 (the end of the input) it returns 0 until
`src_reset`, before this call (`StaysAtEnd`) and, if it has returned 0 since the last reset, in this call. -/
theorem C39_sinc (cfg : Config) (hL : LibraryTables cfg) (func : Option ℕ) (type e : ℤ) (ht : SincType type)
    (ch ud : ℕ) (st st1 : SrcState) (hc : ch ≤ 8355967) (h : srcCallbackNew cfg func type ch ud = .ok (e, some st))
    (cnt : ℕ → ℤ) (ops : List Op) (os : List Obs) (calls : ℕ) (ended : Prop) (hO : ∀ op ∈ ops, SincPull ch op ∧ NonnegPull op)
    (hr : run ops st = .ok (os, st1)) (hD : StaysAtEnd cnt 0 False ops os calls ended)
    (cb : Callback) (hcnt : Counts cnt cb) (hcb : ∀ i, 0 ≤ cnt i ∧ samples ch (cnt i) < 2 ^ 31) (hend : ended → ∀ i, calls ≤ i → cnt i = 0)
    (dummy : ℤ) (m : Mem) (ratio : F64) (hrat : ratio ≠ .nan) (frames data : ℤ) (hf : samples ch frames ≤ 2 ^ 50) :
    Returns fun fuel => srcCallbackRead cb dummy fuel calls m (some st1) ratio frames data := by
  have L := created_like (.callbackNew _ _ _ _ _ _ h)
  obtain ⟨_, st0, h0, rfl⟩ := callbackNew_inv h
  obtain ⟨co, N, inc, B, H⟩ := new_sheld hL ht h0 func ud
  obtain ⟨H1, L1⟩ := history_sheld hL hc h0 rfl hD H L hO hr
  refine read_returns (read_sinc hL hc h0 (fun ud c m => by rw [hcnt]; exact (hcb c).2) (fun ud c m => by rw [hcnt]; exact (hcb c).1) hrat hf
    H1.held H1.ok H1.nonneg H1.size H1.end1 (fun he => ⟨H1.end2 he, fun i m hi => ?_⟩) le_rfl)
  rw [hcnt]
  exact hend he i hi

theorem listCb_counts (l : List ℤ) : Counts (fun i => l.getD i 0) (listCb l) := fun _ _ _ => rfl

/-- Non-vacuity of C39: the outcome of a history of one read gives the handle after it. -/
theorem pull_one {cfg : Config} {type : ℤ} {ch : ℕ} {op : Op} {n er : ℤ} {k : ℕ} (ht : pullOutcome cfg type ch [op] = .ok [(n, er, k)]) :
    ∃ e st o st1, srcCallbackNew cfg (some 1) type (ch : ℕ) 0 = .ok (e, some st) ∧ run [op] st = .ok ([o], st1) ∧ o.ret = n ∧ o.err = er ∧ o.calls = k := by
  unfold pullOutcome at ht
  generalize hn : srcCallbackNew cfg (some 1) type ch 0 = q at ht
  match q, ht with
  | .ok (e, some st), ht =>
    refine ⟨e, st, ?_⟩
    dsimp only at ht
    generalize hr : run [op] st = r at ht
    match r, ht with
    | .ok (os, st1), ht =>
      have ht := ok_inj ht
      have hlen : os.length = 1 := by simpa using congrArg List.length ht
      obtain ⟨o, rfl⟩ := List.length_eq_one_iff.1 hlen
      simp only [List.map_cons, List.map_nil, List.cons.injEq, Prod.mk.injEq, and_true] at ht
      exact ⟨o, st1, rfl, rfl, ht⟩

/-- A read of 10 frames at ratio 1 from a callback that returns the counts of the list and then 0. -/
def listRead (l : List ℤ) : Op := .read (listCb l) 1 20 0 (fun _ => zero32) one64 10 1

theorem one64_ne_nan : one64 ≠ Fl.nan := fun h => by have := congrArg Fl.val h; rw [one64_val] at this; cases this

theorem list3 (i : ℕ) : 0 ≤ [(3 : ℤ)].getD i 0 ∧ [(3 : ℤ)].getD i 0 ≤ 3 := by
  match i with
  | 0 => decide
  | i + 1 => simp

theorem listRead_sincPull : SincPull 1 (listRead [3]) ∧ NonnegPull (listRead [3]) :=
  ⟨⟨one64_ne_nan, by decide, fun _ c _ => lt_of_le_of_lt (samples_mono (list3 c).2) (by decide)⟩, fun _ c _ => (list3 c).1⟩

theorem listRead_ordinary : OrdinaryPull 1 (listRead [3]) ∧ NonnegPull (listRead [3]) :=
  ⟨⟨one64_ne_nan, by decide, fun _ c _ => le_trans (samples_mono (list3 c).2) (by decide)⟩, fun _ c _ => (list3 c).1⟩

set_option maxRecDepth 100000 in
theorem listRead_outcome : pullOutcome ⟨none, none, none⟩ SRC_LINEAR (1 : ℕ) [listRead [3]] = .ok [(3, 0, 2)] ∧
    pullOutcome fastCfg SRC_SINC_FASTEST (1 : ℕ) [listRead [3]] = .ok [(3, 0, 3)] := by
  decide +kernel

/-- Non-vacuity of `C39_interp`: after a read that has met the end of the input, a read with a callback that again returns frames. -/
example : ∃ e st o st1, srcCallbackNew ⟨none, none, none⟩ (some 1) SRC_LINEAR (1 : ℕ) 0 = .ok (e, some st) ∧ run [listRead [3]] st = .ok ([o], st1) ∧
    o.ret = 3 ∧ Returns fun fuel => srcCallbackRead (fun _ _ m => (5, some 1000, m)) 1 fuel o.calls (fun _ => zero32) (some st1) one64 10 1 := by
  obtain ⟨e, st, o, st1, h1, h2, h3, h4, h5⟩ := pull_one listRead_outcome.1
  refine ⟨e, st, o, st1, h1, h2, h3, C39_interp _ ⟨(fun _ h => by cases h), (fun _ h => by cases h), (fun _ h => by cases h)⟩ _ _ _ (Or.inr rfl) _ _ _ _ (by norm_num) h1 _ _ ?_ h2 _ (fun _ _ _ => by norm_num)
    (fun _ _ _ => by dsimp only; decide) _ _ _ _ one64_ne_nan _ _ (by decide)⟩
  intro op hop
  rw [List.mem_singleton.1 hop]
  exact listRead_ordinary

theorem stays_one {cnt : ℕ → ℤ} {cb : Callback} (hc : Counts cnt cb) (o : Obs) (h : ∀ i j, i < j → j < o.calls → cnt i = 0 → cnt j = 0)
    {dummy : ℤ} {fuel : ℕ} {m : Mem} {ratio : F64} {frames data : ℤ} :
    StaysAtEnd cnt 0 False [.read cb dummy fuel 0 m ratio frames data] [o] o.calls (False ∨ ∃ i, 0 ≤ i ∧ i < o.calls ∧ cnt i = 0) :=
  .read _ _ _ _ _ _ _ _ _ _ _ _ _ _ hc (fun h => h.elim) (fun i j _ => h i j) (.nil _ _)

/-- Non-vacuity of `C39_sinc`: a read after a read that has met the end of the input. -/
example : ∃ e st o st1, srcCallbackNew fastCfg (some 1) SRC_SINC_FASTEST (1 : ℕ) 0 = .ok (e, some st) ∧ run [listRead [3]] st = .ok ([o], st1) ∧
    o.ret = 3 ∧ Returns fun fuel => srcCallbackRead (listCb [3]) 1 fuel o.calls (fun _ => zero32) (some st1) one64 10 1 := by
  obtain ⟨e, st, o, st1, h1, h2, h3, h4, h5⟩ := pull_one listRead_outcome.2
  have hz : ∀ i, 0 < i → [(3 : ℤ)].getD i 0 = 0 := by
    intro i hi
    match i with
    | i + 1 => simp
  refine ⟨e, st, o, st1, h1, h2, h3, C39_sinc _ fastCfg_tables _ _ _ (Or.inr (Or.inr rfl)) _ _ _ _ (by norm_num) h1 (fun i => [(3 : ℤ)].getD i 0) _ _ _ _ ?_ h2
    (stays_one (listCb_counts _) o fun i j hi _ _ => hz j (by omega)) _ (listCb_counts _) (fun i => ⟨(list3 i).1, lt_of_le_of_lt (samples_mono (list3 i).2) (by decide)⟩)
    (fun _ i hi => hz i (by omega)) _ _ _ one64_ne_nan _ _ (by decide)⟩
  intro op hop
  rw [List.mem_singleton.1 hop]
  exact listRead_sincPull

/-- The condition of C39 on the sign of the counts is needed: a callback that always returns −1 makes the first read of a zero order hold handle hang. -/
theorem C39_negative : ∃ e st, srcCallbackNew ⟨none, none, none⟩ (some 1) SRC_ZERO_ORDER_HOLD (1 : ℕ) 0 = .ok (e, some st) ∧
    ∀ m, Hangs fun fuel => srcCallbackRead (fun _ _ m => (-1, some 1000, m)) 1 fuel 0 m (some st) one64 10 2000 := by
  obtain ⟨e, st, o, st1, h1, -⟩ := pull_one (cfg := ⟨none, none, none⟩) (type := SRC_ZERO_ORDER_HOLD) (ch := 1) (op := .reset) (n := 0) (er := 0) (k := 0) (by decide +kernel)
  obtain ⟨_, st0, h0, rfl⟩ := callbackNew_inv h1
  refine ⟨e, _, h1, fun m => ?_⟩
  obtain ⟨V, -, -⟩ := new_view (K := .zoh) h0 rfl (by norm_num)
  have hs : st0.savedFrames = 0 := by
    have := new_reset h0
    rw [← this]
    simp [srcResetState]
  refine negative_hangs (K := .zoh) (ch := 1) (a := 1000) (st := { st0 with mode := .callback, callbackFunc := some 1, userData := 0 }) (p := 0) (l := 0) (before := none) (t := 1)
    (V.alike (alike_iff.2 ⟨rfl, rfl, rfl, rfl, rfl⟩)) rfl (fun h => by cases h) hs one64_val ?_ ?_ ?_ ?_ ?_ (fun _ _ _ => ⟨?_, rfl⟩) <;> norm_num [ValidRatio]

/-- What `drained_hangs` needs of the state after a read, computed. -/
def drainedOut (cfg : Config) (type : ℤ) (op : Op) : Option (List ℤ × Bool) :=
  match srcCallbackNew cfg (some 1) type (1 : ℕ) 0 with
  | .ok (_, some st) =>
    match run [op] st with
    | .ok (_, s1) =>
      match s1.priv with
      | .sinc f => some ([f.bCurrent, f.bEnd, f.bRealEnd, sincReach f.coeffHalfLen f.indexInc 1], decide (s1.lastPosition.val = some 0) &&
          decide (s1.lastRatio.val = some 1) && (List.range f.bEnd.toNat).all (fun i => decide ((f.buffer i).val = some 0)))
      | _ => none
    | _ => none
  | _ => none

set_option maxRecDepth 100000 in
theorem drained_outcome : drainedOut fastCfg SRC_SINC_FASTEST (listRead [3]) = some ([23, 48, 23, 20], true) := by
  decide +kernel

/-- The condition of `C39_sinc` on the end of the input is needed: the first read of this handle gets three frames and then the end of the input; a
second read, whose callback returns frames again, hangs. -/
theorem C39_sinc_after_end : ∃ e st o st1, srcCallbackNew fastCfg (some 1) SRC_SINC_FASTEST (1 : ℕ) 0 = .ok (e, some st) ∧
    run [listRead [3]] st = .ok ([o], st1) ∧ o.ret = 3 ∧ o.err = 0 ∧
    ∀ m, Hangs fun fuel => srcCallbackRead (fun _ _ m => (5, some 1000, m)) 1 fuel o.calls m (some st1) one64 10 1 := by
  obtain ⟨e, st, o, st1, h1, h2, h3, h4, h5⟩ := pull_one listRead_outcome.2
  refine ⟨e, st, o, st1, h1, h2, h3, h4, fun m => ?_⟩
  have hd := drained_outcome
  unfold drainedOut at hd
  rw [h1] at hd
  dsimp only at hd
  rw [h2] at hd
  dsimp only at hd
  have L := created_like (.callbackNew _ _ _ _ _ _ h1)
  obtain ⟨_, st0, h0, rfl⟩ := callbackNew_inv h1
  obtain ⟨co, N, inc, B, H⟩ := new_sheld fastCfg_tables (Or.inr (Or.inr rfl)) h0 (some 1) 0
  obtain ⟨H1, L1⟩ := history_sheld fastCfg_tables (by norm_num) h0 rfl (stays_one (listCb_counts [3]) o (fun i j hi _ _ => by
    match j with
    | j + 1 => simp)) H L (fun op hop => by rw [List.mem_singleton.1 hop]; exact listRead_sincPull) h2
  obtain ⟨f, hp, hN, hinc, hco, hlen⟩ := H1.ok.filter
  rw [hp] at hd
  simp only [Option.some.injEq, Prod.mk.injEq, List.cons.injEq, Bool.and_eq_true, and_true, decide_eq_true_eq, List.all_eq_true, List.mem_range] at hd
  obtain ⟨⟨d1, d2, d3, d7⟩, ⟨d4, d5⟩, d6⟩ := hd
  have hB : 60 ≤ B := by
    have := H1.ok.geo.reach_le (r := 1) (by norm_num)
    rw [← hN, ← hinc] at this
    rw [d7] at this
    omega
  have V : SView (some 23) co N inc B st1 1 1 (fun _ _ => zero32) f 23 23 23 0 23 := by
    refine ⟨H1.ok.geo, H1.ok.hvt, H1.ok.hch, le_rfl, by norm_num, hp, ⟨hN, hinc, hco, hlen, ?_, by norm_num, Or.inr ⟨?_, ?_, ?_, fun _ _ => Or.inl rfl, fun _ _ _ => rfl⟩, ?_, ?_, ?_,
      Or.inr ⟨by norm_num, le_rfl⟩, fun _ _ _ => rfl, ?_⟩, d4, by norm_num, d5, Or.inr (by norm_num [ValidRatio])⟩
    · rw [d1]; norm_num
    · omega
    · rw [d3]; norm_num
    · omega
    · omega
    · omega
    · omega
    · intro z c hz hc hb
      obtain rfl : c = 0 := by omega
      have e : ((1 : ℕ) : ℤ) * z + ((0 : ℕ) : ℤ) = (z.toNat : ℤ) := by push_cast; rw [Int.toNat_of_nonneg hz]; ring
      rw [e] at hb ⊢
      exact eq_of_val (d6 z.toNat (by omega)) (by decide +kernel)
  refine drained_hangs (n := 5) V (by norm_num [ValidRatio]) (by omega) le_rfl ?_ L1.mode (by rw [L1.cb]; simp) ?_ one64_val (by norm_num) (by norm_num) (by norm_num) (a := 1000) (by norm_num) (by norm_num)
    (by norm_num) (by norm_num) (fun _ _ _ => ⟨rfl, rfl⟩)
  · rw [← hN, ← hinc, d7]; norm_num
  · exact H1.end2 (Or.inr ⟨1, by norm_num, by omega, rfl⟩)

end Verif
