import Verif.Spec.Threads
import Verif.Props.All
import Verif.Props.CallbackFault
import Verif.Props.History
import Verif.Props.Glide

/-! C86: threads with their own handles and buffers do not disturb each other, whatever the schedule. -/

namespace Verif
open Spec

/-- A state of a handle after calls within the usual ranges. -/
def Reached (ch : ℕ) (st0 st : SrcState) : Prop := TwinOk ch st ∧ ∃ ops os, (∀ op ∈ ops, SizedOp ch op) ∧ run ops st0 = .ok (os, st)

theorem Reached.step {ch : ℕ} {st0 st st1 : SrcState} (R : Reached ch st0 st) {op : Op} (hO : SizedOp ch op) {o : Obs} (h : op.run st = .ok (o, st1)) :
    Reached ch st0 st1 := by
  obtain ⟨H, ops, os, h1, h2⟩ := R
  refine ⟨twinOk_op H (sized_ordinary hO) h, ops ++ [op], os ++ [o], ?_, run_append_ok h2 (run_one h)⟩
  intro p hp
  rcases List.mem_append.1 hp with hp | hp
  · exact h1 p hp
  · rw [List.mem_singleton] at hp; rw [hp]; exact hO

theorem forall₂_last {α β : Type} {R : α → β → Prop} {a : List α} {b : List β} {x : α} {y : β} (h : List.Forall₂ R (a ++ [x]) (b ++ [y])) : R x y := by
  rw [← List.forall₂_reverse_iff, List.reverse_append, List.reverse_append] at h
  simp only [List.reverse_cons, List.reverse_nil, List.nil_append, List.singleton_append] at h
  cases h with
  | cons h _ => exact h

/-- What a call does to the memory. -/
theorem Reached.mem {cfg : Config} (hL : LibraryTables cfg) {type e : ℤ} {ch : ℕ} (hc : ch ≤ 8355967) {st0 st st1 : SrcState}
    (hn : srcNew cfg type ch = .ok (e, some st0)) (R : Reached ch st0 st) {m : Mem} {d : Option SrcData} (hO : SizedOp ch (.process m d)) {o : Obs}
    (h : (Op.process m d).run st = .ok (o, st1)) :
    (o.ret ≠ 0 ∧ o.mem = some m) ∨ (o.ret = 0 ∧ ∃ x x' m', d = some x ∧ o.data = some x' ∧ o.mem = some m' ∧ Accounted x x' ∧ Footprint ch x x' m m') := by
  obtain ⟨H, ops, os, h1, h2⟩ := R
  have hr := run_append_ok h2 (run_one h)
  have hs : ∀ op ∈ ops ++ [Op.process m d], OrdinaryOp 1 ch op := by
    intro p hp
    rcases List.mem_append.1 hp with hp | hp
    · exact sized_ordinary (h1 p hp)
    · rw [List.mem_singleton] at hp; rw [hp]; exact sized_ordinary hO
  rcases (forall₂_last (all_history hL hc hn hs hr).1).1 with ⟨ha, hm⟩ | ⟨h0, x, x', m', hx, hd, hm, hA, hF, hK⟩ | ⟨h21, x, x', m', hx, hd, hm, hN, hF, hK⟩
  · refine Or.inl ⟨?_, hm⟩
    rcases ha with h | h | h | h | h <;> rw [h] <;> norm_num
  · exact Or.inr ⟨h0, x, x', m', hx, hd, hm, hA, hF⟩
  · subst hx
    have : samples ch x.inputFrames < 2 ^ 31 := hO.inSize
    omega

section
variable {ι κ : Type} [DecidableEq ι] [DecidableEq κ] {owner : κ → ι} {T : ι → Set ℤ} {ch : κ → ℕ} {st0 : κ → SrcState}

/-- The common run in the state `s`, and for each thread the run of this thread alone in the state `s' i`. -/
structure Apart (owner : κ → ι) (T : ι → Set ℤ) (ch : κ → ℕ) (st0 : κ → SrcState) (s : Shared κ) (s' : ι → Shared κ) : Prop where
  reach : ∀ h, Reached (ch h) (st0 h) (s.handles h)
  reach' : ∀ h, Reached (ch h) (st0 h) ((s' (owner h)).handles h)
  rel : ∀ h, StRel eqT (s.handles h) ((s' (owner h)).handles h)
  mem : ∀ i, ∀ a ∈ T i, (s' i).mem a = s.mem a

/-- A call of thread `owner h` on handle `h`. -/
theorem apart_handle (hT : ∀ i j, i ≠ j → Disjoint (T i) (T j)) {s : Shared κ} {s' : ι → Shared κ} (I : Apart owner T ch st0 s s') {h : κ} {op op' : Op}
    (ht : Twin (fun _ a b => a = b) (ch h) op op') (hO : SizedOp (ch h) op) (hO' : SizedOp (ch h) op')
    (hmem : ∀ o o' st st', op.run (s.handles h) = .ok (o, st) → op'.run ((s' (owner h)).handles h) = .ok (o', st') → TwinObs (fun _ a b => a = b) (ch h) op o o' →
      (∀ a ∈ T (owner h), o'.mem.getD (s' (owner h)).mem a = o.mem.getD s.mem a) ∧ ∀ a, a ∉ T (owner h) → o.mem.getD s.mem a = s.mem a) :
    (∃ f, onHandle s h op = .error f ∧ onHandle (s' (owner h)) h op' = .error f) ∨
    ∃ t s1 s2, onHandle s h op = .ok (t, s1) ∧ onHandle (s' (owner h)) h op' = .ok (t, s2) ∧ Apart owner T ch st0 s1 (Function.update s' (owner h) s2) := by
  have key := twin_op (T := eqT) (I.reach h).1 (I.rel h) ht (sized_ordinary hO)
  unfold onHandle
  cases h1 : op.run (s.handles h) with
  | error f =>
    cases h2 : op'.run ((s' (owner h)).handles h) with
    | error f' =>
      rw [h1, h2] at key
      have : f = f' := key
      exact Or.inl ⟨f, rfl, by rw [this]; rfl⟩
    | ok q => rw [h1, h2] at key; exact key.elim
  | ok p =>
    cases h2 : op'.run ((s' (owner h)).handles h) with
    | error f' => rw [h1, h2] at key; exact key.elim
    | ok q =>
      obtain ⟨o, st⟩ := p
      obtain ⟨o', st'⟩ := q
      rw [h1, h2] at key
      obtain ⟨k1, k2⟩ : TwinObs eqT.S (ch h) op o o' ∧ StRel eqT st st' := key
      obtain ⟨m1, m2⟩ := hmem o o' st st' h1 h2 k1
      refine Or.inr ⟨some ⟨o.ret, o.data, o.err, o.chans⟩, { mem := o.mem.getD s.mem, handles := Function.update s.handles h st },
        { mem := o'.mem.getD (s' (owner h)).mem, handles := Function.update (s' (owner h)).handles h st' }, rfl, ?_, ?_⟩
      · rw [← k1.ret, ← k1.data, ← k1.err, ← k1.chans]; rfl
      refine ⟨fun g => ?_, fun g => ?_, fun g => ?_, fun i a ha => ?_⟩
      · by_cases e : g = h
        · subst e
          simp only [Function.update_self]
          exact (I.reach g).step hO h1
        · simp only [Function.update_of_ne e]
          exact I.reach g
      · by_cases e : g = h
        · subst e
          simp only [Function.update_self]
          exact (I.reach' g).step hO' h2
        · by_cases eo : owner g = owner h
          · rw [eo]
            simp only [Function.update_self, Function.update_of_ne e]
            rw [← eo]; exact I.reach' g
          · rw [Function.update_of_ne eo]; exact I.reach' g
      · by_cases e : g = h
        · subst e
          simp only [Function.update_self]
          exact k2
        · by_cases eo : owner g = owner h
          · rw [eo]
            simp only [Function.update_self, Function.update_of_ne e]
            rw [← eo]; exact I.rel g
          · rw [Function.update_of_ne eo]
            simp only [Function.update_of_ne e]
            exact I.rel g
      · by_cases eo : i = owner h
        · subst eo
          simp only [Function.update_self]
          exact m1 a ha
        · rw [Function.update_of_ne eo]
          dsimp only
          rw [m2 a fun hb => Set.disjoint_left.1 (hT i (owner h) eo) ha hb]
          exact I.mem i a ha

/-- One turn of thread `i`. -/
theorem apart_step {cfg : Config} (hL : LibraryTables cfg) {type e : κ → ℤ} (hc : ∀ h, ch h ≤ 8355967) (hn : ∀ h, srcNew cfg (type h) (ch h) = .ok (e h, some (st0 h)))
    (hT : ∀ i j, i ≠ j → Disjoint (T i) (T j)) {s : Shared κ} {s' : ι → Shared κ} (I : Apart owner T ch st0 s s') {i : ι} {a : Action κ} (hm : Minds owner T ch i a) :
    (∃ f, a.run s = .error f ∧ a.run (s' i) = .error f) ∨
    ∃ t s1 s2, a.run s = .ok (t, s1) ∧ a.run (s' i) = .ok (t, s2) ∧ Apart owner T ch st0 s1 (Function.update s' i s2) := by
  cases hm with
  | process h d ho hd =>
    subst ho
    have hO : ∀ m, SizedOp (ch h) (.process m d) := by
      intro m
      cases d with
      | none => trivial
      | some x => exact (hd x rfl).1
    refine apart_handle hT I (.process _ _ d fun x hx k h0 h1 => ?_) (hO _) (hO _) ?_
    · have := (hd x hx).2.1 k h0 (by
        unfold samples
        have : x.inputFrames * (ch h : ℤ) ≤ max x.inputFrames 0 * ch h := mul_le_mul_of_nonneg_right (le_max_left _ _) (by positivity)
        omega)
      exact (I.mem _ _ this).symm
    · intro o o' st st' h1 h2 tw
      have hin : ∀ m', o.ret = 0 → ∀ x x', d = some x → Accounted x x' → Footprint (ch h) x x' s.mem m' → ∀ a, a ∉ T (owner h) → m' a = s.mem a := by
        intro m' _ x x' hx hA hF a ha
        refine hF a fun hb => ha ?_
        have := (hd x hx).2.2 (a - x.dataOut) (by omega) (by
          unfold samples
          have : x'.outputFramesGen * (ch h : ℤ) ≤ max x.outputFrames 0 * ch h := mul_le_mul_of_nonneg_right hA.gen1 (by positivity)
          omega)
        rwa [show x.dataOut + (a - x.dataOut) = a by ring] at this
      rcases (I.reach h).mem hL (hc h) (hn h) (hO _) h1 with ⟨b1, b2⟩ | ⟨b0, x, x', m', rfl, b2, b3, b4, b5⟩
      · rcases (I.reach' h).mem hL (hc h) (hn h) (hO _) h2 with ⟨c1, c2⟩ | ⟨c0, _⟩
        · rw [b2, c2]
          exact ⟨I.mem _, fun _ _ => rfl⟩
        · rw [tw.ret] at c0; exact absurd c0 b1
      · rcases (I.reach' h).mem hL (hc h) (hn h) (hO _) h2 with ⟨c1, c2⟩ | ⟨c0, y, y', n', hy, c2, c3, c4, c5⟩
        · rw [tw.ret] at c1; exact absurd b0 c1
        · cases hy
          rw [tw.data, b2] at c2
          cases c2
          obtain ⟨d1, p, p', e1, e2, e3, e4⟩ := tw.out _ x rfl b0
          rw [b2] at e1; cases e1
          rw [b3] at e2; cases e2
          rw [c3] at e3; cases e3
          rw [b3, c3]
          refine ⟨fun a ha => ?_, hin m' b0 x x' rfl b4 b5⟩
          show n' a = m' a
          by_cases hb : x.dataOut ≤ a ∧ a < x.dataOut + x'.outputFramesGen * (ch h : ℤ)
          · have := e4 (a - x.dataOut) (by omega) (by omega)
            rw [show x.dataOut + (a - x.dataOut) = a by ring] at this
            exact this.symm
          · rw [b5 a hb, c5 a hb]
            exact I.mem _ a ha
  | setRatio h r ho hr =>
    subst ho
    refine apart_handle hT I (.setRatio r) hr hr ?_
    intro o o' st st' h1 h2 _
    have hnone : ∀ (s : SrcState) (o : Obs) (st : SrcState), (Op.setRatio r).run s = .ok (o, st) → o.mem = none := by
      intro s o st h
      simp only [Op.run] at h
      have h := ok_inj h
      simp only [Prod.mk.injEq] at h
      rw [← h.1]
    rw [hnone _ _ _ h1, hnone _ _ _ h2]
    exact ⟨I.mem _, fun _ _ => rfl⟩
  | reset h ho =>
    subst ho
    refine apart_handle hT I .reset trivial trivial ?_
    intro o o' st st' h1 h2 _
    have hnone : ∀ (s : SrcState) (o : Obs) (st : SrcState), (Op.reset).run s = .ok (o, st) → o.mem = none := by
      intro s o st h
      simp only [Op.run] at h
      have h := ok_inj h
      simp only [Prod.mk.injEq] at h
      rw [← h.1]
    rw [hnone _ _ _ h1, hnone _ _ _ h2]
    exact ⟨I.mem _, fun _ _ => rfl⟩
  | compute f hf1 hf2 =>
    refine Or.inr ⟨none, { s with mem := f s.mem }, { s' i with mem := f (s' i).mem }, rfl, rfl, I.reach, fun h => ?_, fun h => ?_, fun j a ha => ?_⟩
    · by_cases eo : owner h = i
      · subst eo; simp only [Function.update_self]; exact I.reach' h
      · rw [Function.update_of_ne eo]; exact I.reach' h
    · by_cases eo : owner h = i
      · subst eo; simp only [Function.update_self]; exact I.rel h
      · rw [Function.update_of_ne eo]; exact I.rel h
    · by_cases eo : j = i
      · subst eo
        simp only [Function.update_self]
        exact hf2 _ _ (I.mem j) a ha
      · rw [Function.update_of_ne eo]
        dsimp only
        rw [hf1 _ a fun hb => Set.disjoint_left.1 (hT j i eo) ha hb]
        exact I.mem j a ha

theorem apart_run {cfg : Config} (hL : LibraryTables cfg) {type e : κ → ℤ} (hc : ∀ h, ch h ≤ 8355967) (hn : ∀ h, srcNew cfg (type h) (ch h) = .ok (e h, some (st0 h)))
    (hT : ∀ i j, i ≠ j → Disjoint (T i) (T j)) : ∀ (sched : List (ι × Action κ)) (s : Shared κ) (s' : ι → Shared κ), Apart owner T ch st0 s s' →
    (∀ x ∈ sched, Minds owner T ch x.1 x.2) →
    (∀ ts s1, runActions (sched.map Prod.snd) s = .ok (ts, s1) → ∀ i, ∃ s2, runActions (turnsOf i sched) (s' i) = .ok (toldTo i sched ts, s2) ∧ ∀ a ∈ T i, s2.mem a = s1.mem a) ∧
    ∀ f, runActions (sched.map Prod.snd) s = .error f → ∃ i, runActions (turnsOf i sched) (s' i) = .error f := by
  intro sched
  induction sched with
  | nil =>
    intro s s' I _
    refine ⟨fun ts s1 h i => ?_, fun f h => by cases h⟩
    have h := ok_inj h
    simp only [Prod.mk.injEq] at h
    rw [← h.1, ← h.2]
    exact ⟨s' i, rfl, I.mem i⟩
  | cons x xs ih =>
    intro s s' I hx
    obtain ⟨j, a⟩ := x
    have ht : ∀ i, turnsOf i ((j, a) :: xs) = if j = i then a :: turnsOf i xs else turnsOf i xs := by
      intro i
      unfold turnsOf
      by_cases e : j = i
      · rw [List.filter_cons_of_pos (by simpa using e), if_pos e]; rfl
      · rw [List.filter_cons_of_neg (by simpa using e), if_neg e]
    rcases apart_step hL hc hn hT I (hx (j, a) (by simp)) with ⟨f, h1, h2⟩ | ⟨t, s1, s2, h1, h2, I'⟩
    · refine ⟨fun ts s1 h i => ?_, fun f' h => ⟨j, ?_⟩⟩
      · simp only [List.map_cons, runActions, h1] at h
        cases h
      · simp only [List.map_cons, runActions, h1] at h
        rw [ht, if_pos rfl]
        simp only [runActions, h2]
        exact h
    · obtain ⟨i1, i2⟩ := ih s1 _ I' fun y hy => hx y (by simp [hy])
      constructor
      · intro ts s3 h i
        simp only [List.map_cons, runActions, h1] at h
        have h : (do let (ts, s) ← runActions (xs.map Prod.snd) s1; pure (t :: ts, s)) = (.ok (ts, s3) : M _) := h
        obtain ⟨⟨ts', s4⟩, h3, h⟩ := bind_ok h
        have h := ok_inj h
        simp only [Prod.mk.injEq] at h
        obtain ⟨rfl, rfl⟩ := h
        obtain ⟨s5, k1, k2⟩ := i1 ts' s4 h3 i
        refine ⟨s5, ?_, k2⟩
        rw [ht]
        by_cases e : j = i
        · subst e
          rw [Function.update_self] at k1
          rw [if_pos rfl]
          simp only [runActions, h2, toldTo, if_true]
          show (do let (ts, s) ← runActions (turnsOf j xs) s2; pure (t :: ts, s)) = _
          rw [k1]
          rfl
        · rw [Function.update_of_ne (Ne.symm e)] at k1
          simp only [toldTo, if_neg e]
          exact k1
      · intro f h
        simp only [List.map_cons, runActions, h1] at h
        have h : (do let (ts, s) ← runActions (xs.map Prod.snd) s1; pure (t :: ts, s)) = (.error f : M _) := h
        cases h3 : runActions (xs.map Prod.snd) s1 with
        | ok p => rw [h3] at h; cases h
        | error f' =>
          rw [h3] at h
          cases h
          obtain ⟨i, k⟩ := i2 f h3
          refine ⟨i, ?_⟩
          rw [ht]
          by_cases e : j = i
          · subst e
            rw [Function.update_self] at k
            rw [if_pos rfl]
            simp only [runActions, h2]
            show (do let (ts, s) ← runActions (turnsOf j xs) s2; pure (t :: ts, s)) = _
            rw [k]
            rfl
          · rw [Function.update_of_ne (Ne.symm e)] at k
            rw [if_neg e]; exact k

theorem apart_start {cfg : Config} (hL : LibraryTables cfg) {type e : κ → ℤ} (hn : ∀ h, srcNew cfg (type h) (ch h) = .ok (e h, some (st0 h))) (m : Mem) :
    Apart owner T ch st0 ⟨m, st0⟩ fun _ => ⟨m, st0⟩ :=
  have R : ∀ h, Reached (ch h) (st0 h) (st0 h) := fun h => ⟨new_twin hL (hn h), [], [], by simp, rfl⟩
  ⟨R, R, fun h => strel_new (hn h), fun _ _ _ => rfl⟩

end

/-- **C86.** A program with any number of threads, each using its own handles (all converters, any channel counts) and its own part of the memory.  Whatever the order in which the threads get their turns, each
thread is told by its calls what it would be told if it ran alone from the same start, and finds in its part of the memory what it would find there then. -/
theorem C86 {ι κ : Type} [DecidableEq ι] [DecidableEq κ] (cfg : Config) (hL : LibraryTables cfg) (type e : κ → ℤ) (ch : κ → ℕ) (hc : ∀ h, ch h ≤ 8355967)
    (st : κ → SrcState) (hn : ∀ h, srcNew cfg (type h) (ch h) = .ok (e h, some (st h))) (owner : κ → ι) (T : ι → Set ℤ) (hT : ∀ i j, i ≠ j → Disjoint (T i) (T j))
    (m : Mem) (sched : List (ι × Action κ)) (hs : ∀ x ∈ sched, Minds owner T ch x.1 x.2) (ts : List (Option Told)) (s1 : Shared κ)
    (hr : runActions (sched.map Prod.snd) ⟨m, st⟩ = .ok (ts, s1)) (i : ι) :
    ∃ s2, runActions (turnsOf i sched) ⟨m, st⟩ = .ok (toldTo i sched ts, s2) ∧ ∀ a ∈ T i, s2.mem a = s1.mem a :=
  (apart_run hL hc hn hT sched _ _ (apart_start hL hn m) hs).1 ts s1 hr i

/-- C86, failures: if the program fails under some schedule, then one of its threads fails in the same way when it runs alone: no schedule adds failures. -/
theorem C86_fault {ι κ : Type} [DecidableEq ι] [DecidableEq κ] (cfg : Config) (hL : LibraryTables cfg) (type e : κ → ℤ) (ch : κ → ℕ) (hc : ∀ h, ch h ≤ 8355967)
    (st : κ → SrcState) (hn : ∀ h, srcNew cfg (type h) (ch h) = .ok (e h, some (st h))) (owner : κ → ι) (T : ι → Set ℤ) (hT : ∀ i j, i ≠ j → Disjoint (T i) (T j))
    (m : Mem) (sched : List (ι × Action κ)) (hs : ∀ x ∈ sched, Minds owner T ch x.1 x.2) (f : Fault)
    (hr : runActions (sched.map Prod.snd) ⟨m, st⟩ = .error f) : ∃ i, runActions (turnsOf i sched) ⟨m, st⟩ = .error f :=
  (apart_run hL hc hn hT sched _ _ (apart_start hL hn m) hs).2 f hr

/-- Two threads: stereo zero order hold, thread `true` below address 100, thread `false` from there on.  Each has its calls interrupted by the other. -/
def twoThreads : List (Bool × Action Bool) :=
  let d (a : ℤ) : SrcData := { dataIn := a, dataOut := a + 20, inputFrames := 4, outputFrames := 3, inputFramesUsed := 0, outputFramesGen := 0, endOfInput := 0, srcRatio := one64 }
  [(true, .process true (some (d 1))), (false, .compute fun m a => if 100 ≤ a then Fl.ofInt f32 1 else m a), (false, .process false (some (d 101))), (true, .reset true),
   (true, .process true (some (d 2)))]

set_option maxRecDepth 100000 in
/-- Non-vacuity of C86: the two threads keep to their handles and buffers, the program runs through, and thread `false` generates frames that are not silence. -/
example : LibraryTables ⟨none, none, none⟩ ∧ (∀ _ : Bool, srcNew ⟨none, none, none⟩ SRC_ZERO_ORDER_HOLD (2 : ℕ) = .ok (0, some zoh2)) ∧
    (∀ i j : Bool, i ≠ j → Disjoint (if i then {a : ℤ | a < 100} else {a | 100 ≤ a}) (if j then {a : ℤ | a < 100} else {a | 100 ≤ a})) ∧
    (∀ x ∈ twoThreads, Minds (fun h : Bool => h) (fun i : Bool => if i then {a : ℤ | a < 100} else {a | 100 ≤ a}) (fun _ => 2) x.1 x.2) ∧
    ∃ ts s1, runActions (twoThreads.map Prod.snd) ⟨fun _ => zero32, fun _ => zoh2⟩ = .ok (ts, s1) ∧ (s1.mem 121).val = some 1 ∧ (s1.mem 21).val = some 0 := by
  have hd : ∀ a : ℤ, SincSized 2 { dataIn := a, dataOut := a + 20, inputFrames := 4, outputFrames := 3, inputFramesUsed := 0, outputFramesGen := 0, endOfInput := 0, srcRatio := one64 } :=
    fun a => ⟨fun h => (by
      have h : one64 = .nan := h
      have := one64_val
      rw [h] at this
      cases this), by norm_num [samples], by norm_num [samples]⟩
  refine ⟨no_tables, fun _ => zoh2_new, ?_, ?_, ?_⟩
  · intro i j hij
    rw [Set.disjoint_left]
    cases i <;> cases j <;> simp at hij ⊢
  · intro x hx
    simp only [twoThreads, List.mem_cons, List.not_mem_nil, or_false] at hx
    rcases hx with rfl | rfl | rfl | rfl | rfl
    · refine .process _ _ rfl fun x hx => ?_
      cases hx
      refine ⟨hd _, fun k h0 h1 => ?_, fun k h0 h1 => ?_⟩ <;> norm_num [samples] at h1 ⊢ <;> omega
    · refine .compute _ (fun m a ha => ?_) (fun m m' hm a ha => ?_)
      · simp only [Bool.false_eq_true, if_false, Set.mem_setOf_eq] at ha
        rw [if_neg ha]
      · simp only [Bool.false_eq_true, if_false, Set.mem_setOf_eq] at ha
        rw [if_pos ha, if_pos ha]
    · refine .process _ _ rfl fun x hx => ?_
      cases hx
      refine ⟨hd _, fun k h0 h1 => ?_, fun k h0 h1 => ?_⟩ <;> norm_num [samples] at h1 ⊢ <;> omega
    · exact .reset _ rfl
    · refine .process _ _ rfl fun x hx => ?_
      cases hx
      refine ⟨hd _, fun k h0 h1 => ?_, fun k h0 h1 => ?_⟩ <;> norm_num [samples] at h1 ⊢ <;> omega
  · have key : (match runActions (twoThreads.map Prod.snd) ⟨fun _ => zero32, fun _ => zoh2⟩ with
      | .ok (_, s) => decide ((s.mem 121).val = some 1 ∧ (s.mem 21).val = some 0)
      | .error _ => false) = true := by decide +kernel
    split at key
    · rename_i ts s1 hr
      exact ⟨ts, s1, hr, of_decide_eq_true key⟩
    · cases key

end Verif
