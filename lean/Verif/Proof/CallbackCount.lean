import Verif.Proof.Callback

/-! Counts of `src_callback_read` (C36). -/

namespace Verif
open Spec

theorem ordinary_of {ch : ℕ} {d : SrcData} (h1 : d.srcRatio ≠ .nan) (h2 : samples ch d.inputFrames ≤ 2 ^ 52) (h3 : samples ch d.outputFrames ≤ 2 ^ 52) :
    Ordinary 1 ch d := ⟨h1, h2, h3, by omega⟩

theorem samples_mono {ch : ℕ} {a b : ℤ} (h : a ≤ b) : samples ch a ≤ samples ch b :=
  mul_le_mul_of_nonneg_right (max_le_max h le_rfl) (by positivity)

theorem samples_max (ch : ℕ) (a : ℤ) : samples ch (max a 0) = samples ch a := by
  unfold samples
  rw [max_assoc, max_self]

/-- Invariant of a callback handle between calls. -/
structure Held (ch : ℕ) (st0 st : SrcState) : Prop where
  back : ∃ ps qs p, Backed ch st0 ps qs st p
  saved : samples ch st.savedFrames ≤ 2 ^ 52

/-- Invariant of the loop of `src_callback_read`. -/
structure HeldLoop (ch : ℕ) (st0 : SrcState) (cb : Callback) (ud calls : ℕ) (ratio : F64) (frames : ℤ) (s : CbSt) : Prop where
  back : ∃ ps qs p, Backed ch st0 ps qs s.st p
  insize : samples ch s.d.inputFrames ≤ 2 ^ 52
  hud : s.st.userData = ud
  hrat : s.d.srcRatio = ratio
  gen0 : 0 ≤ s.gen
  gen1 : s.gen ≤ frames
  room : s.d.outputFrames = frames - s.gen
  hcal : calls ≤ s.calls
  eof : s.d.endOfInput = 1 → ∃ c m, calls ≤ c ∧ c < s.calls ∧ (cb ud c m).1 = 0
  err : s.err = 0

section
variable {cfg : Config} {type e0 : ℤ} {ch : ℕ} {st0 : SrcState} {cb : Callback} {ud calls : ℕ} {ratio : F64} {frames dummy : ℤ}

theorem cbFetch_held {s : CbSt} (hcb : ∀ ud c m, samples ch (cb ud c m).1 ≤ 2 ^ 52) (H : HeldLoop ch st0 cb ud calls ratio frames s) :
    HeldLoop ch st0 cb ud calls ratio frames (cbFetch cb dummy s) := by
  unfold cbFetch
  split_ifs with h0
  · refine ⟨H.back, hcb _ _ _, H.hud, H.hrat, H.gen0, H.gen1, H.room, Nat.le_succ_of_le H.hcal, ?_, H.err⟩
    dsimp only
    intro h
    split_ifs at h with h1
    · rw [H.hud] at h1
      exact ⟨s.calls, s.mem, H.hcal, Nat.lt_succ_self _, h1⟩
    · obtain ⟨c, m, h2, h3, h4⟩ := H.eof h
      exact ⟨c, m, h2, Nat.lt_succ_of_lt h3, h4⟩
  · exact H

/-- What is known when the loop ends. -/
def HeldEnd (ch : ℕ) (st0 : SrcState) (cb : Callback) (ud calls : ℕ) (frames : ℤ) (s : CbSt) : Prop :=
  (∃ ps qs p, Backed ch st0 ps qs s.st p) ∧ samples ch s.d.inputFrames ≤ 2 ^ 52 ∧ calls ≤ s.calls ∧
    (s.err ≠ 0 ∨ (0 ≤ s.gen ∧ s.gen ≤ frames ∧ (s.gen < frames → ∃ c m, calls ≤ c ∧ c < s.calls ∧ (cb ud c m).1 = 0)))

theorem backed_callback {st p : SrcState} {ps : List Op} {qs : List Obs} (B : Backed ch st0 ps qs st p) :
    Backed ch st0 ps qs { st with mode := .callback } p :=
  ⟨B.ord, B.run, B.mode, by have := alike_iff.1 B.alike; exact alike_iff.2 this⟩

theorem cbStep_held (hL : LibraryTables cfg) (hc : ch ≤ 8355967) (h0 : srcNew cfg type ch = .ok (e0, some st0))
    (hcb : ∀ ud c m, samples ch (cb ud c m).1 ≤ 2 ^ 52) (hr : ratio ≠ .nan) (hf : samples ch frames ≤ 2 ^ 52) {s s' : CbSt} {b : Bool}
    (H : HeldLoop ch st0 cb ud calls ratio frames s) (h : cbStep cb dummy frames s = .ok (b, s')) :
    (b = true → HeldLoop ch st0 cb ud calls ratio frames s') ∧ (b = false → HeldEnd ch st0 cb ud calls frames s') := by
  rcases cbStep_inv h with ⟨hg, rfl, rfl⟩ | ⟨hg, e, mem, st, d, hp, hcase⟩
  · exact ⟨fun h => (by cases h), fun _ => ⟨H.back, H.insize, H.hcal, Or.inr ⟨H.gen0, H.gen1, fun h => absurd h hg⟩⟩⟩
  have F := cbFetch_held (dummy := dummy) hcb H
  have hst : (cbFetch cb dummy s).st = s.st := by unfold cbFetch; split_ifs <;> rfl
  have hgen : (cbFetch cb dummy s).gen = s.gen := by unfold cbFetch; split_ifs <;> rfl
  generalize cbFetch cb dummy s = f at hp hcase F hst hgen
  obtain ⟨ps, qs, p, B⟩ := H.back
  have hsz : samples ch f.d.outputFrames ≤ 2 ^ 52 := le_trans (samples_mono (by rw [F.room]; have := F.gen0; omega)) hf
  have hO : Ordinary 1 ch f.d := ordinary_of (by rw [F.hrat]; exact hr) F.insize hsz
  have hin : samples ch d.inputFrames ≤ 2 ^ 52 := by
    rcases process_keeps_in hp with h | h <;> rw [h]
    · exact F.insize
    · rw [samples_max]; exact F.insize
  have hud : st.userData = ud := by
    have L : Like { s.st with mode := .process } { s.st with mode := .process } := by
      have Lp := like_self_priv (reach_like (.new _ _ _ _ h0) ⟨_, _, B.run⟩)
      obtain ⟨a1, a2, a3, a4, a5⟩ := alike_iff.1 B.alike
      exact ⟨rfl, rfl, rfl, rfl, rfl, by dsimp only; rw [a4, a5]; exact Lp.priv, by dsimp only; rw [a1, a5]; exact Lp.kind, by dsimp only; rw [a4]; exact Lp.pos⟩
    obtain ⟨s1, h1, L1⟩ := process_like L hp
    cases h1
    rw [L1.ud]; exact H.hud
  obtain ⟨o, p', B', _, ho1, ho2, ho3, hok⟩ := B.step hL hc h0 hO hp
  have B'' : ∃ ps qs p, Backed ch st0 ps qs { st with mode := .callback } p := ⟨_, _, _, backed_callback B'⟩
  have hch : st.channels = ch := by
    rw [(alike_iff.1 B'.alike).2.2.2.1, (reach_like (.new _ _ _ _ h0) ⟨_, _, B'.run⟩).channels]
    exact (new_params h0).2
  rcases hcase with ⟨he, hb, c1, c2, c3, c4, c5, c6⟩ | ⟨he, hb, c1, c2, c3, c4, c5, c6⟩
  · rw [hb]
    refine ⟨fun h => (by cases h), fun _ => ⟨?_, ?_, ?_, Or.inl (by rw [c1]; exact he)⟩⟩
    · rw [c3]; exact B''
    · rw [c4]; exact hin
    · rw [c6]; exact F.hcal
  · obtain ⟨hA, hF, hK, hCl⟩ := hok he
    have hgen' : 0 ≤ s.gen + d.outputFramesGen ∧ s.gen + d.outputFramesGen ≤ frames := by
      have := hA.gen0; have := hA.gen1; have := H.gen0; have := F.room
      rw [hgen] at this
      omega
    have hin' : samples ch (d.inputFrames - d.inputFramesUsed) ≤ 2 ^ 52 := le_trans (samples_mono (by have := hA.used0; omega)) hin
    refine ⟨fun _ => ⟨?_, ?_, ?_, ?_, ?_, ?_, ?_, ?_, ?_, ?_⟩, fun hb' => ⟨?_, ?_, ?_, Or.inr ⟨?_, ?_, ?_⟩⟩⟩
    · rw [c3]; exact B''
    · rw [c4]; exact hin'
    · rw [c3]; exact hud
    · rw [c4]; exact hK.srcRatio.trans F.hrat
    · rw [c5]; exact hgen'.1
    · rw [c5]; exact hgen'.2
    · rw [c4, c5]
      dsimp only
      rw [hK.outputFrames, F.room, hgen, max_eq_left (by omega)]; ring
    · rw [c6]; exact F.hcal
    · rw [c4, c6]
      dsimp only
      rw [hK.endOfInput]
      exact F.eof
    · rw [c1]; exact H.err
    · rw [c3]; exact B''
    · rw [c4]; exact hin'
    · rw [c6]; exact F.hcal
    · rw [c5]; exact hgen'.1
    · rw [c5]; exact hgen'.2
    · intro _
      rw [hb] at hb'
      have := of_decide_eq_false hb'
      rw [not_not] at this
      rw [c6]
      exact F.eof (by rw [← hK.endOfInput]; exact this.1)

/-- One `src_callback_read` call. -/
theorem read_held (hL : LibraryTables cfg) (hc : ch ≤ 8355967) (h0 : srcNew cfg type ch = .ok (e0, some st0))
    (hcb : ∀ ud c m, samples ch (cb ud c m).1 ≤ 2 ^ 52) (hr : ratio ≠ .nan) (hf : samples ch frames ≤ 2 ^ 52) {st : SrcState}
    (H : Held ch st0 st) {fuel : ℕ} {m m' : Mem} {data n : ℤ} {st' : Option SrcState} {k : ℕ}
    (h : srcCallbackRead cb dummy fuel calls m (some st) ratio frames data = .ok (n, m', st', k)) :
    ∃ s', st' = some s' ∧ Held ch st0 s' ∧ 0 ≤ n ∧ n ≤ max frames 0 ∧
      (n < frames → s'.error ≠ 0 ∨ ∃ c m, calls ≤ c ∧ c < k ∧ (cb st.userData c m).1 = 0) := by
  have key : ∀ e : ℤ, Held ch st0 { st with error := e } := by
    intro e
    obtain ⟨⟨ps, qs, p, B⟩, hs⟩ := H
    exact ⟨⟨ps, qs, p, B.ord, B.run, B.mode, by have := alike_iff.1 B.alike; exact alike_iff.2 this⟩, hs⟩
  unfold srcCallbackRead at h
  dsimp only at h
  split at h
  · have h := ok_inj h; simp only [Prod.mk.injEq] at h
    obtain ⟨rfl, rfl, rfl, rfl⟩ := h
    exact ⟨st, rfl, H, le_rfl, le_max_right _ _, fun h => by omega⟩
  rename_i hfr
  split at h
  · have h := ok_inj h; simp only [Prod.mk.injEq] at h
    obtain ⟨rfl, rfl, rfl, rfl⟩ := h
    exact ⟨_, rfl, key _, le_rfl, le_max_right _ _, fun _ => Or.inl (by simp [Err.BAD_MODE])⟩
  split at h
  · have h := ok_inj h; simp only [Prod.mk.injEq] at h
    obtain ⟨rfl, rfl, rfl, rfl⟩ := h
    exact ⟨_, rfl, key _, le_rfl, le_max_right _ _, fun _ => Or.inl (by simp [Err.NULL_CALLBACK])⟩
  split at h
  · have h := ok_inj h; simp only [Prod.mk.injEq] at h
    obtain ⟨rfl, rfl, rfl, rfl⟩ := h
    exact ⟨_, rfl, key _, le_rfl, le_max_right _ _, fun _ => Or.inl (by simp [Err.BAD_SRC_RATIO])⟩
  obtain ⟨r, hw, h⟩ := bind_ok h
  have I0 : HeldLoop ch st0 cb st.userData calls ratio frames { st := st, mem := m, d := cbData st ratio frames data, gen := 0, calls, err := 0 } :=
    ⟨H.back, H.saved, rfl, rfl, le_rfl, by dsimp only; omega, by simp [cbData], le_rfl, fun h => by simp [cbData] at h, rfl⟩
  obtain ⟨hB, hsz, hcalls, hend⟩ := whileM_partial (HeldLoop ch st0 cb st.userData calls ratio frames)
    (HeldEnd ch st0 cb st.userData calls frames) (fun s hI b s' hs => cbStep_held hL hc h0 hcb hr hf hI hs) _ _ _ I0 hw
  have hH : ∀ e : ℤ, Held ch st0 { r.st with savedData := r.d.dataIn, savedFrames := r.d.inputFrames, error := e } := by
    intro e
    obtain ⟨ps, qs, p, B⟩ := hB
    exact ⟨⟨ps, qs, p, B.ord, B.run, B.mode, by have := alike_iff.1 B.alike; exact alike_iff.2 this⟩, hsz⟩
  split at h
  · rename_i he
    have h := ok_inj h; simp only [Prod.mk.injEq] at h
    obtain ⟨rfl, rfl, rfl, rfl⟩ := h
    exact ⟨_, rfl, hH _, le_rfl, le_max_right _ _, fun _ => Or.inl he⟩
  · rename_i he
    have h := ok_inj h; simp only [Prod.mk.injEq] at h
    obtain ⟨rfl, rfl, rfl, rfl⟩ := h
    rcases hend with hend | ⟨h1, h2, h3⟩
    · exact absurd hend he
    · exact ⟨_, rfl, hH r.st.error, h1, le_trans h2 (le_max_left _ _), fun h => Or.inr (h3 h)⟩

theorem setRatio_error {st st' : SrcState} {r : F64} {o : Obs} (h : (Op.setRatio r).run st = .ok (o, st')) : st'.error = st.error ∧ o.err = st.error := by
  simp only [Op.run, srcSetRatio] at h
  split at h
  · have h := ok_inj h; simp only [Option.getD_some, Prod.mk.injEq] at h
    obtain ⟨rfl, rfl⟩ := h
    exact ⟨rfl, rfl⟩
  · have h := ok_inj h; simp only [Option.getD_some, Prod.mk.injEq] at h
    obtain ⟨rfl, rfl⟩ := h
    exact ⟨rfl, rfl⟩

/-- `src_set_ratio` on both handles. -/
theorem Backed.setRatio (h0 : srcNew cfg type ch = .ok (e0, some st0)) {st st' p : SrcState} {ps : List Op} {qs : List Obs}
    (B : Backed ch st0 ps qs st p) {r : F64} (hr : r ≠ .nan) {o : Obs} (h : (Op.setRatio r).run st = .ok (o, st')) :
    ∃ o' p', (Op.setRatio r).run p = .ok (o', p') ∧ Backed ch st0 (ps ++ [.setRatio r]) (qs ++ [o']) st' p' ∧
      st'.savedFrames = st.savedFrames ∧ st'.savedData = st.savedData := by
  have hA := alike_iff.1 B.alike
  have hord : ∀ op ∈ ps ++ [.setRatio r], OrdinaryOp 1 ch op := by
    intro op ho
    rcases List.mem_append.1 ho with ho | ho
    · exact B.ord op ho
    · rw [List.mem_singleton.1 ho]
      exact .setRatio _ hr
  have fin : ∀ o' p', (Op.setRatio r).run p = .ok (o', p') → Alike p' st' → Backed ch st0 (ps ++ [.setRatio r]) (qs ++ [o']) st' p' := by
    intro o' p' hp ha
    have hrun := run_append_ok B.run (run_one hp)
    refine ⟨hord, hrun, ?_, ha⟩
    rw [C35_mode cfg st0 p' (.new _ _ _ _ h0) ⟨_, _, hrun⟩]
    exact (new_params h0).1
  simp only [Op.run, srcSetRatio] at h
  split at h
  · rename_i hb
    have h := ok_inj h; simp only [Option.getD_some, Prod.mk.injEq] at h
    obtain ⟨_, rfl⟩ := h
    have e : (Op.setRatio r).run p = .ok (⟨Err.BAD_SRC_RATIO, none, none, 0, srcError (some p), srcGetChannels (some p)⟩, p) := by
      simp only [Op.run, srcSetRatio]
      rw [if_pos hb]; rfl
    exact ⟨_, _, e, fin _ _ e B.alike, rfl, rfl⟩
  · rename_i hb
    have h := ok_inj h; simp only [Option.getD_some, Prod.mk.injEq] at h
    obtain ⟨_, rfl⟩ := h
    have e : (Op.setRatio r).run p = .ok (⟨Err.NO_ERROR, none, none, 0, srcError (some { p with lastRatio := r }), srcGetChannels (some { p with lastRatio := r })⟩,
        { p with lastRatio := r }) := by
      simp only [Op.run, srcSetRatio]
      rw [if_neg hb]; rfl
    exact ⟨_, _, e, fin _ _ e (alike_iff.2 ⟨hA.1, rfl, hA.2.2.1, hA.2.2.2.1, hA.2.2.2.2⟩), rfl, rfl⟩

/-- `src_reset` on both handles. -/
theorem Backed.reset (h0 : srcNew cfg type ch = .ok (e0, some st0)) {st p : SrcState} {ps : List Op} {qs : List Obs}
    (B : Backed ch st0 ps qs st p) : ∃ o', Backed ch st0 (ps ++ [.reset]) (qs ++ [o']) (srcResetState st) (srcResetState p) := by
  have e : (Op.reset).run p = .ok (⟨Err.NO_ERROR, none, none, 0, srcError (some (srcResetState p)), srcGetChannels (some (srcResetState p))⟩, srcResetState p) := rfl
  have hrun := run_append_ok B.run (run_one e)
  refine ⟨_, ?_, hrun, ?_, reset_alike B.alike⟩
  · intro op ho
    rcases List.mem_append.1 ho with ho | ho
    · exact B.ord op ho
    · rw [List.mem_singleton.1 ho]
      exact .reset
  · rw [C35_mode cfg st0 _ (.new _ _ _ _ h0) ⟨_, _, hrun⟩]
    exact (new_params h0).1

theorem op_held (hL : LibraryTables cfg) (hc : ch ≤ 8355967) (h0 : srcNew cfg type ch = .ok (e0, some st0)) {st st' : SrcState}
    (H : Held ch st0 st) (hm : st.mode = .callback) {op : Op} (hO : OrdinaryPull ch op) {o : Obs} (h : op.run st = .ok (o, st')) :
    Held ch st0 st' ∧ PullCount st.userData op o := by
  obtain ⟨⟨ps, qs, p, B⟩, hs⟩ := id H
  cases op with
  | process m d =>
    simp only [Op.run, srcProcess] at h
    rw [if_pos (by rw [hm]; decide)] at h
    have h := ok_inj h; simp only [Prod.mk.injEq] at h
    rw [← h.2]
    exact ⟨H, trivial⟩
  | read cb dummy fuel calls m ratio frames data =>
    obtain ⟨⟨n, m', s1, k⟩, h1, h⟩ := bind_ok h
    obtain ⟨s', rfl, H', a, b, c⟩ := read_held hL hc h0 hO.2.2 hO.1 hO.2.1 H h1
    have h := ok_inj h; simp only [Prod.mk.injEq] at h
    obtain ⟨rfl, rfl⟩ := h
    exact ⟨H', a, b, c⟩
  | setRatio r =>
    obtain ⟨o', p', _, B', e1, _⟩ := B.setRatio h0 hO h
    exact ⟨⟨⟨_, _, _, B'⟩, by rw [e1]; exact hs⟩, trivial⟩
  | reset =>
    obtain ⟨o', B'⟩ := B.reset h0
    have h := ok_inj h; simp only [Prod.mk.injEq] at h
    obtain ⟨_, rfl⟩ := h
    exact ⟨⟨⟨_, _, _, B'⟩, by simp [srcResetState, samples]⟩, trivial⟩

theorem history_held (hL : LibraryTables cfg) (hc : ch ≤ 8355967) (h0 : srcNew cfg type ch = .ok (e0, some st0)) {stc : SrcState} (hm : stc.mode = .callback) :
    ∀ (ops : List Op) {st st' : SrcState} {os : List Obs}, Held ch st0 st → Like stc st → (∀ op ∈ ops, OrdinaryPull ch op) →
      run ops st = .ok (os, st') → List.Forall₂ (PullCount stc.userData) ops os ∧ Held ch st0 st' := by
  intro ops
  induction ops with
  | nil =>
    intro st st' os H _ _ h
    have h := ok_inj h; simp only [Prod.mk.injEq] at h
    obtain ⟨rfl, rfl⟩ := h
    exact ⟨.nil, H⟩
  | cons op ops ih =>
    intro st st' os H L hO h
    obtain ⟨⟨o, s1⟩, h1, h⟩ := bind_ok h
    obtain ⟨⟨os', s2⟩, h2, h⟩ := bind_ok h
    have h := ok_inj h; simp only [Prod.mk.injEq] at h
    obtain ⟨rfl, rfl⟩ := h
    obtain ⟨H1, hp⟩ := op_held hL hc h0 H (L.mode.trans hm) (hO op (by simp)) h1
    rw [L.ud] at hp
    obtain ⟨a, b⟩ := ih H1 (op_like L h1) (fun o ho => hO o (by simp [ho])) h2
    exact ⟨.cons hp a, b⟩

theorem callback_backed (h0 : srcNew cfg type ch = .ok (e0, some st0)) (func : Option ℕ) (ud : ℕ) :
    Backed ch st0 [] [] { st0 with mode := .callback, callbackFunc := func, userData := ud } st0 :=
  ⟨fun _ h => absurd h (by simp), rfl, (new_params h0).1, alike_iff.2 ⟨rfl, rfl, rfl, rfl, rfl⟩⟩

end

end Verif
