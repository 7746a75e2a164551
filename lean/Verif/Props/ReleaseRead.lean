import Verif.Props.Release

/-! Callback reads in a build without assertions (C63). -/

namespace Verif
open Spec

section
variable {co : ℤ → F32} {N inc B : ℤ} {ch : ℕ} {cb : Callback} {dummy frames : ℤ} {ratio : F64} {low : Prop}

/-- A callback handle.  `low`: a ratio below 1/180 has been asked for. -/
structure RHeld (co : ℤ → F32) (N inc B : ℤ) (ch : ℕ) (low : Prop) (st : SrcState) : Prop where
  any : SAny co N inc B ch true low { st with mode := .process }
  mode : st.mode = .callback
  saved : samples ch st.savedFrames < 2 ^ 31

theorem SAny.change {st st' : SrcState} {seen : Bool} (S : SAny co N inc B ch seen low st) (hA : Alike st st') (hm : st'.mode = .process) :
    SAny co N inc B ch seen low st' := by
  obtain ⟨l, y, f, D, k, R, i, h, V, h1, h2⟩ := S.view
  exact ⟨hm, S.hB, l, y, f, D, k, R, i, h, V.alike hA, h1, h2⟩

theorem SAny.weaken {st : SrcState} {seen : Bool} {low' : Prop} (S : SAny co N inc B ch seen low st) (h : low → low') :
    SAny co N inc B ch seen low' st := by
  obtain ⟨l, y, f, D, k, R, i, h', V, h1, h2⟩ := S.view
  exact ⟨S.mode, S.hB, l, y, f, D, k, R, i, h', V, h1, h2.imp_left h⟩

/-- Loop of `src_callback_read`. -/
structure RLoop (co : ℤ → F32) (N inc B : ℤ) (ch : ℕ) (low : Prop) (ratio : F64) (frames : ℤ) (s : CbSt) : Prop where
  any : SAny co N inc B ch true low { s.st with mode := .process }
  mode : s.st.mode = .callback
  insize : samples ch s.d.inputFrames < 2 ^ 31
  rat : s.d.srcRatio = ratio
  gen0 : 0 ≤ s.gen
  room : s.d.outputFrames = frames - s.gen

theorem release_cbStep (hcb : ∀ ud c m, samples ch (cb ud c m).1 < 2 ^ 31) (hr : ratio ≠ .nan) (hf : samples ch frames ≤ 2 ^ 50)
    (hask : ∀ t, ratio.val = some t → ValidRatio t → t < 1 / 180 → low) {s : CbSt} (I : RLoop co N inc B ch low ratio frames s) :
    (∀ f, Release.cbStep cb dummy frames s = .error f → f = .oobRead ∧ low) ∧ ∀ b s', Release.cbStep cb dummy frames s = .ok (b, s') →
      (b = true → RLoop co N inc B ch low ratio frames s') ∧
      (SAny co N inc B ch true low { s'.st with mode := .process } ∧ s'.st.mode = .callback ∧ samples ch s'.d.inputFrames < 2 ^ 31) := by
  unfold Release.cbStep
  by_cases hg : s.gen < frames
  swap
  · rw [if_pos hg]
    refine ⟨fun f h => (by cases h), fun b s' h => ?_⟩
    have h := ok_inj h
    simp only [Prod.mk.injEq] at h
    obtain ⟨rfl, rfl⟩ := h
    exact ⟨fun h => (by cases h), I.any, I.mode, I.insize⟩
  rw [if_neg (by simpa using hg)]
  have hst : (cbFetch cb dummy s).st = s.st := by unfold cbFetch; split_ifs <;> rfl
  have fin : samples ch (cbFetch cb dummy s).d.inputFrames < 2 ^ 31 := by
    unfold cbFetch
    split_ifs
    · exact hcb _ _ _
    · exact I.insize
  have frat : (cbFetch cb dummy s).d.srcRatio = ratio := by
    unfold cbFetch
    split_ifs <;> exact I.rat
  have froom : (cbFetch cb dummy s).d.outputFrames = frames - s.gen := by
    unfold cbFetch
    split_ifs <;> exact I.room
  have fgen : (cbFetch cb dummy s).gen = s.gen := by
    unfold cbFetch
    split_ifs <;> rfl
  have hsz : samples ch (cbFetch cb dummy s).d.outputFrames ≤ 2 ^ 50 := le_trans (samples_mono (by rw [froom]; have := I.gen0; omega)) hf
  have hO : SincSized ch (cbFetch cb dummy s).d := ⟨by rw [frat]; exact hr, fin, hsz⟩
  dsimp only
  rw [hst]
  rcases release_process_any I.any hO (cbFetch cb dummy s).mem (low' := low) id (by rw [frat]; exact hask) with ⟨e, m', st', x', h1, h2, h3, h4⟩ | ⟨h1, _, h2⟩
  swap
  · rw [h1]
    refine ⟨fun f h => ?_, fun b s' h => by cases h⟩
    simp only [bind, Except.bind, Except.error.injEq] at h
    exact ⟨h.symm, h2⟩
  rw [h1]
  simp only [bind, Except.bind, Option.getD_some]
  have hS : SAny co N inc B ch true low { st' with mode := .process } := by
    rw [Bool.true_or] at h2
    have hm : ({ st' with mode := .process } : SrcState) = st' := by rw [← h2.mode]
    rw [hm]; exact h2
  have hS' : SAny co N inc B ch true low { ({ st' with mode := .callback } : SrcState) with mode := .process } := hS
  by_cases he : e = 0
  swap
  · rw [if_pos he]
    refine ⟨fun f h => (by cases h), fun b s' h => ?_⟩
    have h := ok_inj h
    simp only [Prod.mk.injEq] at h
    obtain ⟨rfl, rfl⟩ := h
    exact ⟨fun h => (by cases h), hS', rfl, h3⟩
  obtain ⟨k1, k2, k3, k4, k5, k6⟩ := h4 he
  rw [if_neg (by simp [he])]
  have hchan : st'.channels = ch := by
    obtain ⟨l, y, f, D, k, R, i, h, V, _⟩ := hS.view
    exact V.hch
  have hc1 : (0 : ℤ) ≤ ch := by positivity
  have hused : samples ch x'.inputFramesUsed < 2 ^ 31 := lt_of_le_of_lt (samples_mono k3) h3
  have hgen : samples ch x'.outputFramesGen ≤ 2 ^ 50 := by
    refine le_trans (samples_mono k5) ?_
    rw [k6, samples_max]
    exact hsz
  have c1 : 0 ≤ x'.inputFramesUsed * ch := mul_nonneg k2 hc1
  have c2 : 0 ≤ x'.outputFramesGen * ch := mul_nonneg k4 hc1
  have e1 : chkI64 (x'.inputFramesUsed * st'.channels) = .ok (x'.inputFramesUsed * st'.channels) := by
    unfold chkI64 samples at *
    rw [max_eq_left k2] at hused
    norm_num at hused
    rw [hchan, if_pos (by omega)]; rfl
  have e2 : chkI64 (x'.outputFramesGen * st'.channels) = .ok (x'.outputFramesGen * st'.channels) := by
    unfold chkI64 samples at *
    rw [max_eq_left k4] at hgen
    norm_num at hgen
    rw [hchan, if_pos (by omega)]; rfl
  rw [e1]
  dsimp only
  rw [e2]
  dsimp only
  have hin : samples ch (x'.inputFrames - x'.inputFramesUsed) < 2 ^ 31 := lt_of_le_of_lt (samples_mono (by omega)) h3
  refine ⟨fun f h => (by cases h), fun b s' h => ?_⟩
  have h := ok_inj h
  simp only [Prod.mk.injEq] at h
  obtain ⟨_, rfl⟩ := h
  refine ⟨fun _ => ⟨hS', rfl, hin, k1.trans frat, ?_, ?_⟩, hS', rfl, hin⟩
  · dsimp only
    rw [fgen]
    have := I.gen0
    omega
  · dsimp only
    rw [fgen, k6, froom]
    have := I.gen0
    omega

/-- `src_callback_read` on a sinc handle. -/
theorem release_read (hcb : ∀ ud c m, samples ch (cb ud c m).1 < 2 ^ 31) (hr : ratio ≠ .nan) (hf : samples ch frames ≤ 2 ^ 50)
    (hask : ∀ t, ratio.val = some t → ValidRatio t → t < 1 / 180 → low) {st : SrcState} (H : RHeld co N inc B ch low st) {m : Mem} {data : ℤ}
    {fuel calls : ℕ} :
    (∀ f, Release.srcCallbackRead cb dummy fuel calls m (some st) ratio frames data = .error f → f = .outOfFuel ∨ (f = .oobRead ∧ low)) ∧
    ∀ n m' st' k, Release.srcCallbackRead cb dummy fuel calls m (some st) ratio frames data = .ok (n, m', st', k) →
      ∃ s, st' = some s ∧ RHeld co N inc B ch low s := by
  have key : ∀ e : ℤ, RHeld co N inc B ch low { st with error := e } := fun e =>
    ⟨H.any.change (alike_iff.2 ⟨rfl, rfl, rfl, rfl, rfl⟩) rfl, H.mode, H.saved⟩
  unfold Release.srcCallbackRead
  dsimp only
  split_ifs with h1 h2 h3 h4
  · refine ⟨fun f h => (by cases h), fun n m' st' k h => ?_⟩
    have h := ok_inj h
    simp only [Prod.mk.injEq] at h
    exact ⟨_, h.2.2.1.symm, H⟩
  · refine ⟨fun f h => (by cases h), fun n m' st' k h => ?_⟩
    have h := ok_inj h
    simp only [Prod.mk.injEq] at h
    exact ⟨_, h.2.2.1.symm, key _⟩
  · refine ⟨fun f h => (by cases h), fun n m' st' k h => ?_⟩
    have h := ok_inj h
    simp only [Prod.mk.injEq] at h
    exact ⟨_, h.2.2.1.symm, key _⟩
  · refine ⟨fun f h => (by cases h), fun n m' st' k h => ?_⟩
    have h := ok_inj h
    simp only [Prod.mk.injEq] at h
    exact ⟨_, h.2.2.1.symm, key _⟩
  have I0 : RLoop co N inc B ch low ratio frames { st := st, mem := m, d := cbData st ratio frames data, gen := 0, calls, err := 0 } :=
    ⟨H.any, H.mode, H.saved, rfl, le_rfl, by simp [cbData]⟩
  have hstep := fun s hs => release_cbStep (co := co) (N := N) (inc := inc) (B := B) (dummy := dummy) hcb hr hf hask (s := s) hs
  refine ⟨fun f h => ?_, fun n m' st' k h => ?_⟩
  · simp only [bind, Except.bind] at h
    split at h
    · rename_i g hg
      simp only [Except.error.injEq] at h
      subst h
      exact whileM_fault (fun f => f = .oobRead ∧ low) (RLoop co N inc B ch low ratio frames)
        (fun s hs => ⟨(hstep s hs).1, fun s' h => ((hstep s hs).2 _ _ h).1 rfl⟩) _ _ I0 _ hg
    · split at h <;> cases h
  · obtain ⟨r, hw, h⟩ := bind_ok h
    have hend := whileM_partial (RLoop co N inc B ch low ratio frames)
      (fun s => SAny co N inc B ch true low { s.st with mode := .process } ∧ s.st.mode = .callback ∧ samples ch s.d.inputFrames < 2 ^ 31)
      (fun s hs b s' h' => by
        obtain ⟨a1, a2⟩ := (hstep s hs).2 _ _ h'
        exact ⟨a1, fun _ => a2⟩) _ _ _ I0 hw
    split at h
    all_goals
      have h := ok_inj h
      simp only [Prod.mk.injEq] at h
      exact ⟨_, h.2.2.1.symm, hend.1.change (alike_iff.2 ⟨rfl, rfl, rfl, rfl, rfl⟩) rfl, hend.2.1, hend.2.2⟩

/-- One call on a callback handle. -/
theorem release_pull_op {op : Op} (hO : SincPull ch op) (hask : PullsBelow (1 / 180) op → low) {st : SrcState} (H : RHeld co N inc B ch low st) :
    (∀ f, Release.opRun st op = .error f → f = .outOfFuel ∨ (f = .oobRead ∧ low)) ∧
    ∀ o st', Release.opRun st op = .ok (o, st') → RHeld co N inc B ch low st' := by
  cases op with
  | process m d =>
    simp only [Release.opRun, Release.srcProcess]
    rw [if_pos (by rw [H.mode]; decide)]
    refine ⟨fun f h => (by cases h), fun o st' h => ?_⟩
    have h := ok_inj h
    simp only [Option.getD_some, Prod.mk.injEq] at h
    rw [← h.2]; exact H
  | read cb dummy fuel calls m ratio frames data =>
    obtain ⟨h1, h2⟩ := release_read (dummy := dummy) (fuel := fuel) (calls := calls) (m := m) (data := data) hO.2.2 hO.1 hO.2.1
      (fun t a b c => hask (Or.inr ⟨cb, dummy, fuel, calls, m, ratio, frames, data, t, rfl, a, b.1, c⟩)) H
    refine ⟨fun f h => ?_, fun o st' h => ?_⟩
    · simp only [Release.opRun, bind, Except.bind] at h
      split at h
      · rename_i g hg
        cases h
        exact h1 _ hg
      · cases h
    · obtain ⟨⟨n, m', s, k⟩, hr, h⟩ := bind_ok h
      obtain ⟨s', rfl, H'⟩ := h2 _ _ _ _ hr
      have h := ok_inj h
      simp only [Option.getD_some, Prod.mk.injEq] at h
      rw [← h.2]; exact H'
  | setRatio r =>
    obtain ⟨e, s, h1, h2⟩ := sinc_setRatio_any H.any (r := r) hO (low' := low) id
      (fun t a b c => hask (Or.inl ⟨r, t, Or.inl rfl, a, b.1, c⟩))
    refine ⟨fun f h => (by cases h), fun o st' h => ?_⟩
    simp only [Release.opRun, srcSetRatio] at h
    unfold srcSetRatio at h1
    dsimp only at h1
    by_cases hb : isBadSrcRatio r = true
    · rw [if_pos hb] at h
      have h := ok_inj h
      simp only [Option.getD_some, Prod.mk.injEq] at h
      rw [← h.2]; exact H
    · rw [if_neg hb] at h h1
      have h := ok_inj h
      simp only [Option.getD_some, Prod.mk.injEq] at h
      simp only [Prod.mk.injEq, Option.some.injEq] at h1
      rw [← h.2]
      rw [← h1.2] at h2
      exact ⟨h2, H.mode, H.saved⟩
  | reset =>
    refine ⟨fun f h => (by cases h), fun o st' h => ?_⟩
    have h := ok_inj h
    simp only [Prod.mk.injEq] at h
    rw [← h.2]
    obtain ⟨l, y, f, D, k, R, i, h, V, hseen, hL⟩ := H.any.view
    have A : SAny co N inc B ch true low (srcResetState { st with mode := .process }) :=
      ⟨rfl, H.any.hB, 0, y, _, _, _, _, _, B, sinc_reset_view V V.buf.hneg B, fun h => by simp [sincReset] at h, Or.inr (Or.inl rfl)⟩
    exact ⟨A.change (alike_iff.2 ⟨rfl, rfl, rfl, rfl, rfl⟩) rfl, H.mode, by simp [srcReset, srcResetState, samples]⟩

theorem release_pulls (ops : List Op) (hO : ∀ op ∈ ops, SincPull ch op) (hask : ∀ op ∈ ops, PullsBelow (1 / 180) op → low) :
    ∀ {st : SrcState}, RHeld co N inc B ch low st → ∀ f, Release.run ops st = .error f → f = .outOfFuel ∨ (f = .oobRead ∧ low) := by
  induction ops with
  | nil => intro st _ f h; cases h
  | cons op ops ih =>
    intro st H f h
    obtain ⟨a, b⟩ := release_pull_op (hO op (by simp)) (hask op (by simp)) H
    simp only [Release.run, bind, Except.bind] at h
    split at h
    · rename_i g hg
      cases h
      exact a _ hg
    · rename_i x hx
      obtain ⟨o, st1⟩ := x
      dsimp only at h
      split at h
      · rename_i g hg
        cases h
        exact ih (fun o ho => hO o (by simp [ho])) (fun o ho => hask o (by simp [ho])) (b _ _ hx) _ hg
      · cases h

end

/-- C63, callback reads: in a build without assertions a history of calls on a new callback handle of a sinc converter (sizes as in
`SincPull`, ratios not NaN, otherwise arbitrary) does one of three things: it runs to its end; a read is still running (`C39_sinc` says when
reads return); or a read accesses memory outside the history buffer, and that only if a ratio below 1/180 has been asked for. -/
theorem C63_reads (cfg : Config) (hL : LibraryTables cfg) (func : Option ℕ) (type : ℤ) (ht : SincType type) (ch ud : ℕ) (e : ℤ) (st : SrcState)
    (h : srcCallbackNew cfg func type ch ud = .ok (e, some st)) (ops : List Op) (hO : ∀ op ∈ ops, SincPull ch op) :
    (∃ os st', Release.run ops st = .ok (os, st')) ∨ Release.run ops st = .error .outOfFuel ∨
    (Release.run ops st = .error .oobRead ∧ ∃ op ∈ ops, PullsBelow (1 / 180) op) := by
  obtain ⟨st0, h0, rfl, _, hs⟩ := held_new h
  obtain ⟨t, hT, hd⟩ := sinc_table hL ht h0
  obtain ⟨B, f, G, hB, hk, V, hm, _⟩ := sinc_new_view (sg := none) (y := fun _ _ => zero32) hT hd h0 (fun _ _ _ => rfl) (3 * sincReach (t.count - 2) t.increment (1 / 256))
  have hne : f.bRealEnd < 0 := by
    rcases V.buf.hD with ⟨_, h, _⟩ | ⟨h, _⟩
    · exact h
    · omega
  have S : SAny t.coeffs (t.count - 2) t.increment B ch true (∃ op ∈ ops, PullsBelow (1 / 180) op) st0 :=
    ⟨hm, hB, 0, _, f, 0, 0, 0, 0, _, V, fun h => by omega, Or.inr (Or.inl rfl)⟩
  have H : RHeld t.coeffs (t.count - 2) t.increment B ch (∃ op ∈ ops, PullsBelow (1 / 180) op) { st0 with mode := .callback, callbackFunc := func, userData := ud } :=
    ⟨S.change (alike_iff.2 ⟨rfl, rfl, rfl, rfl, rfl⟩) rfl, rfl, by rw [hs]; simp [samples]⟩
  cases hrun : Release.run ops { st0 with mode := .callback, callbackFunc := func, userData := ud } with
  | ok x => exact Or.inl ⟨x.1, x.2, rfl⟩
  | error g =>
    right
    rcases release_pulls ops hO (fun op ho hp => ⟨op, ho, hp⟩) H g hrun with rfl | ⟨rfl, h1⟩
    · exact Or.inl rfl
    · exact Or.inr ⟨rfl, h1⟩

/-- Non-vacuity of `C63_reads`: a history with a read that returns. -/
example : ∃ e st os st', srcCallbackNew fastCfg (some 1) SRC_SINC_FASTEST (1 : ℕ) 0 = .ok (e, some st) ∧ (∀ op ∈ [listRead [3]], SincPull (1 : ℕ) op) ∧
    Release.run [listRead [3]] st = .ok (os, st') := by
  obtain ⟨e, st, o, st1, h1, h2, h3, h4, h5⟩ := pull_one listRead_outcome.2
  exact ⟨e, st, _, _, h1, fun op hop => by rw [List.mem_singleton.1 hop]; exact listRead_sincPull.1, C63_same _ _ _ _ h2⟩

end Verif
