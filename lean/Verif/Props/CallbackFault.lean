import Verif.Props.SincFault
import Verif.Props.CallbackSafe

/-! What can go wrong at all, on any handle (C62). -/

namespace Verif
open Spec

section
variable {cfg : Config} {type e0 : ℤ} {ch : ℕ} {st0 : SrcState} {cb : Callback} {ud calls : ℕ} {ratio : F64} {frames dummy : ℤ}
  {co : ℤ → F32} {N inc B : ℤ}

/-- A handle about which nothing is known but that it was made and used by the library. -/
def SWild (co : ℤ → F32) (N inc B : ℤ) (ch : ℕ) (st : SrcState) : Prop := SAny co N inc B ch true True st

theorem SWild.alike {st st' : SrcState} (S : SWild co N inc B ch st) (hA : Alike st st') (hm : st'.mode = .process) : SWild co N inc B ch st' := by
  obtain ⟨l, y, f, D, k, R, i, h, V, h1, h2⟩ := S.view
  exact ⟨hm, S.hB, l, y, f, D, k, R, i, h, V.alike hA, h1, h2⟩

/-- The faults of a sinc handle. -/
def SincBad (ch : ℕ) (f : Fault) : Prop := f = .oobRead ∨ (f = .assertFailed ∧ 2 ≤ ch)

theorem wild_process {st : SrcState} {d : SrcData} (S : SWild co N inc B ch st) (hO : SincSized ch d) (m : Mem) :
    (∃ e m' st' x', srcProcess m (some st) (some d) = .ok (e, m', some st', x') ∧ SWild co N inc B ch st') ∨
    ∃ e, srcProcess m (some st) (some d) = .error e ∧ SincBad ch e := by
  rcases sinc_process_any S hO m (low' := True) id (fun _ _ _ _ => trivial) with ⟨e, m', st', x', h1, h2⟩ | ⟨e, h1, h2⟩
  · exact Or.inl ⟨e, m', st', x', h1, h2⟩
  · exact Or.inr ⟨e, h1, h2.1⟩

structure WLoop (co : ℤ → F32) (N inc B : ℤ) (ch : ℕ) (st0 : SrcState) (cb : Callback) (ud calls : ℕ) (ratio : F64) (frames : ℤ) (s : CbSt) : Prop where
  held : HeldLoop ch st0 cb ud calls ratio frames s
  insize : samples ch s.d.inputFrames < 2 ^ 31
  hist : SWild co N inc B ch { s.st with mode := .process }

theorem cbStep_wild (hL : LibraryTables cfg) (hc : ch ≤ 8355967) (h0 : srcNew cfg type ch = .ok (e0, some st0))
    (hcb : ∀ ud c m, samples ch (cb ud c m).1 < 2 ^ 31) (hr : ratio ≠ .nan) (hf : samples ch frames ≤ 2 ^ 50)
    {s : CbSt} (H : WLoop co N inc B ch st0 cb ud calls ratio frames s) :
    (∀ f, cbStep cb dummy frames s = .error f → SincBad ch f) ∧ ∀ b s', cbStep cb dummy frames s = .ok (b, s') →
      (b = true → WLoop co N inc B ch st0 cb ud calls ratio frames s') ∧ SWild co N inc B ch { s'.st with mode := .process } ∧
      samples ch s'.d.inputFrames < 2 ^ 31 := by
  have hcb' := fun ud c m => samples_lt (hcb ud c m)
  have hf' : samples ch frames ≤ 2 ^ 52 := by norm_num at hf ⊢; omega
  have F := cbFetch_held (dummy := dummy) hcb' H.held
  have hst : (cbFetch cb dummy s).st = s.st := by unfold cbFetch; split_ifs <;> rfl
  have fin : samples ch (cbFetch cb dummy s).d.inputFrames < 2 ^ 31 := by
    unfold cbFetch
    split_ifs
    · exact hcb _ _ _
    · exact H.insize
  have hO : SincSized ch (cbFetch cb dummy s).d :=
    ⟨by rw [F.hrat]; exact hr, fin, le_trans (samples_mono (by rw [F.room]; have := F.gen0; omega)) hf⟩
  refine ⟨fun f hff => ?_, fun b s' h => ?_⟩
  · refine cbStep_fault (bad := SincBad ch) hL hc h0 hcb' hr hf' H.held (fun _ g hg => ?_) f hff
    rcases wild_process H.hist hO (cbFetch cb dummy s).mem with ⟨_, _, _, _, h1, _⟩ | ⟨e, h1, h2⟩
    · rw [h1] at hg; cases hg
    · rw [h1] at hg; cases hg; exact h2
  have hh := cbStep_held hL hc h0 hcb' hr hf' H.held h
  rcases cbStep_inv h with ⟨_, rfl, rfl⟩ | ⟨hg, e1, mem, st, d, hp1, hc1⟩
  · exact ⟨fun h => (by cases h), H.hist, H.insize⟩
  have hS : SWild co N inc B ch { st with mode := .process } := by
    rcases wild_process H.hist hO (cbFetch cb dummy s).mem with ⟨_, _, _, _, h1, h2⟩ | ⟨e, h1, h2⟩
    · rw [h1] at hp1
      have hp1' := ok_inj hp1
      simp only [Prod.mk.injEq, Option.some.injEq] at hp1'
      rw [hp1'.2.2.1] at h2
      exact h2.alike (alike_iff.2 ⟨rfl, rfl, rfl, rfl, rfl⟩) rfl
    · rw [h1] at hp1; cases hp1
  have hkeep : d.inputFrames = (cbFetch cb dummy s).d.inputFrames ∨ d.inputFrames = max (cbFetch cb dummy s).d.inputFrames 0 := process_keeps_in hp1
  have hin : samples ch d.inputFrames < 2 ^ 31 := by
    rcases hkeep with h | h <;> rw [h]
    · exact fin
    · rw [samples_max]; exact fin
  rcases hc1 with ⟨he, hb, c1, c2, c3, c4, c5, c6⟩ | ⟨he, hb, c1, c2, c3, c4, c5, c6⟩
  · exact ⟨fun h => (by rw [hb] at h; cases h), by rw [c3]; exact hS, by rw [c4]; exact hin⟩
  · subst he
    obtain ⟨ps, qs, p, Bk⟩ := H.held.back
    have hO' : Ordinary 1 ch (cbFetch cb dummy s).d :=
      ordinary_of (by rw [F.hrat]; exact hr) F.insize (le_trans (samples_mono (by rw [F.room]; have := F.gen0; omega)) hf')
    obtain ⟨o, p', B', _, _, _, _, hok⟩ := Bk.step hL hc h0 hO' hp1
    obtain ⟨hA, _, _, _⟩ := hok rfl
    have hin' : samples ch s'.d.inputFrames < 2 ^ 31 := by
      rw [c4]
      exact lt_of_le_of_lt (samples_mono (by dsimp only; have := hA.used0; omega)) hin
    exact ⟨fun h => ⟨hh.1 h, hin', by rw [c3]; exact hS⟩, by rw [c3]; exact hS, hin'⟩

/-- A read on a sinc handle. -/
theorem read_sinc_wild (hL : LibraryTables cfg) (hc : ch ≤ 8355967) (h0 : srcNew cfg type ch = .ok (e0, some st0))
    (hcb : ∀ ud c m, samples ch (cb ud c m).1 < 2 ^ 31) (hr : ratio ≠ .nan) (hf : samples ch frames ≤ 2 ^ 50)
    {st : SrcState} (H : Held ch st0 st) (hs : samples ch st.savedFrames < 2 ^ 31)
    (S : SWild co N inc B ch { st with mode := .process }) {m : Mem} {data : ℤ} {fuel : ℕ} :
    (∀ f, srcCallbackRead cb dummy fuel calls m (some st) ratio frames data = .error f → f = .outOfFuel ∨ SincBad ch f) ∧
    ∀ n m' st' k, srcCallbackRead cb dummy fuel calls m (some st) ratio frames data = .ok (n, m', some st', k) →
      SWild co N inc B ch { st' with mode := .process } ∧ samples ch st'.savedFrames < 2 ^ 31 := by
  have I0 : 0 < frames → WLoop co N inc B ch st0 cb st.userData calls ratio frames
      { st := st, mem := m, d := cbData st ratio frames data, gen := 0, calls, err := 0 } := fun hf0 =>
    ⟨⟨H.back, H.saved, rfl, rfl, le_rfl, by dsimp only; omega, by simp [cbData], le_rfl, fun h => by simp [cbData] at h, rfl⟩, hs, S⟩
  refine ⟨read_fault (bad := fun f => f = .outOfFuel ∨ SincBad ch f) fun hf0 hb => ?_, fun n m' st' k h => ?_⟩
  · refine whileM_fault (SincBad ch) (WLoop co N inc B ch st0 cb st.userData calls ratio frames) (fun s hs => ?_) _ _ (I0 hf0)
    obtain ⟨a, b⟩ := cbStep_wild (dummy := dummy) hL hc h0 hcb hr hf hs
    exact ⟨a, fun s' h => (b _ _ h).1 rfl⟩
  · unfold srcCallbackRead at h
    dsimp only at h
    iterate 4
      split at h
      · have h := ok_inj h; simp only [Prod.mk.injEq, Option.some.injEq] at h
        obtain ⟨_, _, rfl, rfl⟩ := h
        exact ⟨S.alike (alike_iff.2 ⟨rfl, rfl, rfl, rfl, rfl⟩) rfl, hs⟩
    rename_i hfr _ _ hb
    obtain ⟨r, hw, h⟩ := bind_ok h
    have hend := whileM_partial (WLoop co N inc B ch st0 cb st.userData calls ratio frames)
      (fun s => SWild co N inc B ch { s.st with mode := .process } ∧ samples ch s.d.inputFrames < 2 ^ 31)
      (fun s hs b s' h' => by
        obtain ⟨a1, a2⟩ := (cbStep_wild (dummy := dummy) hL hc h0 hcb hr hf hs).2 _ _ h'
        exact ⟨a1, fun _ => a2⟩) _ _ _ (I0 (by omega)) hw
    split at h
    all_goals
      have h := ok_inj h; simp only [Prod.mk.injEq, Option.some.injEq] at h
      obtain ⟨_, _, rfl, rfl⟩ := h
      exact ⟨hend.1.alike (alike_iff.2 ⟨rfl, rfl, rfl, rfl, rfl⟩) rfl, hend.2⟩

/-- A fault of a history comes from one of its calls. -/
theorem run_fault (I : SrcState → Prop) (bad : Fault → Prop) (P : Op → Prop)
    (hop : ∀ op st, P op → I st → (∀ f, op.run st = .error f → bad f) ∧ ∀ o st', op.run st = .ok (o, st') → I st') :
    ∀ (ops : List Op) {st : SrcState}, I st → (∀ op ∈ ops, P op) → ∀ f, run ops st = .error f → bad f := by
  intro ops
  induction ops with
  | nil => intro st _ _ f hf; cases hf
  | cons op ops ih =>
    intro st hI hP f hf
    obtain ⟨a, b⟩ := hop op st (hP op (by simp)) hI
    simp only [run, bind, Except.bind] at hf
    split at hf
    · rename_i g hg
      cases hf
      exact a _ hg
    · rename_i v hv
      obtain ⟨o, s1⟩ := v
      dsimp only at hf
      split at hf
      · rename_i g hg
        cases hf
        exact ih (b _ _ hv) (fun o ho => hP o (by simp [ho])) _ hg
      · cases hf

theorem sincPull_ordinary {op : Op} (h : SincPull ch op) : OrdinaryPull ch op := by
  cases op with
  | read cb dummy fuel calls m ratio frames data =>
    exact ⟨h.1, by have := h.2.1; norm_num at this ⊢; omega, fun ud c m => samples_lt (h.2.2 ud c m)⟩
  | _ => exact h

/-- In callback mode only a read can have a fault. -/
theorem callback_op_fault {op : Op} {st : SrcState} (hm : st.mode = .callback) {f : Fault} (h : op.run st = .error f) :
    ∃ cb dummy fuel calls m ratio frames data, op = .read cb dummy fuel calls m ratio frames data ∧
      srcCallbackRead cb dummy fuel calls m (some st) ratio frames data = .error f := by
  cases op with
  | read cb dummy fuel calls m ratio frames data =>
    refine ⟨_, _, _, _, _, _, _, _, rfl, ?_⟩
    simp only [Op.run, bind, Except.bind] at h
    split at h
    · rename_i g hg; cases h; exact hg
    · cases h
  | process m d =>
    simp only [Op.run, srcProcess] at h
    rw [if_pos (by rw [hm]; decide)] at h
    cases h
  | setRatio r => cases h
  | reset => cases h

theorem sinc_pull_fault (hL : LibraryTables cfg) (hc : ch ≤ 8355967) (h0 : srcNew cfg type ch = .ok (e0, some st0)) {stc : SrcState}
    (hm : stc.mode = .callback) (ops : List Op) {st : SrcState} (H : Held ch st0 st) (L : Like stc st) (hs : samples ch st.savedFrames < 2 ^ 31)
    (S : SWild co N inc B ch { st with mode := .process }) (hO : ∀ op ∈ ops, SincPull ch op) {f : Fault} (hf : run ops st = .error f) :
    f = .outOfFuel ∨ SincBad ch f := by
  refine run_fault (fun st => Held ch st0 st ∧ Like stc st ∧ samples ch st.savedFrames < 2 ^ 31 ∧ SWild co N inc B ch { st with mode := .process })
    (fun f => f = .outOfFuel ∨ SincBad ch f) (SincPull ch) ?_ ops ⟨H, L, hs, S⟩ hO f hf
  rintro op st hO ⟨H, L, hs, S⟩
  refine ⟨fun f hf => ?_, fun o st' h => ?_⟩
  · obtain ⟨cb, dummy, fuel, calls, m, ratio, frames, data, rfl, h⟩ := callback_op_fault (L.mode.trans hm) hf
    exact (read_sinc_wild hL hc h0 hO.2.2 hO.1 hO.2.1 H hs S).1 _ h
  · have H' := (op_held hL hc h0 H (L.mode.trans hm) (sincPull_ordinary hO) h).1
    refine ⟨H', op_like L h, ?_⟩
    cases op with
    | read cb dummy fuel calls m ratio frames data =>
      obtain ⟨⟨n, m', s, k⟩, hr, h⟩ := bind_ok h
      obtain ⟨s', rfl, _⟩ := read_held hL hc h0 (fun ud c m => samples_lt (hO.2.2 ud c m)) hO.1 (by have := hO.2.1; norm_num at this ⊢; omega) H hr
      have h := ok_inj h; simp only [Prod.mk.injEq] at h
      obtain ⟨_, rfl⟩ := h
      obtain ⟨a, b⟩ := (read_sinc_wild hL hc h0 hO.2.2 hO.1 hO.2.1 H hs S).2 _ _ _ _ hr
      exact ⟨b, a⟩
    | process m d =>
      simp only [Op.run, srcProcess] at h
      rw [if_pos (by rw [L.mode.trans hm]; decide)] at h
      have h := ok_inj h; simp only [Prod.mk.injEq] at h
      obtain ⟨_, rfl⟩ := h
      exact ⟨hs, S⟩
    | setRatio r =>
      obtain ⟨e, s, w1, w2⟩ := sinc_setRatio_any S hO (low' := True) id (fun _ _ _ _ => trivial)
      simp only [Op.run, srcSetRatio] at h
      unfold srcSetRatio at w1
      dsimp only at w1
      split at h
      · have h := ok_inj h; simp only [Option.getD_some, Prod.mk.injEq] at h
        rw [← h.2]
        exact ⟨hs, S⟩
      · rename_i hb
        rw [if_neg hb] at w1
        have h := ok_inj h; simp only [Option.getD_some, Prod.mk.injEq] at h
        simp only [Prod.mk.injEq, Option.some.injEq] at w1
        rw [← w1.2] at w2
        rw [← h.2]
        exact ⟨hs, w2⟩
    | reset =>
      have h := ok_inj h; simp only [Prod.mk.injEq] at h
      obtain ⟨_, rfl⟩ := h
      obtain ⟨l, y, f, D, k, R, i, h, V, hseen, hlo⟩ := S.view
      refine ⟨by simp [srcResetState, samples], ?_⟩
      have W : SWild co N inc B ch (srcResetState { st with mode := .process }) :=
        ⟨rfl, S.hB, 0, y, _, _, _, _, _, B, sinc_reset_view V V.buf.hneg B, fun h => by simp [sincReset] at h, Or.inl trivial⟩
      exact W.alike (alike_iff.2 ⟨rfl, rfl, rfl, rfl, rfl⟩) rfl

end

/-- C62: a history of `src_process`, `src_set_ratio` and `src_reset` calls on a new handle of any type (ratios not NaN, sizes as in
`SincSized`, otherwise arbitrary) never writes outside a buffer, overflows an `int`, divides by zero or loops for ever.  What can
happen is a read outside a buffer (not with zero order hold), or a failed assertion in a sinc converter with several channels; `C07_exact`,
`C07_faults` and `C08_faults` tell when. -/
theorem C62 (cfg : Config) (hL : LibraryTables cfg) (type e : ℤ) (ch : ℕ) (st : SrcState) (hc : ch ≤ 8355967)
    (h : srcNew cfg type ch = .ok (e, some st)) (ops : List Op) (hO : ∀ op ∈ ops, SizedOp ch op) :
    (∃ os st', run ops st = .ok (os, st')) ∨ ∃ f, run ops st = .error f ∧ Excused type ch f := by
  have hO' : ∀ op ∈ ops, OrdinaryOp 1 ch op := by
    intro op hop
    have := hO op hop
    rcases op with ⟨m, _ | d⟩ | _ | r | _
    · exact .process _ _ (by simp)
    · exact .process _ _ (by rintro x ⟨⟩; have := sincSized_ordinary this; exact ⟨this.ratio, this.inSize, this.outSize, by omega⟩)
    · exact absurd this (by simp [SizedOp])
    · exact .setRatio _ this
    · exact .reset
  rcases new_type h with (rfl | rfl) | ht
  · exact Or.inl (C06 cfg ch hc e st h ops hO')
  · exact (C07_faults cfg ch hc e st h ops hO').imp_right fun h => ⟨_, h.1, Or.inl ⟨rfl, by decide⟩⟩
  · refine (C08_faults cfg hL type ht ch e st h ops hO).imp_right ?_
    rintro ⟨f, _, _, _, _, _, _, _, _, h1, _, h2, _⟩
    refine ⟨f, h1, h2.imp (fun h => ⟨h, ?_⟩) fun h => ⟨h.1, ht, h.2⟩⟩
    rcases ht with rfl | rfl | rfl <;> decide

/-- C62 for the callback interface: the same for histories of `src_callback_read`, `src_set_ratio`, `src_reset` and (rejected)
`src_process` calls on a handle of `src_callback_new`, with any callbacks.  (`outOfFuel`: a read did not return within the number of
iterations given; C39 tells when reads return.) -/
theorem C62_callback (cfg : Config) (hL : LibraryTables cfg) (func : Option ℕ) (type e : ℤ) (ch ud : ℕ) (st : SrcState) (hc : ch ≤ 8355967)
    (h : srcCallbackNew cfg func type ch ud = .ok (e, some st)) (ops : List Op) (hO : ∀ op ∈ ops, SincPull ch op) :
    (∃ os st', run ops st = .ok (os, st')) ∨ ∃ f, run ops st = .error f ∧ (f = .outOfFuel ∨ Excused type ch f) := by
  cases hf : run ops st with
  | ok r => exact Or.inl ⟨r.1, r.2, rfl⟩
  | error f =>
    refine Or.inr ⟨f, rfl, ?_⟩
    have L := created_like (.callbackNew _ _ _ _ _ _ h)
    obtain ⟨st0, h0, rfl, H, hs⟩ := held_new h
    have interp : ∀ K : Kind, type = K.type → f = .outOfFuel ∨ (K = .linear ∧ f = .oobRead) := by
      intro K hK
      refine run_fault (fun s => Held ch st0 s ∧ Like { st0 with mode := .callback, callbackFunc := func, userData := ud } s)
        (fun f => f = .outOfFuel ∨ (K = .linear ∧ f = .oobRead)) (SincPull ch) ?_ ops ⟨H, L⟩ hO f hf
      rintro op s hO ⟨H, L⟩
      refine ⟨fun f hf => ?_, fun o s' h => ⟨(op_held hL hc h0 H (L.mode.trans rfl) (sincPull_ordinary hO) h).1, op_like L h⟩⟩
      obtain ⟨cb, dummy, fuel, calls, m, ratio, frames, data, rfl, h⟩ := callback_op_fault (L.mode.trans rfl) hf
      have hO' := sincPull_ordinary hO
      exact read_interp_fault hK hL hc h0 hO'.2.2 hO'.1 hO'.2.1 H h
    rcases new_type h0 with (ht | ht) | ht
    · rcases interp .zoh ht with h | ⟨h, _⟩
      · exact Or.inl h
      · cases h
    · rcases interp .linear ht with h | ⟨_, h⟩
      · exact Or.inl h
      · exact Or.inr (Or.inl ⟨h, by rw [ht]; decide⟩)
    · obtain ⟨t, hT, hd⟩ := sinc_table hL ht h0
      obtain ⟨B, f', G, hB, hk, V, hm, _⟩ := sinc_new_view (sg := none) (y := fun _ _ => zero32) hT hd h0 (fun _ _ _ => rfl) (3 * sincReach (t.count - 2) t.increment (1 / 256))
      have S : SWild t.coeffs (t.count - 2) t.increment B ch st0 := ⟨hm, hB, 0, _, f', 0, 0, 0, 0, _, V, fun _ => rfl, Or.inl trivial⟩
      have S' : SWild t.coeffs (t.count - 2) t.increment B ch { st0 with mode := .process, callbackFunc := func, userData := ud } :=
        S.alike (alike_iff.2 ⟨rfl, rfl, rfl, rfl, rfl⟩) rfl
      have := sinc_pull_fault hL hc h0 (stc := { st0 with mode := .callback, callbackFunc := func, userData := ud }) rfl ops H L
        (by rw [hs]; simp [samples]) S' hO hf
      refine this.imp_right fun h => h.imp (fun h => ⟨h, ?_⟩) fun h => ⟨h.1, ht, h.2⟩
      rcases ht with rfl | rfl | rfl <;> decide

/-- Non-vacuity of `C62` and `C62_callback`: the histories of `C08_flush_drop` and `C58_sinc`, one of which ends in a fault. -/
example : (∃ e st, srcNew fastCfg SRC_SINC_FASTEST (2 : ℕ) = .ok (e, some st) ∧
      run [plainCall 6 1 one64 1, .setRatio (Fl.div (dbl 43) (dbl 50)), plainCall 0 5 (Fl.div (dbl 43) (dbl 50)) 0] st = .error .assertFailed) ∧
    (∀ op ∈ [plainCall 6 1 one64 1, .setRatio (Fl.div (dbl 43) (dbl 50)), plainCall 0 5 (Fl.div (dbl 43) (dbl 50)) 0], SizedOp (2 : ℕ) op) ∧
    Excused SRC_SINC_FASTEST 2 .assertFailed ∧
    (∃ e st o st1, srcCallbackNew fastCfg (some 1) SRC_SINC_FASTEST (1 : ℕ) 0 = .ok (e, some st) ∧ run [listRead [3]] st = .ok ([o], st1)) ∧
    ∀ op ∈ [listRead [3]], SincPull 1 op := by
  refine ⟨outcome_fault C08_flush_drop ?_, ?_, Or.inr ⟨rfl, Or.inr (Or.inr rfl), le_rfl⟩, ?_, fun op hop => ?_⟩
  · obtain ⟨st, h⟩ := sinc_new_ok fastCfg_tables (type := SRC_SINC_FASTEST) (Or.inr (Or.inr rfl)) rfl (ch := 2) (by norm_num) (by norm_num)
    exact ⟨_, h⟩
  · simp only [List.mem_cons, List.not_mem_nil, or_false, forall_eq_or_imp, forall_eq]
    exact ⟨plainCall_sized one64_ne_nan (by decide) (by decide), ratio086_ne_nan, plainCall_sized ratio086_ne_nan (by decide) (by decide)⟩
  · obtain ⟨e, st, o, st1, h1, h2, _⟩ := pull_one listRead_outcome.2
    exact ⟨e, st, o, st1, h1, h2⟩
  · rw [List.mem_singleton.1 hop]
    exact listRead_sincPull.1

end Verif
