import Verif.Proof.ReleaseSinc
import Verif.Props.CallbackFault

/-! Builds without assertions (C63). -/

namespace Verif
open Spec

section
variable {co : ℤ → F32} {N inc B : ℤ} {ch : ℕ} {st : SrcState} {d : SrcData}

theorem process_some {m m' : Mem} {e : ℤ} {st' : Option SrcState} {x' : Option SrcData} (hm : st.mode = .process)
    (h : srcProcess m (some st) (some d) = .ok (e, m', st', x')) : ∃ x, x' = some x := by
  unfold srcProcess at h
  dsimp only at h
  rw [if_neg (by simp [hm])] at h
  obtain ⟨r, _, h⟩ := bind_ok h
  have h := ok_inj h
  simp only [Prod.mk.injEq] at h
  exact ⟨_, h.2.2.2.symm⟩

theorem release_process_any {seen : Bool} {low low' : Prop} (S : SAny co N inc B ch seen low st) (hO : SincSized ch d) (m : Mem)
    (hlow : low → low') (hask : ∀ t, d.srcRatio.val = some t → ValidRatio t → t < 1 / 180 → low') :
    (∃ e m' st' x', Release.srcProcess m (some st) (some d) = .ok (e, m', some st', some x') ∧
      SAny co N inc B ch (seen || decide (d.endOfInput ≠ 0)) low' st' ∧ samples ch x'.inputFrames < 2 ^ 31 ∧
      (e = 0 → x'.srcRatio = d.srcRatio ∧ 0 ≤ x'.inputFramesUsed ∧ x'.inputFramesUsed ≤ x'.inputFrames ∧ 0 ≤ x'.outputFramesGen ∧
        x'.outputFramesGen ≤ x'.outputFrames ∧ x'.outputFrames = max d.outputFrames 0)) ∨
    (Release.srcProcess m (some st) (some d) = .error .oobRead ∧ d.endOfInput ≠ 0 ∧ low') := by
  obtain ⟨l, y, f, D, k, R, i, h, V, hseen, hL⟩ := S.view
  have hmode := S.mode
  rcases ordinary_cases V.hch hmode (sincSized_ordinary hO) with ⟨e, hf⟩ | ⟨_, _, _, t, g⟩
  · obtain ⟨d', hd'⟩ := process_rejects (m := m) hf (by
      rintro s y h1 h2; cases h1; cases h2
      have b1 := hO.inSize
      have b2 := hO.outSize
      rw [V.hch]
      exact ⟨by positivity, by omega, by omega⟩)
    obtain ⟨d', rfl⟩ := process_some hmode hd'
    refine Or.inl ⟨e, m, st, d', srcProcess_le _ _ _ _ hd', ⟨hmode, S.hB, l, y, f, D, k, R, i, h, V, fun h => by rw [hseen h]; rfl, hL.imp_left hlow⟩, ?_,
      fun he => absurd he (by cases hf <;> simp_all)⟩
    rcases process_keeps_in hd' with h | h <;> rw [h]
    · exact hO.inSize
    · rw [samples_max]; exact hO.inSize
  have s1 : samples ch d.inputFrames = ((ch * d.inputFrames.toNat : ℕ) : ℤ) := by
    unfold samples
    rw [show max d.inputFrames 0 = (d.inputFrames.toNat : ℤ) by omega]; push_cast; ring
  have b1 := hO.inSize
  rw [s1] at b1
  have b1 : ch * d.inputFrames.toNat < 2147483648 := by exact_mod_cast b1
  have b2 := sized_out hO
  generalize hnn : d.inputFrames.toNat = n at *
  generalize hoo : d.outputFrames.toNat = o at *
  have vs := startRatio_valid V.vl g.vt
  have hrepL : Rep0 f64 (startRatio l t) := by
    unfold startRatio; split_ifs
    · exact rep64_val g.ht
    · exact rep64_val V.hl
  obtain ⟨H, hH⟩ : ∃ H, H = sincReach N inc (min (startRatio l t) t) := ⟨_, rfl⟩
  -- the ratios of the call
  have hlo : low' ∨ 1 / 180 ≤ min (startRatio l t) t := by
    by_cases ht : t < 1 / 180
    · exact Or.inl (hask t g.ht g.vt ht)
    push Not at ht
    rcases hL with h1 | h1 | h1
    · exact Or.inl (hlow h1)
    · refine Or.inr (le_min ?_ ht)
      unfold startRatio; rw [if_pos h1]; exact ht
    · refine Or.inr (le_min ?_ ht)
      unfold startRatio; split_ifs
      · exact ht
      · exact h1
  -- the stream as far as this call sees it
  obtain ⟨y', hy1, hy2, hy3⟩ : ∃ y' : ℤ → ℕ → F32, (∀ z : ℤ, (z < R ∨ 0 ≤ f.bRealEnd) → y' z = y z) ∧
      (f.bRealEnd < 0 → ∀ j c : ℕ, j < n → c < ch → m (d.dataIn + ((ch * j + c : ℕ) : ℤ)) = y' ((R + j : ℕ) : ℤ) c) ∧
      (f.bRealEnd < 0 → ∀ z : ℤ, ((R + n : ℕ) : ℤ) ≤ z → ∀ c, y' z c = zero32) := by
    by_cases he : 0 ≤ f.bRealEnd
    · exact ⟨y, fun _ _ => rfl, fun h => by omega, fun h => by omega⟩
    · refine ⟨extendBy y m d ch R n, fun z hz => ?_, fun _ j c hj hc => ?_, fun _ z hz c => ?_⟩
      · funext c
        unfold extendBy
        rw [if_pos (by omega)]
      · unfold extendBy
        rw [if_neg (by omega), if_pos (by omega)]
        rw [show (((R + j : ℕ) : ℤ) - (R : ℤ)).toNat = j by omega]
      · unfold extendBy
        rw [if_neg (by omega), if_neg (by omega)]
  have V' := V.congr hy1
  by_cases hT : 0 ≤ f.bRealEnd ∨ d.endOfInput = 0 ∨ Release.srcProcess m (some st) (some d) ≠ .error .oobRead
  · left
    obtain ⟨s, uu, gen, D', w1, I, _, W⟩ := release_call (m := m) V' hmode g b1 hH hy2 (fun he hz => hy3 he) hT
    refine ⟨_, _, _, _, w1, ⟨hmode, S.hB, _, _, _, _, _, _, _, _, W, ?_, ?_⟩, ?_, fun _ => ⟨rfl, ?_, ?_, ?_, ?_, ?_⟩⟩
    · intro he
      rcases (I.ended he).2 with h1 | ⟨_, h1⟩
      · rw [hseen h1]; rfl
      · simp [h1]
    rotate_left
    · have := hO.inSize
      rw [← samples_max] at this
      simp only [callData, clampFrames]
      rw [clamp_toNat, hnn]
      rwa [show max d.inputFrames 0 = (n : ℤ) by omega] at this
    · simp [callData]
    · simp only [callData, clampFrames]
      rw [clamp_toNat, hnn]
      have := I.hu
      omega
    · simp [callData]
    · simp only [callData, clampFrames]
      rw [clamp_toNat, hoo]
      have := I.hg
      omega
    · simp only [callData, clampFrames]
      rw [clamp_toNat]
      omega
    · refine hlo.imp_right fun h1 => Or.inr (h1.trans ?_)
      split_ifs with hg0
      · exact min_le_left _ _
      · exact (sincRatioAt_between hrepL (rep64_val g.ht) vs g.vt V.hch1 (by have := I.hg; omega) b2).1
  · right
    push Not at hT
    obtain ⟨hne, h2, h3⟩ := hT
    refine ⟨h3, h2, hlo.resolve_right fun h1 => ?_⟩
    -- with high ratios and before the end of the input the call cannot fail
    have h4 := V.geo.reach_floor S.hB h1
    rw [← hH] at h4
    have hch1 : (1 : ℤ) ≤ ch := by exact_mod_cast V.hch1
    have hroom : 4 * (ch * H) + 5 ≤ ch * B + 1 := by
      have : (ch : ℤ) * (4 * H + 4) ≤ ch * B := mul_le_mul_of_nonneg_left h4 (by omega)
      nlinarith
    obtain ⟨s, uu, gen, D', w1, _⟩ := sinc_call (m := m) (V'.guarded (sg' := some H) hne) hmode g b1 hH hy2
      (fun he hz => ⟨fun Q hQ => ⟨by cases hQ; rfl, Or.inr hroom⟩, hy3 he⟩) (fun he => by omega) (Or.inl rfl)
    rw [srcProcess_le _ _ _ _ w1] at h3
    cases h3

/-- Histories. -/
theorem release_history_any (ops : List Op) (hO : ∀ op ∈ ops, SizedOp ch op) : ∀ {st : SrcState} {seen : Bool} {low : Prop}, SAny co N inc B ch seen low st →
    (∃ os st', Release.run ops st = .ok (os, st')) ∨
    ∃ pre m d post os st', ops = pre ++ .process m (some d) :: post ∧ Release.run pre st = .ok (os, st') ∧ Release.run ops st = .error .oobRead ∧
      Release.srcProcess m (some st') (some d) = .error .oobRead ∧ d.endOfInput ≠ 0 ∧
      (low ∨ ∃ op ∈ pre ++ [.process m (some d)], AsksBelow (1 / 180) op) := by
  induction ops with
  | nil => intro st _ _ _; exact Or.inl ⟨[], st, rfl⟩
  | cons op ops ih =>
    intro st seen low S
    have hop := hO op (List.mem_cons_self ..)
    -- after a first call that does not fail
    have key : ∀ {seen1 : Bool} {low1 : Prop} {o : Obs} {st1 : SrcState}, Release.opRun st op = .ok (o, st1) → SAny co N inc B ch seen1 low1 st1 →
        (low1 → low ∨ AsksBelow (1 / 180) op) →
        (∃ os st', Release.run (op :: ops) st = .ok (os, st')) ∨
        ∃ pre m d post os st', op :: ops = pre ++ .process m (some d) :: post ∧ Release.run pre st = .ok (os, st') ∧
          Release.run (op :: ops) st = .error .oobRead ∧ Release.srcProcess m (some st') (some d) = .error .oobRead ∧ d.endOfInput ≠ 0 ∧
          (low ∨ ∃ op ∈ pre ++ [.process m (some d)], AsksBelow (1 / 180) op) := by
      intro seen1 low1 o st1 h1 S1 h3
      rcases ih (fun op h => hO op (List.mem_cons_of_mem _ h)) S1 with ⟨os, st', h4⟩ | ⟨pre, m, d, post, os, st', h4, h5, h6, h7, h8, h9⟩
      · refine Or.inl ⟨o :: os, st', ?_⟩
        simp only [Release.run, h1, bind, Except.bind, h4]
        rfl
      · refine Or.inr ⟨op :: pre, m, d, post, o :: os, st', by rw [h4]; rfl, ?_, ?_, h7, h8, ?_⟩
        · simp only [Release.run, h1, bind, Except.bind, h5]
          rfl
        · simp only [Release.run, h1, bind, Except.bind, h6]
        · rcases h9 with h9 | ⟨q, hq, h9⟩
          · rcases h3 h9 with h10 | h10
            · exact Or.inl h10
            · exact Or.inr ⟨op, by simp, h10⟩
          · exact Or.inr ⟨q, by rw [List.cons_append]; exact List.mem_cons_of_mem _ hq, h9⟩
    rcases op with ⟨m, _ | d⟩ | _ | r | _
    · refine key (seen1 := seen) (low1 := low) (o := ⟨3, some m, none, 0, srcError (some st), srcGetChannels (some st)⟩) (st1 := st) ?_ S Or.inl
      have hm := S.mode
      simp only [Release.opRun, Release.srcProcess]
      rw [if_neg (by simp [hm])]; rfl
    · have hlow' : ∀ t, d.srcRatio.val = some t → ValidRatio t → t < 1 / 180 → low ∨ AsksBelow (1 / 180) (.process m (some d)) :=
        fun t h1 h2 h3 => Or.inr ⟨_, t, Or.inr ⟨m, d, rfl, rfl⟩, h1, h2.1, h3⟩
      rcases release_process_any S hop m (low' := low ∨ AsksBelow (1 / 180) (.process m (some d))) Or.inl hlow' with ⟨e, m', st', x', h1, h2, _⟩ | ⟨h1, h2, h3⟩
      · exact key (o := ⟨e, some m', some x', 0, srcError (some st'), srcGetChannels (some st')⟩) (by simp only [Release.opRun, h1]; rfl) h2 id
      · refine Or.inr ⟨[], m, d, ops, [], st, rfl, rfl, ?_, h1, h2, ?_⟩
        · simp only [Release.run, Release.opRun, h1, bind, Except.bind]
        · exact h3.imp_right fun h => ⟨_, by simp, h⟩
    · exact absurd hop (by simp [SizedOp])
    · have hlow' : ∀ t, r.val = some t → ValidRatio t → t < 1 / 180 → low ∨ AsksBelow (1 / 180) (.setRatio r) :=
        fun t h1 h2 h3 => Or.inr ⟨_, t, Or.inl rfl, h1, h2.1, h3⟩
      obtain ⟨e, st', h1, h2⟩ := sinc_setRatio_any S hop (low' := low ∨ AsksBelow (1 / 180) (.setRatio r)) Or.inl hlow'
      exact key (o := ⟨e, none, none, 0, srcError (some st'), srcGetChannels (some st')⟩) (by simp only [Release.opRun, h1]; rfl) h2 id
    · obtain ⟨l, y, f, D, k, R, i, h, V, hseen, hL⟩ := S.view
      exact key (seen1 := false) (low1 := low) rfl ⟨S.mode, S.hB, 0, y, _, _, _, _, _, B, sinc_reset_view V V.buf.hneg B, fun h => by simp [sincReset] at h, Or.inr (Or.inl rfl)⟩
        Or.inl

end

/-! ### The zero order hold and linear converters -/

theorem whileM_same {σ : Type} {f g : σ → M (Bool × σ)} (I : σ → Prop) (hfg : ∀ s, I s → f s = g s)
    (hI : ∀ s b s', I s → g s = .ok (b, s') → I s') : ∀ n s, I s → whileM f n s = whileM g n s := by
  intro n
  induction n with
  | zero => intro s _; rfl
  | succ n ih =>
    intro s hs
    rw [whileM, whileM, hfg s hs]
    cases h : g s with
    | error e => rfl
    | ok x =>
      obtain ⟨b, s'⟩ := x
      have := ih s' (hI s b s' hs h)
      simp only [bind, Except.bind]
      rw [this]

/-- A handle of a converter without assertions. -/
def Plain (st : SrcState) : Prop := st.vt = .zoh ∨ st.vt = .linear

theorem srcProcess_plain {st : SrcState} (h : Plain st) (m : Mem) (d : Option SrcData) :
    Release.srcProcess m (some st) d = srcProcess m (some st) d := by
  have hv : ∀ (m : Mem) (st' : SrcState) (d : SrcData), st'.vt = st.vt → Release.variProcess m st' d = variProcess m st' d := by
    intro m st' d hs
    unfold Release.variProcess variProcess
    rw [hs]
    rcases h with h | h <;> rw [h]
  have hd : ∀ d, Release.srcProcessData m st d = srcProcessData m st d := by
    intro d
    unfold Release.srcProcessData srcProcessData
    simp only [constProcess, ite_self]
    rw [hv]
    split_ifs <;> rfl
  unfold Release.srcProcess srcProcess
  cases d with
  | none => rfl
  | some d => dsimp only; rw [hd]

theorem opRun_plain {st0 st : SrcState} (L : Like st0 st) (h : Plain st0) (op : Op) : Release.opRun st op = op.run st := by
  have hp : Plain st := by unfold Plain; rw [L.vt]; exact h
  cases op with
  | process m d => simp only [Release.opRun, Op.run, srcProcess_plain hp]
  | setRatio r => rfl
  | reset => rfl
  | read cb dummy fuel calls m ratio frames data =>
    simp only [Release.opRun, Op.run]
    congr 1
    unfold Release.srcCallbackRead srcCallbackRead
    dsimp only
    split_ifs with h1 h2 h3 h4
    · rfl
    · rfl
    · rfl
    · rfl
    have h0 : st0.mode = .callback := by rw [← L.mode]; simpa using h2
    rw [whileM_same (fun s : CbSt => Like st0 s.st) (fun s hs => ?_) (fun s b s' hI h => cbStep_like h0 hI h) _ _ L]
    have hst : (cbFetch cb dummy s).st = s.st := by unfold cbFetch; split_ifs <;> rfl
    have hp' : Plain { s.st with mode := Mode.process } := by unfold Plain; dsimp only; rw [hs.vt]; exact h
    unfold Release.cbStep cbStep
    dsimp only
    rw [hst, srcProcess_plain hp']

theorem run_plain {st0 : SrcState} (h : Plain st0) (ops : List Op) : ∀ {st : SrcState}, Like st0 st → Release.run ops st = run ops st := by
  induction ops with
  | nil => intro st _; rfl
  | cons op ops ih =>
    intro st L
    simp only [run, Release.run]
    rw [opRun_plain L h]
    cases h1 : op.run st with
    | error e => rfl
    | ok x =>
      obtain ⟨o, st1⟩ := x
      simp only [bind, Except.bind]
      rw [ih (op_like L h1)]

/-- C63, zero order hold and linear: on a handle of these converters, of either API, a build without assertions does exactly what the
asserting build does, faults included. -/
theorem C63_interp (cfg : Config) (st : SrcState) (hc : Created cfg st) (hp : st.vt = .zoh ∨ st.vt = .linear) (ops : List Op) :
    Release.run ops st = run ops st :=
  run_plain hp ops (created_like hc)

/-- C63, same results: whatever a history of calls (of either API, on any handle) returns in a build with assertions, it returns in a
build without. -/
theorem C63_same (st : SrcState) (ops : List Op) (os : List Obs) (st' : SrcState) (h : run ops st = .ok (os, st')) :
    Release.run ops st = .ok (os, st') :=
  run_le ops st _ h

/-- C63, what can go wrong: in a build without assertions a history of `src_process`, `src_set_ratio` and `src_reset` calls on a new sinc
handle (sizes as in `SincSized`, ratios not NaN, otherwise arbitrary) either runs to its end, or stops in an `src_process` call by reading
outside the history buffer; and that only if the call sets `end_of_input` and a ratio below 1/180 has been asked for. -/
theorem C63_faults (cfg : Config) (hL : LibraryTables cfg) (type : ℤ) (ht : SincType type) (ch : ℕ) (e : ℤ) (st : SrcState)
    (h : srcNew cfg type ch = .ok (e, some st)) (ops : List Op) (hO : ∀ op ∈ ops, SizedOp ch op) :
    (∃ os st', Release.run ops st = .ok (os, st')) ∨
    ∃ pre m d post os st', ops = pre ++ .process m (some d) :: post ∧ Release.run pre st = .ok (os, st') ∧
      Release.run ops st = .error .oobRead ∧ Release.srcProcess m (some st') (some d) = .error .oobRead ∧
      d.endOfInput ≠ 0 ∧ ∃ op ∈ pre ++ [.process m (some d)], AsksBelow (1 / 180) op := by
  obtain ⟨t, hT, hd⟩ := sinc_table hL ht h
  obtain ⟨B, f, G, hB, hk, V, hm, _⟩ := sinc_new_view (sg := none) (y := fun _ _ => zero32) hT hd h (fun _ _ _ => rfl) (3 * sincReach (t.count - 2) t.increment (1 / 256))
  have hne : f.bRealEnd < 0 := by
    rcases V.buf.hD with ⟨_, h, _⟩ | ⟨h, _⟩
    · exact h
    · omega
  have S : SAny t.coeffs (t.count - 2) t.increment B ch false False st := ⟨hm, hB, 0, _, f, 0, 0, 0, 0, _, V, fun h => by omega, Or.inr (Or.inl rfl)⟩
  rcases release_history_any ops hO S with h1 | ⟨pre, m, d, post, os, st', h1, h2, h3, h4, h5, h6⟩
  · exact Or.inl h1
  · exact Or.inr ⟨pre, m, d, post, os, st', h1, h2, h3, h4, h5, h6.resolve_left id⟩

/-- C63, memory safety: in a build without assertions a history on a new sinc handle in which no valid ratio below 1/180 is asked for
runs to its end, without an access outside an array, overflow or endless loop. -/
theorem C63_safe (cfg : Config) (hL : LibraryTables cfg) (type : ℤ) (ht : SincType type) (ch : ℕ) (e : ℤ) (st : SrcState)
    (h : srcNew cfg type ch = .ok (e, some st)) (ops : List Op) (hO : ∀ op ∈ ops, SizedOp ch op) (hr : ∀ op ∈ ops, ¬ AsksBelow (1 / 180) op) :
    ∃ os st', Release.run ops st = .ok (os, st') := by
  rcases C63_faults cfg hL type ht ch e st h ops hO with h1 | ⟨pre, m, d, post, os, st', h1, _, _, _, _, op, h2, h3⟩
  · exact h1
  · refine absurd h3 (hr op ?_)
    rw [h1]
    simp only [List.mem_append, List.mem_cons, List.not_mem_nil, or_false] at h2 ⊢
    tauto

set_option maxRecDepth 100000 in
theorem ratio086_val : ∃ q : ℚ, (Fl.div (dbl 43) (dbl 50)).val = some q ∧ 1 / 2 ≤ q := by
  have h : ((Fl.div (dbl 43) (dbl 50)).val.elim false fun q => decide (1 / 2 ≤ q)) = true := by decide +kernel
  cases hv : (Fl.div (dbl 43) (dbl 50)).val with
  | none => rw [hv] at h; cases h
  | some q => exact ⟨q, rfl, by rw [hv] at h; simpa using h⟩

/-- Non-vacuity of `C63_safe`: a history that fails an assertion, and that meets its hypotheses. -/
example : ∃ e st, srcNew fastCfg SRC_SINC_FASTEST (2 : ℕ) = .ok (e, some st) ∧
    run [plainCall 6 1 one64 1, .setRatio (Fl.div (dbl 43) (dbl 50)), plainCall 0 5 (Fl.div (dbl 43) (dbl 50)) 0] st = .error .assertFailed ∧
    ∃ os st', Release.run [plainCall 6 1 one64 1, .setRatio (Fl.div (dbl 43) (dbl 50)), plainCall 0 5 (Fl.div (dbl 43) (dbl 50)) 0] st = .ok (os, st') := by
  have one : one64 ≠ .nan := fun h => by have := congrArg Fl.val h; rw [one64_val] at this; cases this
  obtain ⟨st0, h0⟩ := sinc_new_ok fastCfg_tables (type := SRC_SINC_FASTEST) (Or.inr (Or.inr rfl)) rfl (ch := 2) (by norm_num) (by norm_num)
  obtain ⟨e, st, h1, h2⟩ := outcome_fault C08_flush_drop ⟨_, h0⟩
  obtain ⟨q, hq, hq2⟩ := ratio086_val
  refine ⟨e, st, h1, h2, C63_safe fastCfg fastCfg_tables _ (Or.inr (Or.inr rfl)) 2 e st h1 _ ?_ ?_⟩
  · simp only [List.mem_cons, List.not_mem_nil, or_false, forall_eq_or_imp, forall_eq]
    exact ⟨plainCall_sized one (by decide) (by decide), ratio086_ne_nan, plainCall_sized ratio086_ne_nan (by decide) (by decide)⟩
  · intro op hop
    rintro ⟨r, t, h3, h4, _, h6⟩
    simp only [List.mem_cons, List.not_mem_nil, or_false] at hop
    have : t = 1 ∨ t = q := by
      rcases h3 with rfl | ⟨m, d, rfl, rfl⟩
      · rcases hop with h | h | h
        · cases h
        · injection h with h; subst h; rw [hq] at h4; cases h4; exact Or.inr rfl
        · cases h
      · rcases hop with h | h | h
        · injection h with h7 h8; injection h8 with h8; subst h8; rw [show one64.val = some 1 from one64_val] at h4; cases h4; exact Or.inl rfl
        · cases h
        · injection h with h7 h8; injection h8 with h8; subst h8; rw [hq] at h4; cases h4; exact Or.inr rfl
    rcases this with rfl | rfl
    · norm_num at h6
    · linarith

set_option maxRecDepth 100000 in
/-- Non-vacuity of the fault in `C63_faults`: the history of `C08_ratio_drop` reads outside the buffer in either build. -/
theorem C63_ratio_drop : (match srcNew fastCfg SRC_SINC_FASTEST 1 with
    | .ok (_, some st) => match Release.run [plainCall 1 10 one64 0, plainCall 9839 10 minRatio 1] st with
      | .error f => some f
      | .ok _ => none
    | _ => none) = some .oobRead := by
  decide +kernel

/-- Non-vacuity of `C63_interp`: handles of both converters. -/
example : ∃ s1 s2, Created fastCfg s1 ∧ s1.vt = .zoh ∧ Created fastCfg s2 ∧ s2.vt = .linear :=
  ⟨_, _, .new SRC_ZERO_ORDER_HOLD 2 0 _ rfl, rfl, .new SRC_LINEAR 2 0 _ rfl, rfl⟩

end Verif
