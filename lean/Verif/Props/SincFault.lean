import Verif.Proof.SincStream
import Verif.Props.Findings

/-! What can go wrong in an arbitrary history of a sinc handle (C08). -/

namespace Verif
open Spec

section
variable {co : ℤ → F32} {N inc B : ℤ} {ch : ℕ} {st : SrcState} {d : SrcData}

/-- Before the end of the input the guard does not matter. -/
theorem SView.guarded {sg sg' : Guard} {l : ℚ} {y : ℤ → ℕ → F32} {f : SincFilter} {D : ℤ} {k R : ℕ} {i : ℚ} {h : ℤ}
    (V : SView sg co N inc B st ch l y f D k R i h) (hne : f.bRealEnd < 0) : SView sg' co N inc B st ch l y f D k R i h := by
  refine ⟨V.geo, V.hvt, V.hch, V.hch1, V.hchM, V.hpriv, ?_, V.hpos, V.hi, V.hl, V.vl⟩
  have S := V.buf
  refine ⟨S.hN, S.hinc, S.hco, S.hlen, S.hcur, S.hD0, ?_, S.hle, S.hbe, S.hlt, S.hD, S.hneg, S.hbuf⟩
  rcases S.hend with h1 | ⟨a, _⟩
  · exact Or.inl h1
  · omega

/-- A handle in an arbitrary history.  `seen`: a call since the last reset has set `end_of_input`.  `low`: a ratio below 1/180 has
been asked for. -/
structure SAny (co : ℤ → F32) (N inc B : ℤ) (ch : ℕ) (seen : Bool) (low : Prop) (st : SrcState) : Prop where
  mode : st.mode = .process
  hB : B = 3 * sincReach N inc (1 / 256)
  view : ∃ l y f D k R i h, SView none co N inc B st ch l y f D k R i h ∧ (0 ≤ f.bRealEnd → seen = true) ∧ (low ∨ l = 0 ∨ 1 / 180 ≤ l)

/-- How a call can fail. -/
def CallFault (ch : ℕ) (seen : Bool) (low : Prop) (d : SrcData) (e : Fault) : Prop :=
  (e = .oobRead ∨ (e = .assertFailed ∧ 2 ≤ ch)) ∧ ((d.endOfInput ≠ 0 ∧ low) ∨ (e = .assertFailed ∧ seen = true))

theorem sinc_process_any {seen : Bool} {low low' : Prop} (S : SAny co N inc B ch seen low st) (hO : SincSized ch d) (m : Mem)
    (hlow : low → low') (hask : ∀ t, d.srcRatio.val = some t → ValidRatio t → t < 1 / 180 → low') :
    (∃ e m' st' x', srcProcess m (some st) (some d) = .ok (e, m', some st', x') ∧
      SAny co N inc B ch (seen || decide (d.endOfInput ≠ 0)) low' st') ∨
    ∃ e, srcProcess m (some st) (some d) = .error e ∧ CallFault ch seen low' d e := by
  obtain ⟨l, y, f, D, k, R, i, h, V, hseen, hL⟩ := S.view
  have hmode := S.mode
  rcases ordinary_cases V.hch hmode (sincSized_ordinary hO) with ⟨e, hf⟩ | ⟨_, _, _, t, g⟩
  · obtain ⟨d', hd'⟩ := process_rejects (m := m) hf (by
      rintro s y h1 h2; cases h1; cases h2
      have b1 := hO.inSize
      have b2 := hO.outSize
      rw [V.hch]
      exact ⟨by positivity, by omega, by omega⟩)
    exact Or.inl ⟨e, m, st, d', hd', hmode, S.hB, l, y, f, D, k, R, i, h, V, fun h => by rw [hseen h]; rfl, hL.imp_left hlow⟩
  have s1 : samples ch d.inputFrames = ((ch * d.inputFrames.toNat : ℕ) : ℤ) := by
    unfold samples
    rw [show max d.inputFrames 0 = (d.inputFrames.toNat : ℤ) by omega]; push_cast; ring
  have b1 := hO.inSize
  rw [s1] at b1
  have b1 : ch * d.inputFrames.toNat < 2147483648 := by exact_mod_cast b1
  have b2 := sized_out hO
  generalize hnn : d.inputFrames.toNat = n at *
  generalize hoo : d.outputFrames.toNat = o at *
  have vs := startRatio_valid V.vl g.vt
  have hrepL : Rep0 f64 (startRatio l t) := by
    unfold startRatio; split_ifs
    · exact rep64_val g.ht
    · exact rep64_val V.hl
  obtain ⟨H, hH⟩ : ∃ H, H = sincReach N inc (min (startRatio l t) t) := ⟨_, rfl⟩
  -- the ratios of the call
  have hlo : low' ∨ 1 / 180 ≤ min (startRatio l t) t := by
    by_cases ht : t < 1 / 180
    · exact Or.inl (hask t g.ht g.vt ht)
    push Not at ht
    rcases hL with h1 | h1 | h1
    · exact Or.inl (hlow h1)
    · refine Or.inr (le_min ?_ ht)
      unfold startRatio; rw [if_pos h1]; exact ht
    · refine Or.inr (le_min ?_ ht)
      unfold startRatio; split_ifs
      · exact ht
      · exact h1
  -- the stream as far as this call sees it
  obtain ⟨y', hy1, hy2, hy3⟩ : ∃ y' : ℤ → ℕ → F32, (∀ z : ℤ, (z < R ∨ 0 ≤ f.bRealEnd) → y' z = y z) ∧
      (f.bRealEnd < 0 → ∀ j c : ℕ, j < n → c < ch → m (d.dataIn + ((ch * j + c : ℕ) : ℤ)) = y' ((R + j : ℕ) : ℤ) c) ∧
      (f.bRealEnd < 0 → ∀ z : ℤ, ((R + n : ℕ) : ℤ) ≤ z → ∀ c, y' z c = zero32) := by
    by_cases he : 0 ≤ f.bRealEnd
    · exact ⟨y, fun _ _ => rfl, fun h => by omega, fun h => by omega⟩
    · refine ⟨extendBy y m d ch R n, fun z hz => ?_, fun _ j c hj hc => ?_, fun _ z hz c => ?_⟩
      · funext c
        unfold extendBy
        rw [if_pos (by omega)]
      · unfold extendBy
        rw [if_neg (by omega), if_pos (by omega)]
        rw [show (((R + j : ℕ) : ℤ) - (R : ℤ)).toNat = j by omega]
      · unfold extendBy
        rw [if_neg (by omega), if_neg (by omega)]
  have V' := V.congr hy1
  by_cases hT : Tame ch d.endOfInput (0 ≤ f.bRealEnd) (srcProcess m (some st) (some d))
  · left
    obtain ⟨s, uu, gen, D', w1, I, _, W⟩ := sinc_call (m := m) V' hmode g b1 hH hy2 (fun he hz => ⟨fun _ h => absurd h (by simp), hy3 he⟩)
      (fun _ _ h => absurd h (by simp)) (Or.inr hT)
    refine ⟨_, _, _, _, w1, hmode, S.hB, _, _, _, _, _, _, _, _, W, ?_, ?_⟩
    · intro he
      rcases (I.ended he).2 with h1 | ⟨_, h1⟩
      · rw [hseen h1]; rfl
      · simp [h1]
    · refine hlo.imp_right fun h1 => Or.inr (h1.trans ?_)
      split_ifs with hg0
      · exact min_le_left _ _
      · exact (sincRatioAt_between hrepL (rep64_val g.ht) vs g.vt V.hch1 (by have := I.hg; omega) b2).1
  · right
    -- with high ratios and before the end of the input the call cannot fail
    have hsafe : f.bRealEnd < 0 → 1 / 180 ≤ min (startRatio l t) t → False := by
      intro hne h1
      apply hT
      have h4 := V.geo.reach_floor S.hB h1
      rw [← hH] at h4
      have hch1 : (1 : ℤ) ≤ ch := by exact_mod_cast V.hch1
      have hroom : 4 * (ch * H) + 5 ≤ ch * B + 1 := by
        have : (ch : ℤ) * (4 * H + 4) ≤ ch * B := mul_le_mul_of_nonneg_left h4 (by omega)
        nlinarith
      obtain ⟨s, uu, gen, D', w1, _⟩ := sinc_call (m := m) (V'.guarded (sg' := some H) hne) hmode g b1 hH hy2
        (fun he hz => ⟨fun Q hQ => ⟨by cases hQ; rfl, Or.inr hroom⟩, hy3 he⟩) (fun he => by omega) (Or.inl rfl)
      exact Tame.ok ⟨_, w1⟩
    have hch1 := V.hch1
    unfold Tame at hT
    rw [not_and_or] at hT
    rcases hT with hT | hT
    · push Not at hT
      obtain ⟨h1, h2, h3⟩ := hT
      refine ⟨_, h3, Or.inl rfl, Or.inl ⟨h2, hlo.resolve_right (hsafe (by omega))⟩⟩
    · push Not at hT
      obtain ⟨h1, h2, h3⟩ := hT
      refine ⟨_, h3, Or.inr ⟨rfl, by omega⟩, ?_⟩
      by_cases he : 0 ≤ f.bRealEnd
      · exact Or.inr ⟨rfl, hseen he⟩
      · exact Or.inl ⟨h2 (by omega), hlo.resolve_right (hsafe (by omega))⟩

theorem sinc_setRatio_any {seen : Bool} {low low' : Prop} (S : SAny co N inc B ch seen low st) {r : F64} (hr : r ≠ .nan)
    (hlow : low → low') (hask : ∀ t, r.val = some t → ValidRatio t → t < 1 / 180 → low') :
    ∃ e st', srcSetRatio (some st) r = (e, some st') ∧ SAny co N inc B ch seen low' st' := by
  obtain ⟨l, y, f, D, k, R, i, h, V, hseen, hL⟩ := S.view
  unfold srcSetRatio
  dsimp only
  by_cases hb : isBadSrcRatio r = true
  · rw [if_pos hb]
    exact ⟨_, st, rfl, S.mode, S.hB, l, y, f, D, k, R, i, h, V, hseen, hL.imp_left hlow⟩
  · rw [if_neg hb]
    refine ⟨_, _, rfl, S.mode, S.hB, ?_⟩
    rw [isBad_iff] at hb
    cases hr' : r with
    | nan => exact absurd hr' hr
    | inf s => rw [hr'] at hb; exact absurd trivial hb
    | fin q hq =>
      rw [hr'] at hb
      simp only [BadRatio, not_or, not_lt] at hb
      have vq : ValidRatio q := ⟨hb.1, hb.2⟩
      have hrv : r.val = some q := by rw [hr']; rfl
      rw [← hr']
      refine ⟨q, y, f, D, k, R, i, h, ⟨V.geo, V.hvt, V.hch, V.hch1, V.hchM, V.hpriv, V.buf, V.hpos, V.hi, hrv, Or.inr vq⟩, hseen, ?_⟩
      by_cases hq180 : q < 1 / 180
      · exact Or.inl (hask q hrv vq hq180)
      · exact Or.inr (Or.inr (by push Not at hq180; exact hq180))

/-- Histories. -/
theorem sinc_history_any (ops : List Op) (hO : ∀ op ∈ ops, SizedOp ch op) : ∀ {st : SrcState} {seen : Bool} {low : Prop}, SAny co N inc B ch seen low st →
    (∃ os st', run ops st = .ok (os, st')) ∨
    ∃ e pre m d post os st', ops = pre ++ .process m (some d) :: post ∧ run pre st = .ok (os, st') ∧ run ops st = .error e ∧
      srcProcess m (some st') (some d) = .error e ∧
      CallFault ch (endSeen seen pre) (low ∨ ∃ op ∈ pre ++ [.process m (some d)], AsksBelow (1 / 180) op) d e := by
  induction ops with
  | nil => intro st _ _ _; exact Or.inl ⟨[], st, rfl⟩
  | cons op ops ih =>
    intro st seen low S
    have hop := hO op (List.mem_cons_self ..)
    -- after a first call that does not fail
    have key : ∀ {seen1 : Bool} {low1 : Prop} {o : Obs} {st1 : SrcState}, op.run st = .ok (o, st1) → SAny co N inc B ch seen1 low1 st1 →
        (∀ ops, endSeen seen (op :: ops) = endSeen seen1 ops) → (low1 → low ∨ AsksBelow (1 / 180) op) →
        (∃ os st', run (op :: ops) st = .ok (os, st')) ∨
        ∃ e pre m d post os st', op :: ops = pre ++ .process m (some d) :: post ∧ run pre st = .ok (os, st') ∧ run (op :: ops) st = .error e ∧
          srcProcess m (some st') (some d) = .error e ∧
          CallFault ch (endSeen seen pre) (low ∨ ∃ op ∈ pre ++ [.process m (some d)], AsksBelow (1 / 180) op) d e := by
      intro seen1 low1 o st1 h1 S1 h2 h3
      rcases ih (fun op h => hO op (List.mem_cons_of_mem _ h)) S1 with ⟨os, st', h4⟩ | ⟨e, pre, m, d, post, os, st', h4, h5, h6, h7, h8⟩
      · refine Or.inl ⟨o :: os, st', ?_⟩
        simp only [run, h1, bind, Except.bind, h4]
        rfl
      · refine Or.inr ⟨e, op :: pre, m, d, post, o :: os, st', by rw [h4]; rfl, ?_, ?_, h7, h8.1, ?_⟩
        · simp only [run, h1, bind, Except.bind, h5]
          rfl
        · simp only [run, h1, bind, Except.bind, h6]
        · rw [h2]
          refine h8.2.imp_left fun h => ⟨h.1, ?_⟩
          rcases h.2 with h9 | ⟨q, hq, h9⟩
          · rcases h3 h9 with h10 | h10
            · exact Or.inl h10
            · exact Or.inr ⟨op, by simp, h10⟩
          · exact Or.inr ⟨q, by rw [List.cons_append]; exact List.mem_cons_of_mem _ hq, h9⟩
    rcases op with ⟨m, _ | d⟩ | _ | r | _
    · refine key (seen1 := seen) (low1 := low) (o := ⟨3, some m, none, 0, srcError (some st), srcGetChannels (some st)⟩) (st1 := st) ?_ S (fun _ => rfl) Or.inl
      have hm := S.mode
      simp only [Op.run, srcProcess]
      rw [if_neg (by simp [hm])]; rfl
    · have hlow' : ∀ t, d.srcRatio.val = some t → ValidRatio t → t < 1 / 180 → low ∨ AsksBelow (1 / 180) (.process m (some d)) :=
        fun t h1 h2 h3 => Or.inr ⟨_, t, Or.inr ⟨m, d, rfl, rfl⟩, h1, h2.1, h3⟩
      rcases sinc_process_any S hop m (low' := low ∨ AsksBelow (1 / 180) (.process m (some d))) Or.inl hlow' with ⟨e, m', st', x', h1, h2⟩ | ⟨e, h1, h2⟩
      · exact key (o := ⟨e, some m', x', 0, srcError (some st'), srcGetChannels (some st')⟩) (by simp only [Op.run, h1]; rfl) h2 (fun _ => rfl) id
      · refine Or.inr ⟨e, [], m, d, ops, [], st, rfl, rfl, ?_, h1, h2.1, ?_⟩
        · simp only [run, Op.run, h1, bind, Except.bind]
        · refine h2.2.imp_left fun h => ⟨h.1, h.2.imp_right fun h => ⟨_, by simp, h⟩⟩
    · exact absurd hop (by simp [SizedOp])
    · have hlow' : ∀ t, r.val = some t → ValidRatio t → t < 1 / 180 → low ∨ AsksBelow (1 / 180) (.setRatio r) :=
        fun t h1 h2 h3 => Or.inr ⟨_, t, Or.inl rfl, h1, h2.1, h3⟩
      obtain ⟨e, st', h1, h2⟩ := sinc_setRatio_any S hop (low' := low ∨ AsksBelow (1 / 180) (.setRatio r)) Or.inl hlow'
      exact key (o := ⟨e, none, none, 0, srcError (some st'), srcGetChannels (some st')⟩) (by simp only [Op.run, h1]; rfl) h2 (fun _ => rfl) id
    · obtain ⟨l, y, f, D, k, R, i, h, V, hseen, hL⟩ := S.view
      exact key (seen1 := false) (low1 := low) rfl ⟨S.mode, S.hB, 0, y, _, _, _, _, _, B, sinc_reset_view V V.buf.hneg B, fun h => by simp [sincReset] at h, Or.inr (Or.inl rfl)⟩
        (fun _ => rfl) Or.inl

end

/-- C08, what can go wrong: a history of `src_process`, `src_set_ratio` and `src_reset` calls on a new sinc handle (sizes as in
`SincSized`, ratios not NaN, otherwise arbitrary) either runs to its end, or stops in an `src_process` call in one of two ways: a read
outside the history buffer, or, with at least two channels, a failed assertion.  The read happens only in a call with `end_of_input` set
and after a ratio below 1/180 has been asked for; the assertion only in such a call, or when `end_of_input` was set before, since the
last reset.  No history writes outside a buffer, overflows an `int`, divides by zero, reads outside the caller's buffers or the filter
table, or loops for ever. -/
theorem C08_faults (cfg : Config) (hL : LibraryTables cfg) (type : ℤ) (ht : SincType type) (ch : ℕ) (e : ℤ) (st : SrcState)
    (h : srcNew cfg type ch = .ok (e, some st)) (ops : List Op) (hO : ∀ op ∈ ops, SizedOp ch op) :
    (∃ os st', run ops st = .ok (os, st')) ∨
    ∃ f pre m d post os st', ops = pre ++ .process m (some d) :: post ∧ run pre st = .ok (os, st') ∧ run ops st = .error f ∧
      srcProcess m (some st') (some d) = .error f ∧
      (f = .oobRead ∨ (f = .assertFailed ∧ 2 ≤ ch)) ∧
      ((d.endOfInput ≠ 0 ∧ ∃ op ∈ pre ++ [.process m (some d)], AsksBelow (1 / 180) op) ∨ (f = .assertFailed ∧ endSeen false pre = true)) := by
  obtain ⟨t, hT, hd⟩ := sinc_table hL ht h
  obtain ⟨B, f, G, hB, hk, V, hm, _⟩ := sinc_new_view (sg := none) (y := fun _ _ => zero32) hT hd h (fun _ _ _ => rfl) (3 * sincReach (t.count - 2) t.increment (1 / 256))
  have hne : f.bRealEnd < 0 := by
    rcases V.buf.hD with ⟨_, h, _⟩ | ⟨h, _⟩
    · exact h
    · omega
  have S : SAny t.coeffs (t.count - 2) t.increment B ch false False st := ⟨hm, hB, 0, _, f, 0, 0, 0, 0, _, V, fun h => by omega, Or.inr (Or.inl rfl)⟩
  rcases sinc_history_any ops hO S with h1 | ⟨e, pre, m, d, post, os, st', h1, h2, h3, h4, h5, h6⟩
  · exact Or.inl h1
  · exact Or.inr ⟨e, pre, m, d, post, os, st', h1, h2, h3, h4, h5, h6.imp_left fun h => ⟨h.1, h.2.resolve_left id⟩⟩

theorem plainCall_sized {n o eoi : ℤ} {r : F64} (hr : r ≠ .nan) {ch : ℕ} (hn : samples ch n < 2 ^ 31) (ho : samples ch o ≤ 2 ^ 50) :
    SizedOp ch (plainCall n o r eoi) := ⟨hr, hn, ho⟩

/-- A history that ends in a fault, on a new handle. -/
theorem outcome_fault {cfg : Config} {type : ℤ} {ch : ℕ} {ops : List Op} {f : Fault} (h : outcome cfg type ch ops = .error f)
    (hn : ∃ r, srcNew cfg type ch = .ok r) : ∃ e st, srcNew cfg type ch = .ok (e, some st) ∧ run ops st = .error f := by
  unfold outcome at h
  split at h
  · rename_i e st h1
    refine ⟨e, st, h1, ?_⟩
    split at h
    · cases h
    · rename_i g h2
      rw [h2]; cases h; rfl
  · cases h
  · rename_i g h1
    obtain ⟨r, hr⟩ := hn
    rw [h1] at hr
    cases hr

set_option maxRecDepth 100000 in
theorem minRatio_ne_nan : minRatio ≠ .nan := by
  have h : minRatio.val.isSome = true := by decide +kernel
  intro h'
  rw [h'] at h
  cases h

set_option maxRecDepth 100000 in
theorem ratio086_ne_nan : Fl.div (dbl 43) (dbl 50) ≠ .nan := by
  have h : (Fl.div (dbl 43) (dbl 50)).val.isSome = true := by decide +kernel
  intro h'
  rw [h'] at h
  cases h

/-- Non-vacuity of `C08_faults`: both faults occur, in histories that meet its hypotheses. -/
example : (∃ e st, srcNew fastCfg SRC_SINC_FASTEST (1 : ℕ) = .ok (e, some st) ∧
      run [plainCall 1 10 one64 0, plainCall 9839 10 minRatio 1] st = .error .oobRead) ∧
    (∃ e st, srcNew fastCfg SRC_SINC_FASTEST (2 : ℕ) = .ok (e, some st) ∧
      run [plainCall 6 1 one64 1, .setRatio (Fl.div (dbl 43) (dbl 50)), plainCall 0 5 (Fl.div (dbl 43) (dbl 50)) 0] st = .error .assertFailed) ∧
    (∀ op ∈ [plainCall 1 10 one64 0, plainCall 9839 10 minRatio 1], SizedOp (1 : ℕ) op) ∧
    ∀ op ∈ [plainCall 6 1 one64 1, .setRatio (Fl.div (dbl 43) (dbl 50)), plainCall 0 5 (Fl.div (dbl 43) (dbl 50)) 0], SizedOp (2 : ℕ) op := by
  have one : one64 ≠ .nan := fun h => by have := congrArg Fl.val h; rw [one64_val] at this; cases this
  refine ⟨outcome_fault C08_ratio_drop ?_, outcome_fault C08_flush_drop ?_, ?_, ?_⟩
  · obtain ⟨st, h⟩ := sinc_new_ok fastCfg_tables (type := SRC_SINC_FASTEST) (Or.inr (Or.inr rfl)) rfl (ch := 1) (by norm_num) (by norm_num)
    exact ⟨_, h⟩
  · obtain ⟨st, h⟩ := sinc_new_ok fastCfg_tables (type := SRC_SINC_FASTEST) (Or.inr (Or.inr rfl)) rfl (ch := 2) (by norm_num) (by norm_num)
    exact ⟨_, h⟩
  · simp only [List.mem_cons, List.not_mem_nil, or_false, forall_eq_or_imp, forall_eq]
    exact ⟨plainCall_sized one (by decide) (by decide), plainCall_sized minRatio_ne_nan (by decide) (by decide)⟩
  · simp only [List.mem_cons, List.not_mem_nil, or_false, forall_eq_or_imp, forall_eq]
    exact ⟨plainCall_sized one (by decide) (by decide), ratio086_ne_nan, plainCall_sized ratio086_ne_nan (by decide) (by decide)⟩

end Verif
