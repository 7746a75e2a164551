import Verif.Props.Interp
import Verif.Proof.LevelInterp

/-! C07, exactly: which calls of a linear handle read outside the input buffer. -/

namespace Verif
open Spec

section
variable {st : SrcState} {d : SrcData} {ch n o : ℕ} {t p l : ℚ} {before : Option (List F32)} {m : Mem}

theorem callPos_rep (V : View .linear st ch p l before) (g : GoodCall ch d n o t) {j : ℕ} (hj : j < o) : Rep0 f64 (callPos ch o p l t j).i := by
  have hrep : Rep0 f64 (startRatio l t) := by
    unfold startRatio; split_ifs
    · exact rep64_val g.ht
    · exact rep64_val V.hl
  have hvs := startRatio_valid V.vl g.vt
  exact posOf_rep (rep64_val V.hpos) V.hp0 V.hp1 hrep (rep64_val g.ht) hvs g.vt V.hch1 g.hob j (by omega)

/-- A call with input either reads before its input buffer or returns, and the first happens iff some output position lies before the first
presented frame and there is one input frame, or two and the position is `1 - 2^-53`. -/
theorem linear_fault_iff (V : View .linear st ch p l before) (hmode : st.mode = .process) (g : GoodCall ch d n o t) (hn1 : 1 ≤ n) :
    (srcProcess m (some st) (some d) = .error .oobRead ∨ ∃ r, srcProcess m (some st) (some d) = .ok r) ∧
    (srcProcess m (some st) (some d) = .error .oobRead ↔
      ∃ j < o, (callPos ch o p l t j).k = 0 ∧ (n = 1 ∨ n = 2 ∧ (callPos ch o p l t j).i = 1 - p2 (-53))) := by
  have hdom : ∀ j < o, ¬ linDom ch n (callPos ch o p l t j) ↔
      (callPos ch o p l t j).k = 0 ∧ (n = 1 ∨ n = 2 ∧ (callPos ch o p l t j).i = 1 - p2 (-53)) := by
    intro j hj
    have hf := posAt_frac (ρ := ratioAt (startRatio l t) t ch o) (ofQ_frac p) j
    by_cases h1 : n = 1
    · subst h1
      rw [linDom_one V.hch1 V.hchM hf.1]
      simp
    · by_cases h2 : n = 2
      · subst h2
        rw [linDom_two V.hch1 V.hchM (callPos_rep V g hj) hf.1 hf.2]
        simp
      · have := linDom_of_three (P := callPos ch o p l t j) V.hch1 V.hchM (show 3 ≤ n by omega) hf.2
        simp [this, h1, h2]
  rcases call_cases (m := m) V hmode g hn1 with ⟨h, j, hj, hD⟩ | ⟨hD, gen, st', h, _⟩
  · exact ⟨Or.inl h, fun _ => ⟨j, hj, (hdom j hj).1 hD⟩, fun _ => h⟩
  · refine ⟨Or.inr ⟨_, h⟩, fun hh => ?_, ?_⟩
    · rw [h] at hh; cases hh
    · rintro ⟨j, hj, hk⟩
      exact absurd (hD j hj) ((hdom j hj).2 hk)
end

/-- The calls whose arguments are accepted, as good calls. -/
theorem good_of_accepted {st : SrcState} {ch : ℕ} {d : SrcData} (hch : st.channels = ch) (hmode : st.mode = .process) (hO : Ordinary 1 ch d)
    (hb : ¬ MissingBuffer d) (hr : ¬ BadRatio d.srcRatio)
    (hcl : ¬ Clash d.dataIn (samples ch d.inputFrames) d.dataOut (samples ch d.outputFrames)) :
    ∃ t, GoodCall ch d d.inputFrames.toNat d.outputFrames.toNat t := by
  rcases ordinary_cases hch hmode hO with ⟨e, hf⟩ | ⟨_, _, _, t, g⟩
  · exfalso
    cases hf with
    | state hh => simp at hh
    | mode s a b => cases a; exact b hmode
    | data s a b c => cases c
    | buffer s y a b c d => cases c; exact hb d
    | ratio s y a b c d e => cases c; exact hr e
    | overlap s y a b c d e f => cases a; cases c; rw [hch] at f; exact hcl f
  · exact ⟨t, g⟩

theorem linear_op_fault {ch : ℕ} {st : SrcState} {p l : ℚ} {before : Option (List F32)} (V : View .linear st ch p l before)
    (hm : st.mode = .process) {op : Op} (hO : OrdinaryOp 1 ch op) :
    (∃ o st', op.run st = .ok (o, st') ∧ (∃ p l before, View .linear st' ch p l before) ∧ st'.mode = .process) ∨
    ∃ m d, op = .process m (some d) ∧ op.run st = .error .oobRead ∧ srcProcess m (some st) (some d) = .error .oobRead ∧
      (d.inputFrames = 1 ∨ d.inputFrames = 2) ∧ 1 ≤ d.outputFrames := by
  have hret : (∃ r, op.run st = .ok r) → ∃ o st', op.run st = .ok (o, st') ∧ (∃ p l before, View .linear st' ch p l before) ∧ st'.mode = .process := by
    rintro ⟨⟨o, st'⟩, hr⟩
    have hrun : run [op] st = .ok ([o], st') := by
      simp only [run, hr, bind, Except.bind, pure, Except.pure]
    obtain ⟨os, s, h1, _, h3, h4, _⟩ := history_core [op] ⟨_, _, _, V⟩ hm (by simpa using hO) (Or.inr ⟨_, hrun⟩)
    rw [hrun] at h1
    cases h1
    exact ⟨o, st', hr, h3, h4⟩
  have hlo : OrdinaryOp 3 ch op → ∃ r, op.run st = .ok r := by
    intro hO3
    obtain ⟨os, s, h1, _⟩ := history_core [op] ⟨_, _, _, V⟩ hm (by simpa using hO) (Or.inl (by simpa [Kind.lo] using hO3))
    unfold run at h1
    obtain ⟨q, hq, _⟩ := bind_ok h1
    exact ⟨q, hq⟩
  cases hO with
  | setRatio r hr => exact Or.inl (hret (hlo (.setRatio r hr)))
  | reset => exact Or.inl (hret (hlo .reset))
  | process m x hd =>
    cases x with
    | none => exact Or.inl (hret (hlo (.process _ _ (by rintro _ ⟨⟩))))
    | some d =>
      by_cases h12 : d.inputFrames = 1 ∨ d.inputFrames = 2
      · have hOd := hd d rfl
        rcases ordinary_cases V.hch hm hOd with ⟨e, hf⟩ | ⟨_, _, _, t, g⟩
        · obtain ⟨d', hd'⟩ := process_rejects (m := m) hf (by
            rintro s y h1 h2; cases h1; cases h2
            have b1 := hOd.inSize
            have b2 := hOd.outSize
            rw [V.hch]
            exact ⟨by positivity, by omega, by omega⟩)
          exact Or.inl (hret ⟨_, by simp only [Op.run, hd']; rfl⟩)
        · obtain ⟨h1, h2⟩ := linear_fault_iff (m := m) V hm g (by omega)
          rcases h1 with h1 | ⟨r, h1⟩
          · right
            obtain ⟨j, hj, _⟩ := h2.1 h1
            refine ⟨m, d, rfl, ?_, h1, h12, by omega⟩
            simp only [Op.run, h1]; rfl
          · refine Or.inl (hret ?_)
            have h1' := h1
            obtain ⟨e, m', s, x'⟩ := r
            exact ⟨_, by simp only [Op.run, h1]; rfl⟩
      · refine Or.inl (hret (hlo (.process _ _ ?_)))
        rintro _ ⟨⟩
        have := hd d rfl
        exact ⟨this.ratio, this.inSize, this.outSize, by have := this.few; omega⟩

/-- C07, what can go wrong: a history of calls on a new linear handle (arguments as in `C06`) either runs to its end, or stops at a
`src_process` call with one or two input frames and room for output, which reads outside its input buffer.  There is no other
fault: no access outside the output buffer or the internal frame, no overflow, no failed assertion, no endless loop. -/
theorem C07_faults (cfg : Config) (ch : ℕ) (hc : ch ≤ 8355967) (e : ℤ) (st : SrcState)
    (h : srcNew cfg SRC_LINEAR ch = .ok (e, some st)) (ops : List Op) (hO : ∀ op ∈ ops, OrdinaryOp 1 ch op) :
    (∃ os st', run ops st = .ok (os, st')) ∨
    (run ops st = .error .oobRead ∧ ∃ pre m d post os st', ops = pre ++ .process m (some d) :: post ∧ run pre st = .ok (os, st') ∧
      srcProcess m (some st') (some d) = .error .oobRead ∧ (d.inputFrames = 1 ∨ d.inputFrames = 2) ∧ 1 ≤ d.outputFrames) := by
  obtain ⟨V, hm, _⟩ := new_view (K := .linear) h rfl (by exact_mod_cast hc)
  rw [Int.toNat_natCast] at V
  clear h
  replace V : ∃ p l before, View .linear st ch p l before := ⟨_, _, _, V⟩
  obtain ⟨p, l, before, V⟩ := V
  induction ops generalizing st p l before with
  | nil => exact Or.inl ⟨[], st, rfl⟩
  | cons op ops ih =>
    rcases linear_op_fault V hm (hO op (by simp)) with ⟨o, s, h1, ⟨p', l', b', V'⟩, hm'⟩ | ⟨m, d, rfl, h1, h2, h3, h4⟩
    · rcases ih s (fun o ho => hO o (by simp [ho])) hm' p' l' b' V' with ⟨os, s', h⟩ | ⟨h, pre, m, d, post, os, s', e1, e2, e3, e4⟩
      · exact Or.inl ⟨o :: os, s', by simp only [run, h1, h, bind, Except.bind, pure, Except.pure]⟩
      · refine Or.inr ⟨by simp only [run, h1, h, bind, Except.bind], op :: pre, m, d, post, o :: os, s', by rw [e1]; rfl, ?_, e3, e4⟩
        simp only [run, h1, e2, bind, Except.bind, pure, Except.pure]
    · exact Or.inr ⟨by simp only [run, h1, bind, Except.bind], [], m, d, ops, [], st, rfl, rfl, h2, h3, h4⟩

/-- C07, exactly when: a stream has been fed to a linear handle so far (`V` frames consumed, `G` frames produced) and the next call has
acceptable arguments and brings input.  Output frame `G + j` falls at the input time `timeAt ρ (G + j)`, where `ρ` continues the ratio
schedule of the past with the ratios this call will use.  The call reads outside its input buffer iff one of the frames it has
room for falls before time `V + 1` and the call brings only one input frame, or brings two and that time is exactly the last double
before `V + 1`.  Otherwise it returns. -/
theorem C07_exact (cfg : Config) (ch : ℕ) (hc : ch ≤ 8355967) (e : ℤ) (st st1 : SrcState)
    (h : srcNew cfg SRC_LINEAR ch = .ok (e, some st)) (x : ℕ → ℕ → F32) (ops : List Op) (os : List Obs) (V G : ℕ)
    (hO : ∀ op ∈ ops, OrdinaryOp 1 ch op) (hr : run ops st = .ok (os, st1)) (hF : Fed x ch 0 ops os V) (hG : G = (outputs ch os).length)
    (m : Mem) (d : SrcData) (hd : Ordinary 1 ch d) (hb : ¬ MissingBuffer d) (hrat : ¬ BadRatio d.srcRatio)
    (hcl : ¬ Clash d.dataIn (samples ch d.inputFrames) d.dataOut (samples ch d.outputFrames)) (hn : 1 ≤ d.inputFrames) :
    ∃ (ρ : ℕ → ℚ) (l t : ℚ), ratiosFrom ratioAt ch 0 ops os = (List.range G).map ρ ∧ st1.lastRatio.val = some l ∧ d.srcRatio.val = some t ∧
      (∀ j, ρ (G + j) = ratioAt (if l = 0 then t else l) t ch d.outputFrames.toNat j) ∧
      (srcProcess m (some st1) (some d) = .error .oobRead ∨ ∃ r, srcProcess m (some st1) (some d) = .ok r) ∧
      (srcProcess m (some st1) (some d) = .error .oobRead ↔ ∃ j : ℕ, (j : ℤ) < d.outputFrames ∧ timeAt ρ (G + j) < V + 1 ∧
        (d.inputFrames = 1 ∨ d.inputFrames = 2 ∧ timeAt ρ (G + j) = V + 1 - p2 (-53))) := by
  obtain ⟨ρ, h1, _, _, _, hR, _, l, T, _⟩ := stream_new (K := .linear) h hc hO hF hr
  obtain ⟨p, before, W, hPp, _⟩ := T.view
  obtain ⟨t, g⟩ := good_of_accepted W.hch T.mode hd hb hrat hcl
  obtain ⟨k1, k2⟩ := linear_fault_iff (m := m) W T.mode g (by omega)
  rw [← hG] at hR hPp
  refine ⟨joinAt G ρ (ratioAt (startRatio l t) t ch d.outputFrames.toNat), l, t, ?_, W.hl, g.ht, ?_, k1, ?_⟩
  · rw [hR]
    refine List.map_congr_left (fun j hj => ?_)
    simp [joinAt, List.mem_range.1 hj]
  · intro j
    simp [joinAt, startRatio]
  · have htime : ∀ j, timeAt (joinAt G ρ (ratioAt (startRatio l t) t ch d.outputFrames.toNat)) (G + j) =
        V + (callPos ch d.outputFrames.toNat p l t j).k + (callPos ch d.outputFrames.toNat p l t j).i := by
      intro j
      unfold timeAt
      have : posAt ⟨0, 0⟩ (joinAt G ρ (ratioAt (startRatio l t) t ch d.outputFrames.toNat)) (G + j) =
          ⟨V + (callPos ch d.outputFrames.toNat p l t j).k, (callPos ch d.outputFrames.toNat p l t j).i⟩ := by
        rw [posAt_join, hPp]
        exact posAt_shift (Pos.ofQ p) V _ j
      rw [this]
      push_cast; ring
    rw [k2]
    refine ⟨?_, ?_⟩
    · rintro ⟨j, hj, hk, hn'⟩
      have hf := posAt_frac (ρ := ratioAt (startRatio l t) t ch d.outputFrames.toNat) (ofQ_frac p) j
      refine ⟨j, by omega, ?_, ?_⟩
      · rw [htime, hk]
        push_cast
        have := hf.2
        unfold callPos
        linarith
      · rcases hn' with h | ⟨h, hi⟩
        · exact Or.inl (by omega)
        · refine Or.inr ⟨by omega, ?_⟩
          rw [htime, hk, hi]; push_cast; ring
    · rintro ⟨j, hj, ht, hn'⟩
      have hf := posAt_frac (ρ := ratioAt (startRatio l t) t ch d.outputFrames.toNat) (ofQ_frac p) j
      rw [htime] at ht hn'
      have hk : (callPos ch d.outputFrames.toNat p l t j).k = 0 := by
        by_contra hh
        have : (1 : ℚ) ≤ (callPos ch d.outputFrames.toNat p l t j).k := by exact_mod_cast Nat.one_le_iff_ne_zero.2 hh
        have h0 := hf.1
        unfold callPos at *
        linarith
      refine ⟨j, by omega, hk, ?_⟩
      rcases hn' with h | ⟨h, hi⟩
      · exact Or.inl (by omega)
      · refine Or.inr ⟨by omega, ?_⟩
        rw [hk] at hi
        push_cast at hi
        linarith

/-- C07 for calls with one input frame: such a call reads outside its input buffer iff it has room for output and the next output frame of
the stream falls before time `V + 1`, that is, before the presented frame; the input time is the one the ratio schedule of the past gives. -/
theorem C07_one_exact (cfg : Config) (ch : ℕ) (hc : ch ≤ 8355967) (e : ℤ) (st st1 : SrcState)
    (h : srcNew cfg SRC_LINEAR ch = .ok (e, some st)) (x : ℕ → ℕ → F32) (ops : List Op) (os : List Obs) (V G : ℕ)
    (hO : ∀ op ∈ ops, OrdinaryOp 1 ch op) (hr : run ops st = .ok (os, st1)) (hF : Fed x ch 0 ops os V) (hG : G = (outputs ch os).length)
    (m : Mem) (d : SrcData) (hd : Ordinary 1 ch d) (hb : ¬ MissingBuffer d) (hrat : ¬ BadRatio d.srcRatio)
    (hcl : ¬ Clash d.dataIn (samples ch d.inputFrames) d.dataOut (samples ch d.outputFrames)) (hn : d.inputFrames = 1)
    (ρ : ℕ → ℚ) (hρ : ratiosFrom ratioAt ch 0 ops os = (List.range G).map ρ) :
    srcProcess m (some st1) (some d) = .error .oobRead ↔ 1 ≤ d.outputFrames ∧ timeAt ρ G < V + 1 := by
  obtain ⟨ρ', l, t, h1, h2, h3, h4, _, h5⟩ := C07_exact cfg ch hc e st st1 h x ops os V G hO hr hF hG m d hd hb hrat hcl (by omega)
  have hsame : timeAt ρ' G = timeAt ρ G := by
    unfold timeAt
    rw [posAt_congr (ρ := ρ') (ρ' := ρ) (j := G)]
    intro i hi
    rw [hρ] at h1
    have := List.map_inj_left.1 h1 i (List.mem_range.2 hi)
    exact this.symm
  rw [h5]
  constructor
  · rintro ⟨j, hj, ht, _⟩
    refine ⟨by omega, ?_⟩
    have k1 := (time_k ρ' (G + j)).1
    have k2 := (time_k ρ' G).2
    have k3 : ((posAt ⟨0, 0⟩ ρ' (G + j)).k : ℚ) < (V : ℚ) + 1 := by linarith
    have k4 : (posAt ⟨0, 0⟩ ρ' (G + j)).k < V + 1 := by exact_mod_cast k3
    have k5 := posAt_mono ⟨0, 0⟩ ρ' (Nat.le_add_right G j)
    have k6 : ((posAt ⟨0, 0⟩ ρ' G).k : ℚ) + 1 ≤ (V : ℚ) + 1 := by exact_mod_cast (by omega : (posAt ⟨0, 0⟩ ρ' G).k + 1 ≤ V + 1)
    rw [← hsame]
    linarith
  · rintro ⟨ho, ht⟩
    exact ⟨0, by omega, by rw [Nat.add_zero, hsame]; exact ht, Or.inl hn⟩

/-- A call on one channel with room for one output frame. -/
def twoCall (n : ℤ) (r : F64) : SrcData :=
  { dataIn := 100, dataOut := 200, inputFrames := n, outputFrames := 1, inputFramesUsed := 0, outputFramesGen := 0, endOfInput := 0, srcRatio := r }

/-- The next double above 2. -/
def above2 : F64 := Fl.round f64 (2 + 1 / 2 ^ 51)

/-- Three calls that move the position from 0 to 1/2 to `1 - 2^-53`. -/
def twoOps : List Op :=
  [.process (fun _ => zero32) (some (twoCall 3 (dbl 2))), .setRatio above2, .process (fun _ => zero32) (some (twoCall 3 above2))]

/-- 1 for a read out of bounds, 2 for a return, 0 for any other fault. -/
def faultCode {α : Type} : M α → ℕ
  | .error .oobRead => 1
  | .error _ => 0
  | .ok _ => 2

theorem faultCode_one {α : Type} {q : M α} (h : faultCode q = 1) : q = .error .oobRead := by
  rcases q with f | v
  · cases f <;> first | rfl | cases h
  · cases h

/-- What the calls `twoOps` and then a call with two frames do on a new linear handle: 1 if the last call reads out of bounds, 2 if it
returns. -/
def twoOutcome : ℕ :=
  match linearStateNew 1 with
  | .ok (_, some st) =>
    match run twoOps st with
    | .ok (_, s1) => faultCode (srcProcess (fun _ => zero32) (some s1) (some (twoCall 2 above2)))
    | _ => 0
  | _ => 0

set_option maxRecDepth 100000 in
theorem twoOutcome_eq : twoOutcome = 1 := by decide +kernel

theorem twoCall_ordinary {n : ℤ} (h1 : 2 ≤ n) (h2 : n ≤ 3) {r : F64} (hr : r ≠ .nan) : Ordinary 2 1 (twoCall n r) := by
  refine ⟨hr, ?_, ?_, Or.inr h1⟩
  · simp only [samples, twoCall]
    rw [max_eq_left (by omega)]; omega
  · simp only [samples, twoCall]; norm_num

/-- Two input frames are not enough either: after the calls `twoOps` on a new one-channel linear handle, a call with valid arguments
that brings two input frames reads outside the input buffer. -/
theorem C07_two_frames (cfg : Config) (e : ℤ) (st : SrcState) (h : srcNew cfg SRC_LINEAR 1 = .ok (e, some st)) :
    (∀ op ∈ twoOps ++ [.process (fun _ => zero32) (some (twoCall 2 above2))], OrdinaryOp 2 1 op) ∧
    ∃ os st1, run twoOps st = .ok (os, st1) ∧ srcProcess (fun _ => zero32) (some st1) (some (twoCall 2 above2)) = .error .oobRead := by
  have hd : dbl 2 ≠ Fl.nan := by
    intro h
    have := dbl_val (n := 2) (by norm_num)
    rw [h] at this; cases this
  have ha : above2 ≠ Fl.nan := by
    intro h
    have := congrArg (fun x => x.val.isSome) h
    revert this
    decide +kernel
  constructor
  · intro op hop
    simp only [twoOps, List.cons_append, List.nil_append, List.mem_cons, List.not_mem_nil, or_false] at hop
    rcases hop with rfl | rfl | rfl | rfl
    · exact .process _ _ (by rintro _ ⟨⟩; exact twoCall_ordinary (by norm_num) (by norm_num) hd)
    · exact .setRatio _ ha
    · exact .process _ _ (by rintro _ ⟨⟩; exact twoCall_ordinary (by norm_num) (by norm_num) ha)
    · exact .process _ _ (by rintro _ ⟨⟩; exact twoCall_ordinary (by norm_num) (by norm_num) ha)
  · have hn : linearStateNew 1 = .ok (e, some st) := by
      rw [← h]
      unfold srcNew
      have ht : cfg.table SRC_LINEAR = none := by simp [Config.table, SRC_LINEAR, SRC_SINC_BEST_QUALITY, SRC_SINC_MEDIUM_QUALITY, SRC_SINC_FASTEST]
      rw [ht]
      dsimp only
      rw [if_neg (by decide), if_pos rfl]
    have h1 := twoOutcome_eq
    unfold twoOutcome at h1
    rw [hn] at h1
    dsimp only at h1
    generalize run twoOps st = r at h1
    rcases r with f | ⟨os, s1⟩
    · cases h1
    · exact ⟨os, s1, rfl, faultCode_one h1⟩

/-- Non-vacuity of `C07_exact` and `C07_one_exact`: after two calls that produce output, a call with one input frame (`C07_two_frames`
shows a reachable fault with two). -/
example (e : ℤ) (st : SrcState) (h : srcNew ⟨none, none, none⟩ SRC_LINEAR (2 : ℕ) = .ok (e, some st)) :
    ∃ ops os V st1 d, (∀ op ∈ ops, OrdinaryOp 1 (2 : ℕ) op) ∧ run ops st = .ok (os, st1) ∧ Fed (fun _ _ => zero32) 2 0 ops os V ∧
      0 < (outputs 2 os).length ∧ Ordinary 1 (2 : ℕ) d ∧ ¬ MissingBuffer d ∧ ¬ BadRatio d.srcRatio ∧
      ¬ Clash d.dataIn (samples (2 : ℕ) d.inputFrames) d.dataOut (samples (2 : ℕ) d.outputFrames) ∧ d.inputFrames = 1 := by
  obtain ⟨os, V, st1, h1, h2, h3⟩ := two_calls (K := .linear) h
  obtain ⟨a, b, c, _⟩ := smallCall_ok .zoh
  refine ⟨_, os, V, st1, { smallCall with inputFrames := 1 }, ?_, h1, h2, h3, ⟨a.ratio, by norm_num [samples], a.outSize, by simp⟩, ?_, c, ?_, rfl⟩
  · intro op hop
    simp only [List.mem_cons, List.not_mem_nil, or_false, or_self] at hop
    subst hop
    exact .process _ _ (by rintro _ ⟨⟩; exact a)
  · simp [MissingBuffer, smallCall]
  · simp [Clash, smallCall, samples]

end Verif
