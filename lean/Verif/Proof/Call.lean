import Verif.Proof.Kernels
import Verif.Model.Api

/-! `src_process` on a handle of one of the two interpolating converters. -/

namespace Verif
open Spec

/-- The interpolating converters. -/
inductive Kind where
  | zoh
  | linear
  deriving DecidableEq

namespace Kind
def vt : Kind → Vt
  | zoh => .zoh
  | linear => .linear
def wrap : Kind → InterpData → Priv
  | zoh => .zoh
  | linear => .linear
def kernel : Kind → Kernel
  | zoh => zohKernel
  | linear => linearKernel
/-- the converter's test that the frame at a position can be produced from `n` input frames -/
def G : Kind → ℕ → ℕ → Pos → Prop
  | zoh => zohG
  | linear => linG
/-- positions at which the converter's start-up code works -/
def Dom : Kind → ℕ → ℕ → Pos → Prop
  | zoh => fun _ _ _ => True
  | linear => linDom
def out : Kind → (ℕ → F32) → (ℕ → ℕ → F32) → Pos → ℕ → F32
  | zoh => zohOut
  | linear => linearOut
end Kind

/-- Handle `st` of converter `K` has `ch` channels, read position `p`, ratio `l` and remembered frame `before` (`none`: no
input since the start or the last reset). -/
structure View (K : Kind) (st : SrcState) (ch : ℕ) (p l : ℚ) (before : Option (List F32)) : Prop where
  hvt : st.vt = K.vt
  hch : st.channels = ch
  hch1 : 1 ≤ ch
  hchM : ch ≤ 8355967
  hpos : st.lastPosition.val = some p
  hp0 : 0 ≤ p
  hp1 : p ≤ 257
  hl : st.lastRatio.val = some l
  vl : l = 0 ∨ ValidRatio l
  hpriv : ∃ z, st.priv = K.wrap z ∧ z.lastValue.length = ch ∧ before = if z.dirty then some z.lastValue else none

/-- A call of `src_process` whose arguments respect the interface: buffers present and disjoint, ratio a valid number, at most
`2^52` samples per buffer (`n` input frames, `o` output frames, target ratio `t`; negative counts count as 0). -/
structure GoodCall (ch : ℕ) (d : SrcData) (n o : ℕ) (t : ℚ) : Prop where
  hn : d.inputFrames.toNat = n
  ho : d.outputFrames.toNat = o
  hin : n = 0 ∨ d.dataIn ≠ 0
  hout : o = 0 ∨ d.dataOut ≠ 0
  hnb : ch * n ≤ 2 ^ 52
  hob : ch * o ≤ 2 ^ 52
  hdisj : (d.dataIn < d.dataOut ∧ d.dataIn + ((ch * n : ℕ) : ℤ) ≤ d.dataOut) ∨
    (d.dataOut ≤ d.dataIn ∧ d.dataOut + ((ch * o : ℕ) : ℤ) ≤ d.dataIn)
  ht : d.srcRatio.val = some t
  vt : ValidRatio t

/-- Ratio in force at the start of a call. -/
def startRatio (l t : ℚ) : ℚ := if l = 0 then t else l

theorem chk64_frames {a : ℤ} {ch n : ℕ} (ha : a = n) (hb : ch * n ≤ 2 ^ 52) :
    chkI64 (a * (ch : ℤ)) = .ok ((ch * n : ℕ) : ℤ) := by
  have e : (n : ℤ) * ch = ((ch * n : ℕ) : ℤ) := by push_cast; ring
  rw [ha, e]
  unfold chkI64
  rw [if_pos]
  · rfl
  · have : ((ch * n : ℕ) : ℤ) ≤ 2 ^ 52 := by exact_mod_cast hb
    constructor
    · linarith [Int.natCast_nonneg (ch * n)]
    · exact this.trans (by norm_num)

theorem clamp_toNat (a : ℤ) : (if a < 0 then 0 else a) = (a.toNat : ℤ) := by
  split_ifs <;> omega

section
variable {st : SrcState} {d : SrcData} {ch n o : ℕ} {t : ℚ}

/-- The checks at the head of `src_process` let a good call through. -/
theorem process_enters {m : Mem} (hmode : st.mode = .process) (hch : st.channels = ch) (g : GoodCall ch d n o t) {l : ℚ}
    (hl : st.lastRatio.val = some l) (vl : l = 0 ∨ ValidRatio l) :
    ∃ st1, srcProcess m (some st) (some d) =
        (do let r ← variProcess m st1 { clampFrames d with inputFramesUsed := 0, outputFramesGen := 0 }
            pure (r.err, r.mem, some r.st, some r.data)) ∧
      st1 = { st with lastRatio := st1.lastRatio } ∧ st1.lastRatio.val = some (startRatio l t) := by
  have hd1 : ¬ ((d.dataIn = 0 ∧ d.inputFrames > 0) ∨ (d.dataOut = 0 ∧ d.outputFrames > 0)) := by
    have h1 := g.hn; have h2 := g.ho
    rintro (⟨a, b⟩ | ⟨a, b⟩)
    · rcases g.hin with h | h
      · omega
      · exact h a
    · rcases g.hout with h | h
      · omega
      · exact h a
  have hbad : isBadSrcRatio d.srcRatio = false := (isBad_false_iff g.ht).2 g.vt
  have hn : (clampFrames d).inputFrames = n := by
    simp only [clampFrames]; rw [clamp_toNat, g.hn]
  have ho : (clampFrames d).outputFrames = o := by
    simp only [clampFrames]; rw [clamp_toNat, g.ho]
  have hov : overlapTest st.channels (clampFrames d) = .ok false := by
    unfold overlapTest
    rw [hch, chk64_frames hn g.hnb, chk64_frames ho g.hob]
    show (if d.dataIn < d.dataOut then ((Except.ok ((ch * n : ℕ) : ℤ) : M ℤ) >>= fun n => pure (decide (d.dataIn + n > d.dataOut)))
      else ((Except.ok ((ch * o : ℕ) : ℤ) : M ℤ) >>= fun n => pure (decide (d.dataOut + n > d.dataIn)))) = _
    rcases g.hdisj with ⟨h1, h2⟩ | ⟨h1, h2⟩
    · rw [if_pos h1]
      simp only [bind, Except.bind, pure, Except.pure]
      simpa using h2
    · rw [if_neg (by omega)]
      simp only [bind, Except.bind, pure, Except.pure]
      simpa using h2
  refine ⟨if Fl.lt st.lastRatio MIN_RATIO then { st with lastRatio := d.srcRatio } else st, ?_, ?_, ?_⟩
  · unfold srcProcess
    simp only []
    rw [if_neg (by simp [hmode])]
    unfold srcProcessData
    rw [if_neg hd1]
    simp only [hbad, Bool.false_eq_true, if_false]
    rw [hov]
    simp only [bind, Except.bind, Bool.false_eq_true, if_false, constProcess, ite_self]
    rfl
  · split_ifs <;> rfl
  · rw [Fl.lt_val hl min_ratio_val]
    unfold startRatio
    rcases vl with h | h
    · rw [if_pos h, h]; simp [g.ht]
    · have : l ≠ 0 := by have := h.1; intro h0; rw [h0] at this; norm_num at this
      rw [if_neg this, if_neg (by simp; have := h.1; linarith)]
      exact hl

theorem GoodCall.disj (g : GoodCall ch d n o t) : ∀ i < ch * n, ∀ j < ch * o, d.dataIn + (i : ℤ) ≠ d.dataOut + (j : ℤ) := by
  intro i hi j hj
  rcases g.hdisj with ⟨_, h⟩ | ⟨_, h⟩ <;> omega

theorem startRatio_valid {l : ℚ} (vl : l = 0 ∨ ValidRatio l) (vt : ValidRatio t) : ValidRatio (startRatio l t) := by
  unfold startRatio
  rcases vl with h | h
  · rw [if_pos h]; exact vt
  · split_ifs
    · exact vt
    · exact h

/-- The remembered frame, or the first input frame. -/
def frame0 (m : Mem) (d : SrcData) (ch : ℕ) (before : Option (List F32)) : List F32 :=
  before.getD (frameList m d.dataIn ch)

/-- What a successful call returns. -/
def callData (d : SrcData) (used g : ℕ) : SrcData :=
  { clampFrames d with inputFramesUsed := (used : ℤ), outputFramesGen := (g : ℤ) }

/-- A call without input does nothing but initialise the ratio. -/
theorem call_empty {K : Kind} {p l : ℚ} {before : Option (List F32)} {m : Mem} (V : View K st ch p l before)
    (hmode : st.mode = .process) (g : GoodCall ch d 0 o t) :
    ∃ st', srcProcess m (some st) (some d) = .ok (Err.NO_ERROR, m, some st', some (callData d 0 0)) ∧
      View K st' ch p (startRatio l t) before ∧ st' = { st with lastRatio := st'.lastRatio } := by
  obtain ⟨st1, h1, h2, h3⟩ := process_enters (m := m) hmode V.hch g V.hl V.vl
  have hn : (clampFrames d).inputFrames = 0 := by
    simp only [clampFrames]; rw [clamp_toNat, g.hn]; rfl
  refine ⟨st1, ?_, ?_, h2⟩
  · rw [h1]
    have : variProcess m st1 { clampFrames d with inputFramesUsed := 0, outputFramesGen := 0 } =
        .ok { err := Err.NO_ERROR, mem := m, st := st1, data := callData d 0 0 } := by
      have hvt : st1.vt = K.vt := by rw [h2]; exact V.hvt
      unfold variProcess
      rw [hvt]
      cases K
      · simp only [Kind.vt, zohVariProcess]
        rw [if_pos (by rw [hn])]
        rfl
      · simp only [Kind.vt, linearVariProcess]
        rw [if_pos (by rw [hn])]
        rfl
    rw [this]
    rfl
  · rw [h2]
    exact ⟨V.hvt, V.hch, V.hch1, V.hchM, V.hpos, V.hp0, V.hp1, h3, Or.inr (startRatio_valid V.vl g.vt), V.hpriv⟩

/-- Read positions of a call. -/
abbrev callPos (ch o : ℕ) (p l t : ℚ) (j : ℕ) : Pos := posOf (startRatio l t) t p ch o j

/-- A call with input: master theorem of the interpolating converters. -/
theorem call_cases {K : Kind} {p l : ℚ} {before : Option (List F32)} {m : Mem} (V : View K st ch p l before)
    (hmode : st.mode = .process) (g : GoodCall ch d n o t) (hn1 : 1 ≤ n) :
    (srcProcess m (some st) (some d) = .error .oobRead ∧ ∃ j < o, ¬ K.Dom ch n (callPos ch o p l t j)) ∨ (∀ j < o, K.Dom ch n (callPos ch o p l t j)) ∧
    ∃ gen st', srcProcess m (some st) (some d) = .ok (Err.NO_ERROR,
        m.setRange d.dataOut (ch * gen) (outSamples ch (callPos ch o p l t)
          (K.out (lastFn (frame0 m d ch before)) (inFrames m d ch))),
        some st', some (callData d (min (callPos ch o p l t gen).k n) gen)) ∧
      gen ≤ o ∧ (∀ j < gen, Cont (K.G ch n) (callPos ch o p l t j)) ∧
      (gen < o → ¬ Cont (K.G ch n) (callPos ch o p l t gen)) ∧
      View K st' ch ((callPos ch o p l t gen).i + (((callPos ch o p l t gen).k - min (callPos ch o p l t gen).k n : ℕ) : ℚ))
        (ratioAfter (startRatio l t) t ch o gen)
        (some (if min (callPos ch o p l t gen).k n = 0 then frame0 m d ch before
          else frameList m (d.dataIn + ((ch * (min (callPos ch o p l t gen).k n - 1) : ℕ) : ℤ)) ch)) ∧
      st' = { st with lastPosition := st'.lastPosition, lastRatio := st'.lastRatio, priv := st'.priv } := by
  obtain ⟨st1, h1, h2, h3⟩ := process_enters (m := m) hmode V.hch g V.hl V.vl
  obtain ⟨z, hz1, hz2, hz3⟩ := V.hpriv
  set d1 : SrcData := { clampFrames d with inputFramesUsed := 0, outputFramesGen := 0 } with hd1
  have hn : d1.inputFrames = n := by
    simp only [hd1, clampFrames]; rw [clamp_toNat, g.hn]
  have ho : d1.outputFrames = o := by
    simp only [hd1, clampFrames]; rw [clamp_toNat, g.ho]
  have hvt1 : st1.vt = K.vt := by rw [h2]; exact V.hvt
  have hpr1 : st1.priv = K.wrap z := by rw [h2]; exact hz1
  have vs := startRatio_valid V.vl g.vt
  have C : Ctx m st1 d1 ch n o (startRatio l t) t p := {
    hch := by rw [h2]; exact V.hch
    hch1 := V.hch1
    hchM := V.hchM
    hn := hn
    hn1 := hn1
    ho := ho
    hnb := g.hnb
    hob := g.hob
    hin := by rcases g.hin with h | h
              · omega
              · exact h
    hout := g.hout
    hdisj := g.disj
    hl := h3
    ht := g.ht
    vl := vs
    vt := g.vt
    hp := by rw [h2]; exact V.hpos
    hp0 := V.hp0
    hp1 := V.hp1 }
  have hf0 : startLast m d1 ch z = frame0 m d ch before := by
    unfold startLast frame0
    rw [hz3]
    cases z.dirty <;> rfl
  have hlen : (frame0 m d ch before).length = ch := by
    rw [← hf0]; unfold startLast; split_ifs <;> simp [hz2]
  have hH : KSpec K.kernel m d1 ch n (startLast m d1 ch z) (K.out (lastFn (frame0 m d ch before)) (inFrames m d ch))
      (K.G ch n) (K.Dom ch n) := by
    rw [hf0]
    cases K
    · exact zoh_kspec C hlen
    · exact linear_kspec C hlen
  have hvp : variProcess m st1 d1 = skBody K.kernel K.wrap m st1 d1 z := by
    unfold variProcess
    rw [hvt1]
    cases K
    · exact zoh_eq_body hpr1 (by rw [hn]; exact_mod_cast hn1)
    · exact linear_eq_body hpr1 (by rw [hn]; exact_mod_cast hn1)
  rcases body_cases C hH K.wrap hz2 with ⟨he, hj⟩ | ⟨hDom, gen, pos, ratio, hb, hg, hc, he, hp, hp257, hr⟩
  · left
    refine ⟨?_, hj⟩
    rw [h1, hvp, he]
    rfl
  right
  refine ⟨hDom, ?_⟩
  have hfr := posAt_frac (start := Pos.ofQ p) (ρ := ratioAt (startRatio l t) t ch o) (ofQ_frac p) gen
  refine ⟨gen, (bodyResult K.wrap m st1 d1 z ch n o (callPos ch o p l t)
    (K.out (lastFn (frame0 m d ch before)) (inFrames m d ch)) gen pos ratio).st, ?_, hg, hc, he, ?_, ?_⟩
  · rw [h1, hvp, hb]
    simp only [bodyResult, bind, Except.bind, pure, Except.pure, callData]
    rfl
  · refine ⟨hvt1, C.hch, V.hch1, V.hchM, hp, ?_, hp257, hr, Or.inr ?_, ⟨_, rfl, ?_, ?_⟩⟩
    · exact add_nonneg hfr.1 (by positivity)
    · cases gen with
      | zero => exact vs
      | succ j => exact C.rho_valid (by omega)
    · simp only [bodyResult]
      split_ifs
      · rw [hf0]; exact hlen
      · simp
    · simp only [bodyResult, if_true]
      rw [hf0]
      rfl
  · rw [h2]; rfl

/-- The same for calls that are known to return. -/
theorem call_spec {K : Kind} {p l : ℚ} {before : Option (List F32)} {m : Mem} (V : View K st ch p l before)
    (hmode : st.mode = .process) (g : GoodCall ch d n o t) (hn1 : 1 ≤ n)
    (hDom : (∀ j < o, K.Dom ch n (callPos ch o p l t j)) ∨ ∃ r, srcProcess m (some st) (some d) = .ok r) :
    ∃ gen st', srcProcess m (some st) (some d) = .ok (Err.NO_ERROR,
        m.setRange d.dataOut (ch * gen) (outSamples ch (callPos ch o p l t)
          (K.out (lastFn (frame0 m d ch before)) (inFrames m d ch))),
        some st', some (callData d (min (callPos ch o p l t gen).k n) gen)) ∧
      gen ≤ o ∧ (∀ j < gen, Cont (K.G ch n) (callPos ch o p l t j)) ∧
      (gen < o → ¬ Cont (K.G ch n) (callPos ch o p l t gen)) ∧
      View K st' ch ((callPos ch o p l t gen).i + (((callPos ch o p l t gen).k - min (callPos ch o p l t gen).k n : ℕ) : ℚ))
        (ratioAfter (startRatio l t) t ch o gen)
        (some (if min (callPos ch o p l t gen).k n = 0 then frame0 m d ch before
          else frameList m (d.dataIn + ((ch * (min (callPos ch o p l t gen).k n - 1) : ℕ) : ℤ)) ch)) ∧
      st' = { st with lastPosition := st'.lastPosition, lastRatio := st'.lastRatio, priv := st'.priv } := by
  rcases call_cases (m := m) V hmode g hn1 with ⟨h1, j, hj, hD⟩ | h
  · exfalso
    rcases hDom with h | ⟨r, h⟩
    · exact hD (h j hj)
    · rw [h1] at h; cases h
  · exact h.2

end
end Verif
