import Verif.Proof.SincLoop
import Verif.Proof.Call
import Verif.Model.New

/-! `src_process` on a handle of a sinc converter. -/

namespace Verif
open Spec

/-- The copy of the processing function used for a channel count. -/
def sincVariantOf (ch : ℤ) : SincVariant :=
  if ch = 1 then vMono else if ch = 2 then vStereo else if ch = 4 then vQuad else if ch = 6 then vHex else vMulti

theorem sincVariant_fits {ch : ℕ} (h : ch ≤ 128) : (sincVariantOf ch).Fits ch := by
  unfold sincVariantOf SincVariant.Fits
  split_ifs with h1 h2 h3 h4
  · have : ch = 1 := by exact_mod_cast h1
    subst this; exact ⟨rfl, by decide⟩
  · have : ch = 2 := by exact_mod_cast h2
    subst this; exact ⟨rfl, by decide⟩
  · have : ch = 4 := by exact_mod_cast h3
    subst this; exact ⟨rfl, by decide⟩
  · have : ch = 6 := by exact_mod_cast h4
    subst this; exact ⟨rfl, by decide⟩
  · exact ⟨rfl, h⟩

theorem variProcess_sinc {m : Mem} {st : SrcState} {d : SrcData} {ch : ℤ} (h : st.vt = sincVt ch) :
    variProcess m st d = sincVariProcess (sincVariantOf ch) m st d := by
  unfold variProcess
  rw [h]
  unfold sincVt sincVariantOf
  split_ifs <;> rfl

/-- Handle `st` of a sinc converter has `ch` channels, ratio `l`, read position `k + i`, and its buffer holds the stream `y`, of which
`R` frames have been taken in. -/
structure SView (sg : Guard) (co : ℤ → F32) (N inc B : ℤ) (st : SrcState) (ch : ℕ) (l : ℚ) (y : ℤ → ℕ → F32) (f : SincFilter) (D : ℤ) (k R : ℕ) (i : ℚ) (h : ℤ) :
    Prop where
  geo : Geom N inc B
  hvt : st.vt = sincVt ch
  hch : st.channels = ch
  hch1 : 1 ≤ ch
  hchM : ch ≤ 128
  hpriv : st.priv = .sinc f
  buf : SBuf sg co N inc B ch y f D k R h
  hpos : st.lastPosition.val = some i
  hi : 0 ≤ i ∧ i < 1
  hl : st.lastRatio.val = some l
  vl : l = 0 ∨ ValidRatio l

theorem SBuf.counts {sg : Guard} {co : ℤ → F32} {N inc B : ℤ} {ch : ℕ} {y : ℤ → ℕ → F32} {f : SincFilter} {D : ℤ} {k R : ℕ} {h : ℤ}
    (S : SBuf sg co N inc B ch y f D k R h) (a b c e : ℤ) : SBuf sg co N inc B ch y { f with inCount := a, outCount := b, inUsed := c, outGen := e } D k R h :=
  ⟨S.hN, S.hinc, S.hco, S.hlen, S.hcur, S.hD0, S.hend, S.hle, S.hbe, S.hlt, S.hD, S.hneg, S.hbuf⟩

section
variable {sg : Guard} {co : ℤ → F32} {N inc B : ℤ} {ch : ℕ} {y : ℤ → ℕ → F32} {m : Mem} {st : SrcState} {d : SrcData}
  {l t : ℚ} {n o R0 k0 : ℕ} {h D0 : ℤ} {i0 : ℚ} {f : SincFilter}

theorem geom_ctx (G : Geom N inc B) (h1 : 1 ≤ ch) (hM : ch ≤ 128) {r : ℚ} (vr : ValidRatio r) : SincCtx N inc B ch (sincReach N inc r) :=
  ⟨G, h1, hM, G.reach_ge vr.1, G.reach_le vr.1⟩

theorem validMin {a b : ℚ} (ha : ValidRatio a) (hb : ValidRatio b) : ValidRatio (min a b) :=
  ⟨le_min ha.1 hb.1, (min_le_left _ _).trans ha.2⟩

/-- Master theorem of the sinc converters.  `H`: reach of the filter in this call.  With a guard (enough history or room for the
silence at the end of the input) the call cannot fail; otherwise the statement is about calls that do not fail in the ways `Tame` lists. -/
theorem sinc_call (V : SView sg co N inc B st ch l y f D0 k0 R0 i0 h) (hmode : st.mode = .process) (g : GoodCall ch d n o t)
    (hsmall : ch * n < 2147483648) {H : ℤ} (hH : H = sincReach N inc (min (startRatio l t) t))
    (hdata : f.bRealEnd < 0 → ∀ j c : ℕ, j < n → c < ch → m (d.dataIn + ((ch * j + c : ℕ) : ℤ)) = y ((R0 + j : ℕ) : ℤ) c)
    (hz : f.bRealEnd < 0 → d.endOfInput ≠ 0 → (∀ P, sg = some P → P = H ∧ ((ch = 1 ∧ H ≤ h) ∨ 4 * (ch * H) + 5 ≤ ch * B + 1)) ∧
      ∀ z : ℤ, ((R0 + n : ℕ) : ℤ) ≤ z → ∀ c, y z c = zero32)
    (hen : 0 ≤ f.bRealEnd → ∀ P, sg = some P → H ≤ P)
    (hcond : sg.isSome ∨ Tame ch d.endOfInput (0 ≤ f.bRealEnd) (srcProcess m (some st) (some d))) :
    ∃ s u gen D', srcProcess m (some st) (some d) = .ok (Err.NO_ERROR, s.mem,
        some { st with lastRatio := s.ratio, lastPosition := s.idx, priv := .sinc s.f, error := s.error }, some (callData d u gen)) ∧
      SInv sg True co N inc B ch y m st d (startRatio l t) n o R0 h H (0 ≤ f.bRealEnd)
        (posAt ⟨k0, i0⟩ (sincRatioAt (startRatio l t) t ch o)) (sincRatioAt (startRatio l t) t ch o)
        (Roomy H D0 k0 R0) (f.bRealEnd + ch * H + 5 ≤ f.bEnd) u gen D' s ∧
      (gen < o → SStop B ch d (startRatio l t) n R0 H (Roomy H D0 k0 R0) u (posAt ⟨k0, i0⟩ (sincRatioAt (startRatio l t) t ch o) gen) s.f) ∧
      SView sg co N inc B { st with lastRatio := s.ratio, lastPosition := s.idx, priv := .sinc s.f, error := s.error } ch
        (if gen = 0 then startRatio l t else sincRatioAt (startRatio l t) t ch o (gen - 1)) y s.f D'
        (posAt ⟨k0, i0⟩ (sincRatioAt (startRatio l t) t ch o) gen).k (R0 + u)
        (posAt ⟨k0, i0⟩ (sincRatioAt (startRatio l t) t ch o) gen).i (min h H) := by
  obtain ⟨st1, h1, h2, h3⟩ := process_enters (m := m) hmode V.hch g V.hl V.vl
  set d1 : SrcData := { clampFrames d with inputFramesUsed := 0, outputFramesGen := 0 } with hd1
  have hn : d1.inputFrames = n := by
    simp only [hd1, clampFrames]; rw [clamp_toNat, g.hn]
  have ho : d1.outputFrames = o := by
    simp only [hd1, clampFrames]; rw [clamp_toNat, g.ho]
  have vs := startRatio_valid V.vl g.vt
  have vm := validMin vs g.vt
  set L := startRatio l t with hL
  have C : SincCtx N inc B ch H := by rw [hH]; exact geom_ctx V.geo V.hch1 V.hchM vm
  have hst1 : st1.channels = ch := by rw [h2]; exact V.hch
  have Q : SCall sg co N inc B ch y m st1 d1 (sincVariantOf ch) L t n o R0 h (0 ≤ f.bRealEnd) := {
    C := by rw [← hH]; exact C
    fits := sincVariant_fits V.hchM
    hch := hst1
    hl := h3
    ht := g.ht
    vl := vs
    vt := g.vt
    hn := hn
    ho := ho
    hout := g.hout
    hsmall := hsmall
    hob := g.hob
    hdisj := g.disj
    hdata := fun he => hdata (by omega)
    hz := fun he => by rw [← hH]; exact hz (by omega) }
  have hpv : st1.priv = .sinc f := by rw [h2]; exact V.hpriv
  have hps : st1.lastPosition.val = some i0 := by rw [h2]; exact V.hpos
  -- entry of the processing function
  set f0 : SincFilter := { f with inCount := ((ch * n : ℕ) : ℤ), outCount := ((ch * o : ℕ) : ℤ), inUsed := 0, outGen := 0 } with hf0
  have S0 : SBuf sg co N inc B ch y f0 D0 k0 R0 h := V.buf.counts _ _ _ _
  have hfl : ⌊i0⌋ = 0 := Int.floor_eq_zero_iff.2 ⟨V.hi.1, V.hi.2⟩
  obtain ⟨e1, e2⟩ := sincNorm_spec C S0 hps V.hi.1 (by linarith [V.hi.2]) (by rw [hfl, mul_zero, add_zero]; exact S0.hlt)
  rw [hfl, mul_zero, add_zero] at e1
  have e1' : sincNorm ch f0 st1.lastPosition = .ok (f0, fmodOne st1.lastPosition) := e1
  rw [Int.fract_eq_self.2 V.hi] at e2
  obtain ⟨τ, hτ, hτl⟩ := terminate_val h3 vs
  have I0 : SInv sg True co N inc B ch y m st1 d1 L n o R0 h (sincReach N inc (min L t)) (0 ≤ f.bRealEnd) (posAt ⟨k0, i0⟩ (sincRatioAt L t ch o)) (sincRatioAt L t ch o)
      (Roomy H D0 k0 R0) (f.bRealEnd + ch * H + 5 ≤ f.bEnd) 0 0 D0
      { mem := m, f := f0, idx := fmodOne st1.lastPosition, ratio := st1.lastRatio, error := st1.error, stop := 0 } := by
    rw [← hH]
    exact {
      buf := S0.mono (min_le_left _ _)
      hu := Nat.zero_le _
      hg := Nat.zero_le _
      used := by simp [hf0]
      count := by simp [hf0]
      gen := by simp [hf0]
      ocount := rfl
      idx := e2
      ratio := by rw [if_pos rfl]; exact h3
      stop := rfl
      err := Or.inl rfl
      mem := ⟨fun _ => 0, _, by simp, fun _ => rfl, by rw [Nat.mul_zero, Mem.setRange_zero]⟩
      ended := fun he => ⟨hen he, Or.inl he⟩
      noten := fun he => by have : f.bRealEnd < 0 := he; omega
      enu := fun _ => rfl
      look := by simp
      roomy := fun _ hr => hr
      tail := fun _ ht he => ht he }
  have hhf : halfFilterChanLen f0 ch st1.lastRatio d1.srcRatio = .ok (ch * H) := by
    rw [hH]
    exact V.geo.half_val (f := f0) S0.hN S0.hinc V.hch1 V.hchM h3 g.ht vs g.vt
  have hcond1 : sg.isSome ∨ Tame ch d1.endOfInput (0 ≤ f.bRealEnd) (whileM (sincStep (sincVariantOf ch) st1 d1 (ch * sincReach N inc (min L t)) (Fl.add (Fl.div one64 st1.lastRatio) SRC_MIN_RATIO_DIFF)) (o + 1)
      { mem := m, f := f0, idx := fmodOne st1.lastPosition, ratio := st1.lastRatio, error := st1.error, stop := 0 }) := by
    refine hcond.imp_right fun hr => hr.imp fun e hW => ?_
    rw [h1, variProcess_sinc (ch := ch) (by rw [h2]; exact V.hvt)]
    unfold sincVariProcess
    rw [hpv]
    dsimp only
    rw [hst1, chk64_frames hn g.hnb, chk64_frames ho g.hob]
    simp only [bind, Except.bind]
    rw [hf0] at hhf e1'
    rw [if_neg (by rw [(isBad_false_iff h3).2 vs]; decide), hhf]
    simp only []
    rw [e1']
    simp only []
    rw [ho, Int.toNat_natCast]
    rw [← hH, hf0] at hW
    rw [hW]
  obtain ⟨s, u, gen, D', w1, I, hstop⟩ := sloop_spec Q V.hi hτ hτl I0 hcond1
  rw [← hH] at w1 I hstop
  have hch0 : (ch : ℤ) ≠ 0 := by have := V.hch1; omega
  have herr : st1.error = st.error := by rw [h2]
  have hI' : SInv sg True co N inc B ch y m st d L n o R0 h H (0 ≤ f.bRealEnd)
      (posAt ⟨k0, i0⟩ (sincRatioAt L t ch o)) (sincRatioAt L t ch o) (Roomy H D0 k0 R0) (f.bRealEnd + ch * H + 5 ≤ f.bEnd) u gen D' s :=
    { I with err := by rw [← herr]; exact I.err }
  refine ⟨s, u, gen, D', ?_, hI', hstop, ?_⟩
  · rw [h1, variProcess_sinc (ch := ch) (by rw [h2]; exact V.hvt)]
    unfold sincVariProcess
    rw [hpv]
    dsimp only
    rw [hst1, chk64_frames hn g.hnb, chk64_frames ho g.hob]
    simp only [bind, Except.bind]
    rw [hf0] at hhf e1'
    rw [if_neg (by rw [(isBad_false_iff h3).2 vs]; decide), hhf]
    simp only []
    rw [e1']
    simp only []
    rw [hf0] at w1
    rw [ho, Int.toNat_natCast, w1]
    simp only []
    rw [if_neg (by rw [I.stop]; simp), divM_ok hch0, divM_ok hch0]
    simp only [pure, Except.pure]
    rw [I.used, I.gen]
    push_cast
    rw [Int.mul_tdiv_cancel_left _ hch0, Int.mul_tdiv_cancel_left _ hch0]
    obtain ⟨r, hr⟩ : ∃ r, r = st1.lastRatio := ⟨_, rfl⟩
    rw [← hr] at h2
    subst h2
    dsimp only at hst1 ⊢
    rw [← hst1, ← ho]
    rfl
  · refine ⟨V.geo, V.hvt, V.hch, V.hch1, V.hchM, rfl, I.buf, I.idx, posAt_frac (start := ⟨k0, i0⟩) V.hi gen, I.ratio, Or.inr ?_⟩
    split_ifs with hg0
    · exact vs
    · exact (sincRatio_val (cur := st1.lastRatio) (g := gen - 1) h3 g.ht vs g.vt V.hch1 (by have := I.hg; omega) (g.hob.trans (by norm_num)) (fun _ => h3)).2.1

end
end Verif
