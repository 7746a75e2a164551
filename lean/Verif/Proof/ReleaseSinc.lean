import Verif.Proof.Release
import Verif.Proof.SincCall

/-! The sinc converters in a build without assertions: every read of the filter stays inside the allocation of the history buffer. -/

namespace Verif
open Spec

theorem whileM_read {σ : Type} {c c' : Prop} {step : σ → M (Bool × σ)} (I Q : σ → Prop) (meas : σ → ℕ)
    (h : ∀ s, I s → (c ∨ c' ∨ step s ≠ .error .oobRead) →
      ∃ b s', step s = .ok (b, s') ∧ (b = true → I s' ∧ meas s' < meas s) ∧ (b = false → Q s')) :
    ∀ n s, I s → meas s < n → (c ∨ c' ∨ whileM step n s ≠ .error .oobRead) → ∃ s', whileM step n s = .ok s' ∧ Q s' := by
  intro n
  induction n with
  | zero => intro s _ hm; omega
  | succ n ih =>
    intro s hI hm hcond
    have hc1 : c ∨ c' ∨ step s ≠ .error .oobRead := hcond.imp_right (Or.imp_right fun hr h2 => hr (by rw [whileM, h2]; rfl))
    obtain ⟨b, s', h1, h2, h3⟩ := h s hI hc1
    have e : whileM step (n + 1) s = if b = true then whileM step n s' else pure s' := by
      rw [whileM, h1]; rfl
    rw [e] at hcond ⊢
    cases b with
    | false => exact ⟨s', rfl, h3 rfl⟩
    | true =>
      simp only [if_true] at hcond ⊢
      obtain ⟨a, c⟩ := h2 rfl
      exact ih s' a (by omega) hcond

theorem release_variProcess {m : Mem} {st : SrcState} {d : SrcData} {ch : ℤ} (h : st.vt = sincVt ch) :
    Release.variProcess m st d = Release.sincVariProcess (sincVariantOf ch) m st d := by
  unfold Release.variProcess
  rw [h]
  unfold sincVt sincVariantOf
  split_ifs <;> rfl

section
variable {sg : Guard} {co : ℤ → F32} {N inc B : ℤ} {ch : ℕ} {y : ℤ → ℕ → F32} {f : SincFilter} {D : ℤ} {k R : ℕ} {h : ℤ} {r : ℚ}

/-- The first tap to the right of the position lies less than one frame behind the end of the data, hence inside the allocation. -/
theorem release_output (C : SincCtx N inc B ch (sincReach N inc r)) (S : SBuf sg co N inc B ch y f D k R h) {v : SincVariant} (hv : v.Fits ch)
    (hr : 1 / 256 ≤ r) {ρ i : ℚ} (hρ : (1 - p2 (-36)) * r ≤ ρ) (hρ' : 1 / 256 ≤ ρ) (i0 : 0 ≤ i) (i1 : i < 1)
    (hin : ch * sincReach N inc r < f.bEnd - f.bCurrent) :
    ∃ sum, Release.calcOutput v f ch (rne (sincInc inc ρ * 4096)) (rne (r64 (i * sincInc inc ρ) * 4096)) = .ok sum := by
  have G := C.geo
  obtain ⟨b1, b2⟩ := G.incr_bounds hρ'
  obtain ⟨s0, s1⟩ := G.start_bounds hρ' i0 i1
  have hreach := G.incr_reach hr hρ hρ'
  have hinc1 := G.inc1
  have hincM := G.incM
  have hn1 := G.n1
  have hnM := G.nM
  have hL := S.len_bound C
  have hchM := C.chM
  set incr := rne (sincInc inc ρ * 4096) with hincr
  set start := rne (r64 (i * sincInc inc ρ) * 4096) with hstart
  set H := sincReach N inc r with hH
  have hcr : (4096 * N - (incr - start)) / incr ≤ H - 1 := by
    have : (4096 * N - (incr - start)) / incr < H := Int.ediv_lt_of_lt_mul (by omega) (by rw [mul_comm H]; omega)
    omega
  set cr := (4096 * N - (incr - start)) / incr with hcrd
  have hend : (ch : ℤ) * (D + cr + 2) ≤ f.bLen + ch := by
    have hmono : (ch : ℤ) * (D + cr + 1) ≤ ch * (D + H) := mul_le_mul_of_nonneg_left (by omega) (by positivity)
    have e : (ch : ℤ) * (D + H) = ch * D + ch * H := by ring
    have e2 : (ch : ℤ) * (D + cr + 2) = ch * (D + cr + 1) + ch := by ring
    have := S.hcur
    have := S.hbe
    omega
  have T : TapPre v { f with bLen := f.bLen + ch, bEnd := f.bLen + ch } ch incr start D := {
    hv := hv
    hch := C.ch1
    hchM := by omega
    hinc := by omega
    hincM := by dsimp only; rw [S.hN]; omega
    hincB := by omega
    hs0 := s0
    hs1 := s1
    hcl := by dsimp only; rw [S.hN]; exact hnM
    hB := by dsimp only; omega
    hbe := le_refl _
    hD := S.hD0
    hcur := S.hcur
    hend := by dsimp only; rw [S.hN]; exact hend }
  obtain ⟨sum, e, _⟩ := calcOutput_ok T
  exact ⟨sum, calcOutput_le (within_alloc hv f) _ _ _ e⟩

end

section
variable {co : ℤ → F32} {N inc B : ℤ} {ch : ℕ} {y : ℤ → ℕ → F32} {m : Mem} {st : SrcState} {d : SrcData} {v : SincVariant}
  {l t : ℚ} {n o R0 : ℕ} {h : ℤ} {en : Prop}

/-- One iteration of the loop without assertions. -/
theorem rstep_spec (Q : SCall none co N inc B ch y m st d v l t n o R0 h en) {k0 : ℕ} {i0 : ℚ} (hi0 : 0 ≤ i0 ∧ i0 < 1) {τv : F64} {τ : ℚ}
    (hτ : τv.val = some τ) (hτl : |τ - 1 / l| ≤ 1 / 10000000000) {roomy0 tail0 : Prop} {u g : ℕ} {D : ℤ} {s : SincLoop}
    (I : SInv none False co N inc B ch y m st d l n o R0 h (sincReach N inc (min l t)) en (posAt ⟨k0, i0⟩ (sincRatioAt l t ch o)) (sincRatioAt l t ch o)
      roomy0 tail0 u g D s)
    (hcond : en ∨ d.endOfInput = 0 ∨ Release.sincStep v st d (ch * sincReach N inc (min l t)) τv s ≠ .error .oobRead) :
    ∃ b s', Release.sincStep v st d (ch * sincReach N inc (min l t)) τv s = .ok (b, s') ∧
      (b = true → g < o ∧ ∃ u' D', SInv none False co N inc B ch y m st d l n o R0 h (sincReach N inc (min l t)) en
        (posAt ⟨k0, i0⟩ (sincRatioAt l t ch o)) (sincRatioAt l t ch o) roomy0 tail0 u' (g + 1) D' s') ∧
      (b = false → ∃ u' D', SInv none False co N inc B ch y m st d l n o R0 h (sincReach N inc (min l t)) en
        (posAt ⟨k0, i0⟩ (sincRatioAt l t ch o)) (sincRatioAt l t ch o) roomy0 tail0 u' g D' s' ∧
        (g < o → SStop B ch d l n R0 (sincReach N inc (min l t)) roomy0 u' (posAt ⟨k0, i0⟩ (sincRatioAt l t ch o) g) s'.f)) := by
  have C := Q.C
  have hv := Q.vmin
  have hch1 := Q.chz
  have hb := C.half_bounds
  unfold Release.sincStep at hcond ⊢
  by_cases hgo : g < o
  swap
  · rw [if_pos]
    · exact ⟨false, s, rfl, by simp, fun _ => ⟨u, D, I, fun hh => absurd hh hgo⟩⟩
    · rw [I.gen, I.ocount]
      have : ch * o ≤ ch * g := Nat.mul_le_mul_left _ (by omega)
      push_cast
      have : ((ch * o : ℕ) : ℤ) ≤ ((ch * g : ℕ) : ℤ) := by exact_mod_cast this
      push_cast at this
      omega
  have hlt : ¬ ¬ (s.f.outGen < s.f.outCount) := by
    rw [I.gen, I.ocount, not_not]
    exact_mod_cast Nat.mul_lt_mul_of_pos_left hgo C.ch1
  rw [if_neg hlt] at hcond ⊢
  obtain ⟨brk, s1, u1, D1, e1, I1, hstop, hgoon⟩ := reload_spec Q I (Or.inr (hcond.imp_right (Or.imp_right fun h1 h2 => h1 (by rw [h2]; rfl))))
  clear hcond
  rw [e1]
  simp only [bind, Except.bind]
  cases brk with
  | true =>
    simp only [if_true]
    exact ⟨false, s1, rfl, by simp, fun _ => ⟨u1, D1, I1, fun _ => hstop rfl⟩⟩
  | false =>
  have hin := hgoon rfl
  clear hstop hgoon e1 I hlt
  simp only [Bool.false_eq_true, if_false]
  have hfr := posAt_frac (start := ⟨k0, i0⟩) (ρ := sincRatioAt l t ch o) hi0 g
  set H := sincReach N inc (min l t) with hH
  cases hdone : sincDone v s1.f s1.idx τv with
  | true =>
    simp only [if_true]
    refine ⟨false, s1, rfl, by simp, fun _ => ⟨u1, D1, I1, fun _ => Or.inr ?_⟩⟩
    have he : 0 ≤ s1.f.bRealEnd := by
      by_contra hh
      unfold sincDone at hdone
      rw [if_neg hh] at hdone
      exact absurd hdone (by simp)
    exact ⟨he, Or.inr ((sincDone_spec v I1.buf C he I1.idx hfr.1 hfr.2 hτ Q.vl hτl).1 hdone)⟩
  | false =>
  simp only [Bool.false_eq_true, if_false]
  have hnd : 0 ≤ s1.f.bRealEnd → (posAt ⟨k0, i0⟩ (sincRatioAt l t ch o) g).i + 1 / l - 1 / 1000000 ≤
      ((ch * (((R0 + u1 : ℕ) : ℤ) - (posAt ⟨k0, i0⟩ (sincRatioAt l t ch o) g).k) : ℤ) : ℚ) := fun he =>
    (sincDone_spec v I1.buf C he I1.idx hfr.1 hfr.2 hτ Q.vl hτl).2 hdone
  -- the ratio
  obtain ⟨hrv, vr, hrlow⟩ := sincRatio_val (cur := s1.ratio) (g := g) Q.hl Q.ht Q.vl Q.vt C.ch1 hgo (Q.hob.trans (by norm_num)) (by
    intro hnear
    rw [I1.ratio]
    congr 1
    split_ifs
    · rfl
    · unfold sincRatioAt
      rw [if_pos hnear])
  rw [I1.gen, I1.ocount, I1.buf.hinc, Q.hch]
  generalize hrat : sincRatio st.lastRatio d.srcRatio ((ch * g : ℕ) : ℤ) ((ch * o : ℕ) : ℤ) s1.ratio = ratio at *
  obtain ⟨v1, v2, v3⟩ := C.geo.step_vals hrv vr.1 I1.idx hfr.1 hfr.2
  rw [v1, v2, v3]
  obtain ⟨sum, e4⟩ := release_output C I1.buf Q.fits hv.1 hrlow vr.1 hfr.1 hfr.2 hin
  obtain ⟨mem, f', idx', D2, e5, e6, I2⟩ := sstep_after Q hi0 hgo I1 hin hnd hrv vr hrlow (sum := sum) (fun h => h.elim)
  rw [e4]
  simp only []
  rw [Q.fits.1, e5]
  simp only []
  rw [e6]
  simp only [pure, Except.pure]
  exact ⟨true, _, rfl, fun _ => ⟨hgo, u1, D2, I2⟩, by simp⟩

/-- The loop without assertions. -/
theorem rloop_spec (Q : SCall none co N inc B ch y m st d v l t n o R0 h en) {k0 : ℕ} {i0 : ℚ} (hi0 : 0 ≤ i0 ∧ i0 < 1) {τv : F64} {τ : ℚ}
    (hτ : τv.val = some τ) (hτl : |τ - 1 / l| ≤ 1 / 10000000000) {roomy0 tail0 : Prop} {D : ℤ} {s : SincLoop}
    (I : SInv none False co N inc B ch y m st d l n o R0 h (sincReach N inc (min l t)) en (posAt ⟨k0, i0⟩ (sincRatioAt l t ch o)) (sincRatioAt l t ch o)
      roomy0 tail0 0 0 D s)
    (hcond : en ∨ d.endOfInput = 0 ∨ whileM (Release.sincStep v st d (ch * sincReach N inc (min l t)) τv) (o + 1) s ≠ .error .oobRead) :
    ∃ s' u g D', whileM (Release.sincStep v st d (ch * sincReach N inc (min l t)) τv) (o + 1) s = .ok s' ∧
      SInv none False co N inc B ch y m st d l n o R0 h (sincReach N inc (min l t)) en
        (posAt ⟨k0, i0⟩ (sincRatioAt l t ch o)) (sincRatioAt l t ch o) roomy0 tail0 u g D' s' ∧
      (g < o → SStop B ch d l n R0 (sincReach N inc (min l t)) roomy0 u (posAt ⟨k0, i0⟩ (sincRatioAt l t ch o) g) s'.f) := by
  have hch1 := Q.C.ch1
  obtain ⟨s', h1, u, g, D', h2, h3⟩ := whileM_read (c := en) (c' := d.endOfInput = 0)
    (step := Release.sincStep v st d (ch * sincReach N inc (min l t)) τv)
    (fun s => ∃ u g D, SInv none False co N inc B ch y m st d l n o R0 h (sincReach N inc (min l t)) en
        (posAt ⟨k0, i0⟩ (sincRatioAt l t ch o)) (sincRatioAt l t ch o) roomy0 tail0 u g D s)
    (fun s => ∃ u g D, SInv none False co N inc B ch y m st d l n o R0 h (sincReach N inc (min l t)) en
        (posAt ⟨k0, i0⟩ (sincRatioAt l t ch o)) (sincRatioAt l t ch o) roomy0 tail0 u g D s ∧
        (g < o → SStop B ch d l n R0 (sincReach N inc (min l t)) roomy0 u (posAt ⟨k0, i0⟩ (sincRatioAt l t ch o) g) s.f))
    (fun s => o - (s.f.outGen / ch).toNat)
    (by
      rintro s ⟨u, g, D, I⟩ hc
      obtain ⟨b, s', h1, h2, h3⟩ := rstep_spec Q hi0 hτ hτl I hc
      refine ⟨b, s', h1, fun hb => ?_, fun hb => ?_⟩
      · obtain ⟨hgo, u', D', I'⟩ := h2 hb
        refine ⟨⟨u', g + 1, D', I'⟩, ?_⟩
        have e1 : s.f.outGen / ch = g := by
          rw [I.gen]; push_cast; exact Int.mul_ediv_cancel_left _ (by omega)
        have e2 : s'.f.outGen / ch = g + 1 := by
          rw [I'.gen]; push_cast; exact Int.mul_ediv_cancel_left _ (by omega)
        rw [e1, e2]
        omega
      · obtain ⟨u', D', I', hs⟩ := h3 hb
        exact ⟨u', g, D', I', hs⟩)
    (o + 1) s ⟨0, 0, D, I⟩ (by omega) hcond
  exact ⟨s', u, g, D', h1, h2, h3⟩

end

section
variable {co : ℤ → F32} {N inc B : ℤ} {ch : ℕ} {y : ℤ → ℕ → F32} {m : Mem} {st : SrcState} {d : SrcData}
  {l t : ℚ} {n o R0 k0 : ℕ} {h D0 : ℤ} {i0 : ℚ} {f : SincFilter}

theorem release_enters {m : Mem} (hmode : st.mode = .process) (hch : st.channels = ch) (g : GoodCall ch d n o t) {l : ℚ}
    (hl : st.lastRatio.val = some l) (vl : l = 0 ∨ ValidRatio l) :
    ∃ st1, Release.srcProcess m (some st) (some d) =
        (do let r ← Release.variProcess m st1 { clampFrames d with inputFramesUsed := 0, outputFramesGen := 0 }
            pure (r.err, r.mem, some r.st, some r.data)) ∧
      st1 = { st with lastRatio := st1.lastRatio } ∧ st1.lastRatio.val = some (startRatio l t) := by
  have hd1 : ¬ ((d.dataIn = 0 ∧ d.inputFrames > 0) ∨ (d.dataOut = 0 ∧ d.outputFrames > 0)) := by
    have h1 := g.hn; have h2 := g.ho
    rintro (⟨a, b⟩ | ⟨a, b⟩)
    · rcases g.hin with h | h
      · omega
      · exact h a
    · rcases g.hout with h | h
      · omega
      · exact h a
  have hbad : isBadSrcRatio d.srcRatio = false := (isBad_false_iff g.ht).2 g.vt
  have hn : (clampFrames d).inputFrames = n := by
    simp only [clampFrames]; rw [clamp_toNat, g.hn]
  have ho : (clampFrames d).outputFrames = o := by
    simp only [clampFrames]; rw [clamp_toNat, g.ho]
  have hov : overlapTest st.channels (clampFrames d) = .ok false := by
    unfold overlapTest
    rw [hch, chk64_frames hn g.hnb, chk64_frames ho g.hob]
    show (if d.dataIn < d.dataOut then ((Except.ok ((ch * n : ℕ) : ℤ) : M ℤ) >>= fun n => pure (decide (d.dataIn + n > d.dataOut)))
      else ((Except.ok ((ch * o : ℕ) : ℤ) : M ℤ) >>= fun n => pure (decide (d.dataOut + n > d.dataIn)))) = _
    rcases g.hdisj with ⟨h1, h2⟩ | ⟨h1, h2⟩
    · rw [if_pos h1]
      simp only [bind, Except.bind, pure, Except.pure]
      simpa using h2
    · rw [if_neg (by omega)]
      simp only [bind, Except.bind, pure, Except.pure]
      simpa using h2
  refine ⟨if Fl.lt st.lastRatio MIN_RATIO then { st with lastRatio := d.srcRatio } else st, ?_, ?_, ?_⟩
  · unfold Release.srcProcess
    simp only []
    rw [if_neg (by simp [hmode])]
    unfold Release.srcProcessData
    rw [if_neg hd1]
    simp only [hbad, Bool.false_eq_true, if_false]
    rw [hov]
    simp only [bind, Except.bind, Bool.false_eq_true, if_false]
    rfl
  · split_ifs <;> rfl
  · rw [Fl.lt_val hl min_ratio_val]
    unfold startRatio
    rcases vl with h | h
    · rw [if_pos h, h]; simp [g.ht]
    · have : l ≠ 0 := by have := h.1; intro h0; rw [h0] at this; norm_num at this
      rw [if_neg this, if_neg (by simp; have := h.1; linarith)]
      exact hl

/-- `src_process` on a sinc handle in a build without assertions. -/
theorem release_call (V : SView none co N inc B st ch l y f D0 k0 R0 i0 h) (hmode : st.mode = .process) (g : GoodCall ch d n o t)
    (hsmall : ch * n < 2147483648) {H : ℤ} (hH : H = sincReach N inc (min (startRatio l t) t))
    (hdata : f.bRealEnd < 0 → ∀ j c : ℕ, j < n → c < ch → m (d.dataIn + ((ch * j + c : ℕ) : ℤ)) = y ((R0 + j : ℕ) : ℤ) c)
    (hz : f.bRealEnd < 0 → d.endOfInput ≠ 0 → ∀ z : ℤ, ((R0 + n : ℕ) : ℤ) ≤ z → ∀ c, y z c = zero32)
    (hcond : 0 ≤ f.bRealEnd ∨ d.endOfInput = 0 ∨ Release.srcProcess m (some st) (some d) ≠ .error .oobRead) :
    ∃ s u gen D', Release.srcProcess m (some st) (some d) = .ok (Err.NO_ERROR, s.mem,
        some { st with lastRatio := s.ratio, lastPosition := s.idx, priv := .sinc s.f, error := s.error }, some (callData d u gen)) ∧
      SInv none False co N inc B ch y m st d (startRatio l t) n o R0 h H (0 ≤ f.bRealEnd)
        (posAt ⟨k0, i0⟩ (sincRatioAt (startRatio l t) t ch o)) (sincRatioAt (startRatio l t) t ch o)
        (Roomy H D0 k0 R0) (f.bRealEnd + ch * H + 5 ≤ f.bEnd) u gen D' s ∧
      (gen < o → SStop B ch d (startRatio l t) n R0 H (Roomy H D0 k0 R0) u (posAt ⟨k0, i0⟩ (sincRatioAt (startRatio l t) t ch o) gen) s.f) ∧
      SView none co N inc B { st with lastRatio := s.ratio, lastPosition := s.idx, priv := .sinc s.f, error := s.error } ch
        (if gen = 0 then startRatio l t else sincRatioAt (startRatio l t) t ch o (gen - 1)) y s.f D'
        (posAt ⟨k0, i0⟩ (sincRatioAt (startRatio l t) t ch o) gen).k (R0 + u)
        (posAt ⟨k0, i0⟩ (sincRatioAt (startRatio l t) t ch o) gen).i (min h H) := by
  obtain ⟨st1, h1, h2, h3⟩ := release_enters (m := m) hmode V.hch g V.hl V.vl
  set d1 : SrcData := { clampFrames d with inputFramesUsed := 0, outputFramesGen := 0 } with hd1
  have hn : d1.inputFrames = n := by
    simp only [hd1, clampFrames]; rw [clamp_toNat, g.hn]
  have ho : d1.outputFrames = o := by
    simp only [hd1, clampFrames]; rw [clamp_toNat, g.ho]
  have vs := startRatio_valid V.vl g.vt
  have vm := validMin vs g.vt
  set L := startRatio l t with hL
  have C : SincCtx N inc B ch H := by rw [hH]; exact geom_ctx V.geo V.hch1 V.hchM vm
  have hst1 : st1.channels = ch := by rw [h2]; exact V.hch
  have Q : SCall none co N inc B ch y m st1 d1 (sincVariantOf ch) L t n o R0 h (0 ≤ f.bRealEnd) := {
    C := by rw [← hH]; exact C
    fits := sincVariant_fits V.hchM
    hch := hst1
    hl := h3
    ht := g.ht
    vl := vs
    vt := g.vt
    hn := hn
    ho := ho
    hout := g.hout
    hsmall := hsmall
    hob := g.hob
    hdisj := g.disj
    hdata := fun he => hdata (by omega)
    hz := fun he h0 => ⟨fun _ h => absurd h (by simp), hz (by omega) h0⟩ }
  have hpv : st1.priv = .sinc f := by rw [h2]; exact V.hpriv
  have hps : st1.lastPosition.val = some i0 := by rw [h2]; exact V.hpos
  -- entry of the processing function
  set f0 : SincFilter := { f with inCount := ((ch * n : ℕ) : ℤ), outCount := ((ch * o : ℕ) : ℤ), inUsed := 0, outGen := 0 } with hf0
  have S0 : SBuf none co N inc B ch y f0 D0 k0 R0 h := V.buf.counts _ _ _ _
  have hfl : ⌊i0⌋ = 0 := Int.floor_eq_zero_iff.2 ⟨V.hi.1, V.hi.2⟩
  obtain ⟨e1, e2⟩ := sincNorm_spec C S0 hps V.hi.1 (by linarith [V.hi.2]) (by rw [hfl, mul_zero, add_zero]; exact S0.hlt)
  rw [hfl, mul_zero, add_zero] at e1
  have e1' : sincNorm ch f0 st1.lastPosition = .ok (f0, fmodOne st1.lastPosition) := e1
  rw [Int.fract_eq_self.2 V.hi] at e2
  obtain ⟨τ, hτ, hτl⟩ := terminate_val h3 vs
  have I0 : SInv none False co N inc B ch y m st1 d1 L n o R0 h (sincReach N inc (min L t)) (0 ≤ f.bRealEnd) (posAt ⟨k0, i0⟩ (sincRatioAt L t ch o)) (sincRatioAt L t ch o)
      (Roomy H D0 k0 R0) (f.bRealEnd + ch * H + 5 ≤ f.bEnd) 0 0 D0
      { mem := m, f := f0, idx := fmodOne st1.lastPosition, ratio := st1.lastRatio, error := st1.error, stop := 0 } := by
    rw [← hH]
    exact {
      buf := S0.mono (min_le_left _ _)
      hu := Nat.zero_le _
      hg := Nat.zero_le _
      used := by simp [hf0]
      count := by simp [hf0]
      gen := by simp [hf0]
      ocount := rfl
      idx := e2
      ratio := by rw [if_pos rfl]; exact h3
      stop := rfl
      err := Or.inl rfl
      mem := ⟨fun _ => 0, fun _ => zero32, by simp, fun h => h.elim, by rw [Nat.mul_zero, Mem.setRange_zero]⟩
      ended := fun he => ⟨fun _ h => absurd h (by simp), Or.inl he⟩
      noten := fun he => by have : f.bRealEnd < 0 := he; omega
      enu := fun _ => rfl
      look := by simp
      roomy := fun _ hr => hr
      tail := fun _ ht he => ht he }
  have hhf : halfFilterChanLen f0 ch st1.lastRatio d1.srcRatio = .ok (ch * H) := by
    rw [hH]
    exact V.geo.half_val (f := f0) S0.hN S0.hinc V.hch1 V.hchM h3 g.ht vs g.vt
  have hcond1 : 0 ≤ f.bRealEnd ∨ d1.endOfInput = 0 ∨ (whileM (Release.sincStep (sincVariantOf ch) st1 d1 (ch * sincReach N inc (min L t)) (Fl.add (Fl.div one64 st1.lastRatio) SRC_MIN_RATIO_DIFF)) (o + 1)
      { mem := m, f := f0, idx := fmodOne st1.lastPosition, ratio := st1.lastRatio, error := st1.error, stop := 0 }) ≠ .error .oobRead := by
    refine hcond.imp_right (Or.imp_right fun hr hW => hr ?_)
    rw [h1, release_variProcess (ch := ch) (by rw [h2]; exact V.hvt)]
    unfold Release.sincVariProcess
    rw [hpv]
    dsimp only
    rw [hst1, chk64_frames hn g.hnb, chk64_frames ho g.hob]
    simp only [bind, Except.bind]
    rw [hf0] at hhf e1'
    rw [if_neg (by rw [(isBad_false_iff h3).2 vs]; decide), hhf]
    simp only []
    rw [e1']
    simp only []
    rw [ho, Int.toNat_natCast]
    rw [← hH, hf0] at hW
    rw [hW]
  obtain ⟨s, u, gen, D', w1, I, hstop⟩ := rloop_spec Q V.hi hτ hτl I0 hcond1
  rw [← hH] at w1 I hstop
  have hch0 : (ch : ℤ) ≠ 0 := by have := V.hch1; omega
  have herr : st1.error = st.error := by rw [h2]
  have hI' : SInv none False co N inc B ch y m st d L n o R0 h H (0 ≤ f.bRealEnd)
      (posAt ⟨k0, i0⟩ (sincRatioAt L t ch o)) (sincRatioAt L t ch o) (Roomy H D0 k0 R0) (f.bRealEnd + ch * H + 5 ≤ f.bEnd) u gen D' s :=
    { I with err := by rw [← herr]; exact I.err }
  refine ⟨s, u, gen, D', ?_, hI', hstop, ?_⟩
  · rw [h1, release_variProcess (ch := ch) (by rw [h2]; exact V.hvt)]
    unfold Release.sincVariProcess
    rw [hpv]
    dsimp only
    rw [hst1, chk64_frames hn g.hnb, chk64_frames ho g.hob]
    simp only [bind, Except.bind]
    rw [hf0] at hhf e1'
    rw [if_neg (by rw [(isBad_false_iff h3).2 vs]; decide), hhf]
    simp only []
    rw [e1']
    simp only []
    rw [hf0] at w1
    rw [ho, Int.toNat_natCast, w1]
    simp only []
    rw [if_neg (by rw [I.stop]; simp), divM_ok hch0, divM_ok hch0]
    simp only [pure, Except.pure]
    rw [I.used, I.gen]
    push_cast
    rw [Int.mul_tdiv_cancel_left _ hch0, Int.mul_tdiv_cancel_left _ hch0]
    obtain ⟨r, hr⟩ : ∃ r, r = st1.lastRatio := ⟨_, rfl⟩
    rw [← hr] at h2
    subst h2
    dsimp only at hst1 ⊢
    rw [← hst1, ← ho]
    rfl
  · refine ⟨V.geo, V.hvt, V.hch, V.hch1, V.hchM, rfl, I.buf, I.idx, posAt_frac (start := ⟨k0, i0⟩) V.hi gen, I.ratio, Or.inr ?_⟩
    split_ifs with hg0
    · exact vs
    · exact (sincRatio_val (cur := st1.lastRatio) (g := gen - 1) h3 g.ht vs g.vt V.hch1 (by have := I.hg; omega) (g.hob.trans (by norm_num)) (fun _ => h3)).2.1


end
end Verif
