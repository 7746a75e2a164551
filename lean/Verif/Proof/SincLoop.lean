import Verif.Proof.SincStep

/-! The processing loop of the sinc converters. -/

namespace Verif
open Spec

/-- Samples written by a call: frame `j` at position `P j`, ratio `ρ j`, with `Ds j` frames of history. -/
def sincSamples (co : ℤ → F32) (N inc : ℤ) (ch : ℕ) (y : ℤ → ℕ → F32) (P : ℕ → Pos) (ρ : ℕ → ℚ) (Ds : ℕ → ℤ) (i : ℕ) : F32 :=
  sincAt co N inc (ρ (i / ch)) (P (i / ch)).i (Ds (i / ch)) (fun z => y ((P (i / ch)).k + z) (i % ch))

theorem sincSamples_frame {co : ℤ → F32} {N inc : ℤ} {ch : ℕ} {y : ℤ → ℕ → F32} {P : ℕ → Pos} {ρ : ℕ → ℚ} {Ds : ℕ → ℤ} {g c : ℕ} (hc : c < ch) :
    sincSamples co N inc ch y P ρ Ds (ch * g + c) = sincAt co N inc (ρ g) (P g).i (Ds g) (fun z => y ((P g).k + z) c) := by
  have hpos : 0 < ch := by omega
  have h1 : (ch * g + c) / ch = g := by
    rw [Nat.mul_add_div hpos, Nat.div_eq_of_lt hc, add_zero]
  have h2 : (ch * g + c) % ch = c := by
    rw [Nat.mul_add_mod, Nat.mod_eq_of_lt hc]
  unfold sincSamples
  rw [h1, h2]

/-- A call of the processing function: parameters and what is assumed of them.  `en`: the end of the input was seen in an earlier
call; otherwise the input frames are frames `R0, R0 + 1, ...` of the stream `y`.  `sg`: whether it is claimed that the call
cannot fail. -/
structure SCall (sg : Guard) (co : ℤ → F32) (N inc B : ℤ) (ch : ℕ) (y : ℤ → ℕ → F32) (m : Mem) (st : SrcState) (d : SrcData) (v : SincVariant)
    (l t : ℚ) (n o R0 : ℕ) (h : ℤ) (en : Prop) : Prop where
  C : SincCtx N inc B ch (sincReach N inc (min l t))
  fits : v.Fits ch
  hch : st.channels = ch
  hl : st.lastRatio.val = some l
  ht : d.srcRatio.val = some t
  vl : ValidRatio l
  vt : ValidRatio t
  hn : d.inputFrames = n
  ho : d.outputFrames = o
  hout : o = 0 ∨ d.dataOut ≠ 0
  hsmall : ch * n < 2147483648
  hob : ch * o ≤ 2 ^ 52
  hdisj : ∀ i < ch * n, ∀ j < ch * o, d.dataIn + (i : ℤ) ≠ d.dataOut + (j : ℤ)
  hdata : ¬ en → ∀ j c : ℕ, j < n → c < ch → m (d.dataIn + ((ch * j + c : ℕ) : ℤ)) = y ((R0 + j : ℕ) : ℤ) c
  hz : ¬ en → d.endOfInput ≠ 0 → (∀ P, sg = some P → P = sincReach N inc (min l t) ∧
    ((ch = 1 ∧ sincReach N inc (min l t) ≤ h) ∨ 4 * (ch * sincReach N inc (min l t)) + 5 ≤ ch * B + 1)) ∧
    ∀ z : ℤ, ((R0 + n : ℕ) : ℤ) ≤ z → ∀ c, y z c = zero32

/-- Loop invariant: `g` frames produced, `u` frames taken in, `D` frames of history in the buffer.  `W`: the samples produced are those of
the specification. -/
structure SInv (sg : Guard) (W : Prop) (co : ℤ → F32) (N inc B : ℤ) (ch : ℕ) (y : ℤ → ℕ → F32) (m : Mem) (st : SrcState) (d : SrcData)
    (l : ℚ) (n o R0 : ℕ) (h H : ℤ) (en : Prop) (P : ℕ → Pos) (ρ : ℕ → ℚ) (roomy0 tail0 : Prop) (u g : ℕ) (D : ℤ) (s : SincLoop) : Prop where
  buf : SBuf sg co N inc B ch y s.f D (P g).k (R0 + u) (min h H)
  hu : u ≤ n
  hg : g ≤ o
  used : s.f.inUsed = ch * u
  count : s.f.inCount = ch * n
  gen : s.f.outGen = ((ch * g : ℕ) : ℤ)
  ocount : s.f.outCount = ((ch * o : ℕ) : ℤ)
  idx : s.idx.val = some (P g).i
  ratio : s.ratio.val = some (if g = 0 then l else ρ (g - 1))
  stop : s.stop = 0
  err : s.error = st.error ∨ s.error = 0
  mem : ∃ (Ds : ℕ → ℤ) (F : ℕ → F32), (∀ j < g, 0 ≤ Ds j ∧ min h H ≤ Ds j) ∧ (W → F = sincSamples co N inc ch y P ρ Ds) ∧
    s.mem = m.setRange d.dataOut (ch * g) F
  ended : 0 ≤ s.f.bRealEnd → (∀ P, sg = some P → H ≤ P) ∧ (en ∨ (u = n ∧ d.endOfInput ≠ 0))
  noten : s.f.bRealEnd < 0 → ¬ en
  enu : en → u = 0
  look : ∀ j < g, ((P j).k : ℤ) + H + 1 ≤ ((R0 + u : ℕ) : ℤ) ∨
    (0 ≤ s.f.bRealEnd ∧ (P j).i + 1 / l - 1 / 1000000 ≤ ((ch * (((R0 + u : ℕ) : ℤ) - (P j).k) : ℤ) : ℚ))
  roomy : s.f.bRealEnd < 0 → roomy0 → Roomy H D (P g).k (R0 + u)
  tail : 4 * (ch * H) + 5 ≤ ch * B + 1 → (en → tail0) → 0 ≤ s.f.bRealEnd → s.f.bRealEnd + ch * H + 5 ≤ s.f.bEnd

/-- Why a call stops before the output is full. -/
def SStop (B : ℤ) (ch : ℕ) (d : SrcData) (l : ℚ) (n R0 : ℕ) (H : ℤ) (roomy0 : Prop) (u : ℕ) (p : Pos) (f : SincFilter) : Prop :=
  (f.bRealEnd < 0 ∧ ((R0 + u : ℕ) : ℤ) - p.k ≤ H ∧
    (d.dataIn = 0 ∨ ((roomy0 → ch = 1 ∨ 3 * H + 1 ≤ B → u = n) ∧ (d.endOfInput ≠ 0 → u ≠ n) ∧ (0 < n → 0 < u)))) ∨
  (0 ≤ f.bRealEnd ∧ (f.bEnd - f.bCurrent ≤ ch * H ∨
    ((ch * (((R0 + u : ℕ) : ℤ) - p.k) : ℤ) : ℚ) ≤ p.i + 1 / l + 1 / 1000000))

/-- `x` does not fail in one of the two ways a call of a sinc converter can fail: by reading outside the history buffer, in the call that
brings the end of the input; or by a failed assertion, with several channels, in that call or after it (`en`: the end of the input was
seen in an earlier call). -/
def Tame (ch : ℕ) (eoi : ℤ) (en : Prop) {α : Type} (x : M α) : Prop :=
  (en ∨ eoi = 0 ∨ x ≠ .error .oobRead) ∧ (ch = 1 ∨ (¬ en ∧ eoi = 0) ∨ x ≠ .error .assertFailed)

theorem Tame.imp {ch : ℕ} {eoi : ℤ} {en : Prop} {α β : Type} {x : M α} {z : M β} (h : Tame ch eoi en x) (hxz : ∀ e, z = .error e → x = .error e) :
    Tame ch eoi en z :=
  ⟨h.1.imp_right (Or.imp_right fun h1 h2 => h1 (hxz _ h2)), h.2.imp_right (Or.imp_right fun h1 h2 => h1 (hxz _ h2))⟩

theorem Tame.bind {ch : ℕ} {eoi : ℤ} {en : Prop} {α β : Type} {x : M α} {g : α → M β} (h : Tame ch eoi en (x >>= g)) : Tame ch eoi en x :=
  h.imp fun e he => by rw [he]; rfl

theorem Tame.ok {ch : ℕ} {eoi : ℤ} {en : Prop} {α : Type} {x : M α} (h : ∃ r, x = .ok r) : Tame ch eoi en x := by
  obtain ⟨r, rfl⟩ := h
  exact ⟨Or.inr (Or.inr (by simp)), Or.inr (Or.inr (by simp))⟩

section
variable {sg : Guard} {W : Prop} {co : ℤ → F32} {N inc B : ℤ} {ch : ℕ} {y : ℤ → ℕ → F32} {m : Mem} {st : SrcState} {d : SrcData} {v : SincVariant}
  {l t : ℚ} {n o R0 : ℕ} {h : ℤ} {en : Prop}

theorem SCall.chz (Q : SCall sg co N inc B ch y m st d v l t n o R0 h en) : (1 : ℤ) ≤ ch := by exact_mod_cast Q.C.ch1

theorem SCall.vmin (Q : SCall sg co N inc B ch y m st d v l t n o R0 h en) : ValidRatio (min l t) :=
  ⟨le_min Q.vl.1 Q.vt.1, (min_le_left _ _).trans Q.vl.2⟩

theorem whileM_or {σ : Type} {eoi : ℤ} {step : σ → M (Bool × σ)} (I Q : σ → Prop) (meas : σ → ℕ)
    (h : ∀ s, I s → (sg.isSome ∨ Tame ch eoi en (step s)) →
      ∃ b s', step s = .ok (b, s') ∧ (b = true → I s' ∧ meas s' < meas s) ∧ (b = false → Q s')) :
    ∀ n s, I s → meas s < n → (sg.isSome ∨ Tame ch eoi en (whileM step n s)) → ∃ s', whileM step n s = .ok s' ∧ Q s' := by
  intro n
  induction n with
  | zero => intro s _ hm; omega
  | succ n ih =>
    intro s hI hm hcond
    have hc1 : sg.isSome ∨ Tame ch eoi en (step s) := hcond.imp_right fun hr => by
      rw [whileM] at hr
      exact hr.bind
    obtain ⟨b, s', h1, h2, h3⟩ := h s hI hc1
    have e : whileM step (n + 1) s = if b = true then whileM step n s' else pure s' := by
      rw [whileM, h1]; rfl
    rw [e] at hcond ⊢
    cases b with
    | false => exact ⟨s', rfl, h3 rfl⟩
    | true =>
      simp only [if_true] at hcond ⊢
      obtain ⟨a, c⟩ := h2 rfl
      exact ih s' a (by omega) hcond

/-- The reload at the start of an iteration. -/
theorem reload_spec (Q : SCall sg co N inc B ch y m st d v l t n o R0 h en) {P : ℕ → Pos} {ρ : ℕ → ℚ} {roomy0 tail0 : Prop} {u g : ℕ} {D : ℤ}
    {s : SincLoop} (I : SInv sg W co N inc B ch y m st d l n o R0 h (sincReach N inc (min l t)) en P ρ roomy0 tail0 u g D s)
    (hcond : sg.isSome ∨ en ∨ d.endOfInput = 0 ∨ sincReload st d (ch * sincReach N inc (min l t)) s ≠ .error .oobRead) :
    ∃ brk s' u' D', sincReload st d (ch * sincReach N inc (min l t)) s = .ok (brk, s') ∧
      SInv sg W co N inc B ch y m st d l n o R0 h (sincReach N inc (min l t)) en P ρ roomy0 tail0 u' g D' s' ∧
      (brk = true → SStop B ch d l n R0 (sincReach N inc (min l t)) roomy0 u' (P g) s'.f) ∧
      (brk = false → ch * sincReach N inc (min l t) < s'.f.bEnd - s'.f.bCurrent) := by
  have C := Q.C
  have hv := Q.vmin
  set H := sincReach N inc (min l t) with hH
  have hch1 := Q.chz
  have hb := C.half_bounds
  unfold sincReload at hcond ⊢
  rw [I.buf.inHand C] at hcond ⊢
  simp only [bind, Except.bind] at hcond ⊢
  by_cases hlow : s.f.bEnd - s.f.bCurrent ≤ ch * H
  swap
  · rw [if_neg hlow]
    exact ⟨false, s, u, D, rfl, I, by simp, fun _ => by omega⟩
  rw [if_pos hlow, Q.hch] at hcond ⊢
  -- nothing to load
  by_cases hor : 0 ≤ s.f.bRealEnd ∨ d.dataIn = 0
  · have e1 : prepareData s.mem s.f ch d (ch * H) = .ok (0, s.f) := by
      unfold prepareData
      by_cases he : 0 ≤ s.f.bRealEnd
      · rw [if_pos he]; rfl
      · rw [if_neg he, if_pos (hor.resolve_left he)]; rfl
    rw [e1]
    simp only []
    rw [if_neg (by simp), I.buf.inHand C]
    refine ⟨true, { s with error := 0 }, u, D, ?_, { I with err := Or.inr rfl }, fun _ => ?_, by simp⟩
    · simp only [pure, Except.pure, decide_eq_true hlow]
    · dsimp only
      by_cases he : 0 ≤ s.f.bRealEnd
      · exact Or.inr ⟨he, Or.inl hlow⟩
      · refine Or.inl ⟨by omega, ?_, Or.inl (hor.resolve_left he)⟩
        rcases I.buf.hend with ⟨_, _, e⟩ | ⟨e, _⟩
        · rw [e, I.buf.hcur] at hlow
          have : (ch : ℤ) * (((R0 + u : ℕ) : ℤ) - (P g).k) ≤ ch * H := by
            rw [show (ch : ℤ) * (((R0 + u : ℕ) : ℤ) - (P g).k) = ch * (D + ((R0 + u : ℕ) : ℤ) - (P g).k) - ch * D by ring]; exact hlow
          exact le_of_mul_le_mul_left this (by omega)
        · omega
  have he : ¬ 0 ≤ s.f.bRealEnd := fun hh => hor (Or.inl hh)
  have hd : ¬ d.dataIn = 0 := fun hh => hor (Or.inr hh)
  have hne : s.f.bRealEnd < 0 := by omega
  have hen := I.noten hne
  obtain ⟨hkR, hE⟩ : (P g).k ≤ R0 + u ∧ s.f.bEnd = ch * (D + ((R0 + u : ℕ) : ℤ) - (P g).k) := by
    rcases I.buf.hend with ⟨_, a, e⟩ | ⟨e, _⟩
    · exact ⟨a, e⟩
    · omega
  have hlowR : ((R0 + u : ℕ) : ℤ) - (P g).k ≤ H := by
    rw [hE, I.buf.hcur] at hlow
    have : (ch : ℤ) * (((R0 + u : ℕ) : ℤ) - (P g).k) ≤ ch * H := by
      rw [show (ch : ℤ) * (((R0 + u : ℕ) : ℤ) - (P g).k) = ch * (D + ((R0 + u : ℕ) : ℤ) - (P g).k) - ch * D by ring]; exact hlow
    exact le_of_mul_le_mul_left this (by omega)
  obtain ⟨Ds, F, hDs, hW, hmem⟩ := I.mem
  have hgo : ch * g ≤ ch * o := Nat.mul_le_mul_left _ I.hg
  have hlen := I.buf.hlen
  have hcond : sg.isSome ∨ d.endOfInput = 0 ∨ prepareData s.mem s.f ch d (ch * H) ≠ .error .oobRead :=
    hcond.imp_right fun hr => (hr.resolve_left hen).imp_right fun h1 h2 => h1 (by rw [h2])
  obtain ⟨bc, be, br, bu, D1, L, e1, S1, hD1, hL, hbr, hbr2, hrm, hrm2, hpos⟩ := prepare_spec C I.buf hne hlowR (m := s.mem) (d := d) (n := n)
    (u := u) (R0 := R0) hd Q.hn rfl I.hu I.used I.count Q.hsmall
    (fun j c hj hc => by
      rw [← Q.hdata hen j c hj hc, hmem]
      apply Mem.setRange_out
      rintro ⟨h1, h2⟩
      have hlt : ch * j + c < ch * n := by
        have : ch * (j + 1) ≤ ch * n := Nat.mul_le_mul_left _ hj
        have e : ch * (j + 1) = ch * j + ch := by ring
        omega
      refine Q.hdisj (ch * j + c) hlt (d.dataIn + ((ch * j + c : ℕ) : ℤ) - d.dataOut).toNat (by omega) ?_
      omega)
    (fun hz => by
      obtain ⟨h1, h3⟩ := Q.hz hen hz
      rw [hlen]
      exact ⟨fun P hs => ⟨(h1 P hs).1.le, (h1 P hs).2.imp_left fun h => ⟨h.1, le_min h.2 le_rfl⟩⟩, h3⟩) hcond
  rw [e1]
  simp only []
  rw [if_neg (by simp), S1.inHand C]
  simp only [pure, Except.pure]
  have S1' := S1.mono (h' := min h H) (le_min le_rfl (min_le_right _ _))
  rw [add_assoc] at S1'
  refine ⟨_, _, u + L, D1, rfl, ?_, ?_, ?_⟩
  · refine ⟨S1', hL, I.hg, rfl, I.count, I.gen, I.ocount, I.idx, I.ratio, I.stop, Or.inr rfl, ⟨Ds, F, hDs, hW, hmem⟩, ?_, ?_, fun hh => absurd hh hen, ?_, ?_, ?_⟩
    · intro hh
      dsimp only at hh
      rcases hbr with h1 | ⟨h1, h2, _⟩
      · omega
      · exact ⟨fun P hs => ((Q.hz hen h2).1 P hs).1.ge, Or.inr ⟨h1, h2⟩⟩
    · intro _; exact hen
    · intro j hj
      rcases I.look j hj with h1 | ⟨h1, _⟩
      · left
        push_cast at h1 ⊢
        omega
      · omega
    · intro _ hr
      rw [← add_assoc]
      exact hrm (I.roomy hne hr)
    · intro h4 _ hh
      dsimp only at hh ⊢
      rcases hbr with h1 | ⟨_, _, h3⟩
      · omega
      · rw [hlen] at h3
        have := h3 h4
        omega
  · intro hbrk
    have hlow2 := of_decide_eq_true hbrk
    dsimp only at hlow2 ⊢
    by_cases hbr0 : 0 ≤ br
    · exact Or.inr ⟨hbr0, Or.inl hlow2⟩
    · have hR2 : ((R0 + (u + L) : ℕ) : ℤ) - (P g).k ≤ H := by
        rcases S1'.hend with ⟨_, _, e⟩ | ⟨e, _⟩
        · have hc := S1'.hcur
          dsimp only at e hc
          rw [e, hc] at hlow2
          have : (ch : ℤ) * (((R0 + (u + L) : ℕ) : ℤ) - (P g).k) ≤ ch * H := by
            rw [show (ch : ℤ) * (((R0 + (u + L) : ℕ) : ℤ) - (P g).k) = ch * (D1 + ((R0 + (u + L) : ℕ) : ℤ) - (P g).k) - ch * D1 by ring]; exact hlow2
          exact le_of_mul_le_mul_left this (by omega)
        · dsimp only at e; omega
      refine Or.inl ⟨by dsimp only; omega, hR2, Or.inr ⟨?_, ?_, fun hn => ?_⟩⟩
      · intro hr0 hcB
        exact hrm2 (I.roomy hne hr0) hcB (by rw [add_assoc]; exact hR2)
      · intro heoi hun
        have := hbr2 (by omega) heoi hun
        rw [add_assoc] at this
        have := C.H6
        omega
      · rcases Nat.lt_or_ge u n with hlt | hge
        · have := hpos hlt; omega
        · omega
  · intro hbrk
    have := of_decide_eq_false hbrk
    dsimp only at this ⊢
    omega

/-- The second half of an iteration: writing the output frame and advancing the position. -/
theorem sstep_after (Q : SCall sg co N inc B ch y m st d v l t n o R0 h en) {k0 : ℕ} {i0 : ℚ} (hi0 : 0 ≤ i0 ∧ i0 < 1)
    {roomy0 tail0 : Prop} {u1 g : ℕ} {D1 : ℤ} {s1 : SincLoop} (hgo : g < o)
    (I1 : SInv sg W co N inc B ch y m st d l n o R0 h (sincReach N inc (min l t)) en (posAt ⟨k0, i0⟩ (sincRatioAt l t ch o)) (sincRatioAt l t ch o)
      roomy0 tail0 u1 g D1 s1)
    (hin : ch * sincReach N inc (min l t) < s1.f.bEnd - s1.f.bCurrent)
    (hnd : 0 ≤ s1.f.bRealEnd → (posAt ⟨k0, i0⟩ (sincRatioAt l t ch o) g).i + 1 / l - 1 / 1000000 ≤
      ((ch * (((R0 + u1 : ℕ) : ℤ) - (posAt ⟨k0, i0⟩ (sincRatioAt l t ch o) g).k) : ℤ) : ℚ))
    {ratio : F64} (hrv : ratio.val = some (sincRatioAt l t ch o g)) (vr : ValidRatio (sincRatioAt l t ch o g))
    (hrlow : (1 - p2 (-36)) * min l t ≤ sincRatioAt l t ch o g) {sum : ℕ → F64}
    (hsum : W → ∀ c < ch, Fl.conv f32 (Fl.mul (Fl.round f64 (sincInc inc (sincRatioAt l t ch o g) / inc)) (sum c)) =
      sincAt co N inc (sincRatioAt l t ch o g) (posAt ⟨k0, i0⟩ (sincRatioAt l t ch o) g).i D1 (fun z => y ((posAt ⟨k0, i0⟩ (sincRatioAt l t ch o) g).k + z) c)) :
    ∃ mem f idx D2, writeOutputs s1.mem d ch ch ((ch * g : ℕ) : ℤ) (Fl.round f64 (sincInc inc (sincRatioAt l t ch o g) / inc)) sum = .ok mem ∧
      sincNorm ch { s1.f with outGen := ((ch * g : ℕ) : ℤ) + ch, outCount := ((ch * o : ℕ) : ℤ), indexInc := inc } (Fl.add s1.idx (Fl.div one64 ratio)) = .ok (f, idx) ∧
      SInv sg W co N inc B ch y m st d l n o R0 h (sincReach N inc (min l t)) en (posAt ⟨k0, i0⟩ (sincRatioAt l t ch o)) (sincRatioAt l t ch o)
        roomy0 tail0 u1 (g + 1) D2 { s1 with mem, f, idx, ratio } := by
  have C := Q.C
  have hv := Q.vmin
  have hch1 := Q.chz
  have hb := C.half_bounds
  have hfr := posAt_frac (start := ⟨k0, i0⟩) (ρ := sincRatioAt l t ch o) hi0 g
  set H := sincReach N inc (min l t) with hH
  have hwr := writeOutputs_spec (m := s1.mem) (scale := Fl.round f64 (sincInc inc (sincRatioAt l t ch o g) / inc)) (sum := sum) C.ch1 Q.ho hgo (Q.hout.resolve_left (by omega))
  -- the position
  have hρ0 : (0 : ℚ) < sincRatioAt l t ch o g := lt_of_lt_of_le (by norm_num) vr.1
  have hinv0 : 0 < 1 / sincRatioAt l t ch o g := by positivity
  have hinv : 1 / sincRatioAt l t ch o g ≤ 256 := by rw [div_le_iff₀ hρ0]; linarith [vr.1]
  have hd1 := div64 one64_val hrv hρ0.ne' (by rw [abs_of_pos hinv0]; linarith)
  have hri : r64 (1 / sincRatioAt l t ch o g) ≤ 256 := by
    have := rq_le (f := f64) (q := 1 / sincRatioAt l t ch o g) (rep64_nat (n := 256) (by norm_num)) (by exact_mod_cast hinv)
    exact_mod_cast this
  have hri0 : 0 ≤ r64 (1 / sincRatioAt l t ch o g) := rq_nonneg hinv0.le
  have hT := add64 I1.idx hd1 (by rw [abs_of_nonneg (by linarith [hfr.1])]; linarith [hfr.2])
  have hT0 : 0 ≤ r64 ((posAt ⟨k0, i0⟩ (sincRatioAt l t ch o) g).i + r64 (1 / sincRatioAt l t ch o g)) := rq_nonneg (by linarith [hfr.1])
  have hT1 : r64 ((posAt ⟨k0, i0⟩ (sincRatioAt l t ch o) g).i + r64 (1 / sincRatioAt l t ch o g)) ≤ 300 := by
    have := rq_le (f := f64) (q := (posAt ⟨k0, i0⟩ (sincRatioAt l t ch o) g).i + r64 (1 / sincRatioAt l t ch o g))
      (rep64_nat (n := 300) (by norm_num)) (by push_cast; linarith [hfr.2])
    exact_mod_cast this
  have hsl := C.geo.step_lt hv.1 hv.2 hrlow vr.1 hfr.1 hfr.2
  rw [← hH] at hsl
  have hnext : posAt ⟨k0, i0⟩ (sincRatioAt l t ch o) (g + 1) =
      ⟨(posAt ⟨k0, i0⟩ (sincRatioAt l t ch o) g).k + ⌊r64 ((posAt ⟨k0, i0⟩ (sincRatioAt l t ch o) g).i + r64 (1 / sincRatioAt l t ch o g))⌋.toNat,
        Int.fract (r64 ((posAt ⟨k0, i0⟩ (sincRatioAt l t ch o) g).i + r64 (1 / sincRatioAt l t ch o g)))⟩ := rfl
  generalize r64 ((posAt ⟨k0, i0⟩ (sincRatioAt l t ch o) g).i + r64 (1 / sincRatioAt l t ch o g)) = T at *
  have hfl0 : 0 ≤ ⌊T⌋ := Int.floor_nonneg.2 hT0
  obtain ⟨q, hq⟩ : ∃ q : ℕ, ⌊T⌋ = q := ⟨⌊T⌋.toNat, by omega⟩
  rw [hq, Int.toNat_natCast] at hnext
  have hsl' : 2 * (q : ℤ) + 2 ≤ H := by rw [← hq]; exact hsl
  have hcq : (ch : ℤ) * q ≤ ch * H := mul_le_mul_of_nonneg_left (by omega) (by omega)
  have hbe := I1.buf.hbe
  have S1' : SBuf sg co N inc B ch y { s1.f with outGen := ((ch * g : ℕ) : ℤ) + ch, outCount := ((ch * o : ℕ) : ℤ), indexInc := inc } D1
      (posAt ⟨k0, i0⟩ (sincRatioAt l t ch o) g).k (R0 + u1) (min h H) :=
    ⟨I1.buf.hN, rfl, I1.buf.hco, I1.buf.hlen, I1.buf.hcur, I1.buf.hD0, I1.buf.hend, I1.buf.hle, I1.buf.hbe, I1.buf.hlt, I1.buf.hD, I1.buf.hneg, I1.buf.hbuf⟩
  have S2 := S1'.advance C hin (s := q) (by omega) (((ch * g : ℕ) : ℤ) + ch)
  obtain ⟨e5, hidx⟩ := sincNorm_spec C S1' hT hT0 hT1 (by dsimp only; rw [hq]; omega)
  dsimp only at e5
  have hge : ((ch * g : ℕ) : ℤ) + ch = ((ch * (g + 1) : ℕ) : ℤ) := by push_cast; ring
  refine ⟨_, _, _, D1 + q, hwr, e5, ?_⟩
  obtain ⟨Ds, F, hDs, hW, hmem⟩ := I1.mem
  have hD1 : 1 ≤ D1 ∧ min h H ≤ D1 := by
    rcases I1.buf.hD with ⟨h1, h2, h3, h4, _⟩ | h1
    · exfalso
      have hE : s1.f.bEnd = 0 := by
        rcases I1.buf.hend with ⟨_, _, e⟩ | ⟨e, _⟩
        · rw [e, h1, h3, h4]; simp
        · omega
      have := I1.buf.hcur
      rw [h1, mul_zero] at this
      omega
    · exact h1
  refine ⟨?_, I1.hu, hgo, I1.used, I1.count, hge, rfl, ?_, ?_, I1.stop, I1.err, ?_, I1.ended, I1.noten, I1.enu, ?_, ?_, I1.tail⟩
  · rw [hnext, hq]
    exact S2
  · rw [hnext]; exact hidx
  · dsimp only
    rw [if_neg (by omega), Nat.add_sub_cancel]; exact hrv
  · have hDs' : ∀ j < g + 1, 0 ≤ (if j = g then D1 else Ds j) ∧ min h H ≤ (if j = g then D1 else Ds j) := by
      intro j hj
      split_ifs with hjg
      · exact ⟨by omega, hD1.2⟩
      · exact hDs j (by omega)
    by_cases hW1 : W
    swap
    · refine ⟨fun j => if j = g then D1 else Ds j, fun i => if i < ch * g then F i else
        Fl.conv f32 (Fl.mul (Fl.round f64 (sincInc inc (sincRatioAt l t ch o g) / inc)) (sum (i - ch * g))), hDs', fun h => absurd h hW1, ?_⟩
      dsimp only
      have hcong : m.setRange d.dataOut (ch * g) F = m.setRange d.dataOut (ch * g) (fun i => if i < ch * g then F i else
          Fl.conv f32 (Fl.mul (Fl.round f64 (sincInc inc (sincRatioAt l t ch o g) / inc)) (sum (i - ch * g)))) := by
        funext a
        simp only [Mem.setRange]
        split_ifs with ha hb
        · rfl
        · omega
        · rfl
      rw [hmem, hcong, Mem.setRange_append m d.dataOut (ch * g) ch (fun i => if i < ch * g then F i else
          Fl.conv f32 (Fl.mul (Fl.round f64 (sincInc inc (sincRatioAt l t ch o g) / inc)) (sum (i - ch * g))))]
      · congr 1
      · intro c hc
        rw [if_neg (by omega), Nat.add_sub_cancel_left]
    have hsum := hsum hW1
    refine ⟨fun j => if j = g then D1 else Ds j, _, hDs', fun _ => rfl, ?_⟩
    · dsimp only
      rw [hmem, hW hW1]
      have hcong : m.setRange d.dataOut (ch * g) (sincSamples co N inc ch y (posAt ⟨k0, i0⟩ (sincRatioAt l t ch o)) (sincRatioAt l t ch o) Ds) =
          m.setRange d.dataOut (ch * g) (sincSamples co N inc ch y (posAt ⟨k0, i0⟩ (sincRatioAt l t ch o)) (sincRatioAt l t ch o)
            (fun j => if j = g then D1 else Ds j)) := by
        funext a
        simp only [Mem.setRange]
        split_ifs with ha
        · unfold sincSamples
          have : (a - d.dataOut).toNat / ch < g := by
            rw [Nat.div_lt_iff_lt_mul (by have := C.ch1; omega), mul_comm]
            omega
          dsimp only
          rw [if_neg (by omega)]
        · rfl
      rw [hcong, Mem.setRange_append m d.dataOut (ch * g) ch
        (sincSamples co N inc ch y (posAt ⟨k0, i0⟩ (sincRatioAt l t ch o)) (sincRatioAt l t ch o) (fun j => if j = g then D1 else Ds j))]
      · congr 1
      · intro c hc
        rw [sincSamples_frame hc, if_pos rfl]
        exact hsum c hc
  · intro j hj
    dsimp only
    by_cases hjg : j = g
    · subst hjg
      by_cases he : 0 ≤ s1.f.bRealEnd
      · exact Or.inr ⟨he, hnd he⟩
      · left
        rcases I1.buf.hend with ⟨_, _, e⟩ | ⟨e, _⟩
        · rw [e, I1.buf.hcur] at hin
          have : (ch : ℤ) * H < ch * (((R0 + u1 : ℕ) : ℤ) - (posAt ⟨k0, i0⟩ (sincRatioAt l t ch o) j).k) := by
            rw [show (ch : ℤ) * (((R0 + u1 : ℕ) : ℤ) - (posAt ⟨k0, i0⟩ (sincRatioAt l t ch o) j).k) = ch * (D1 + ((R0 + u1 : ℕ) : ℤ) - (posAt ⟨k0, i0⟩ (sincRatioAt l t ch o) j).k) - ch * D1 by ring]; exact hin
          have := lt_of_mul_lt_mul_left this (by omega)
          omega
        · omega
    · exact I1.look j (by omega)
  · intro hne hr
    dsimp only at hne
    right; right
    rcases I1.buf.hend with ⟨_, _, e⟩ | ⟨e, _⟩
    · rw [e, I1.buf.hcur] at hin
      have : (ch : ℤ) * H < ch * (((R0 + u1 : ℕ) : ℤ) - (posAt ⟨k0, i0⟩ (sincRatioAt l t ch o) g).k) := by
        rw [show (ch : ℤ) * (((R0 + u1 : ℕ) : ℤ) - (posAt ⟨k0, i0⟩ (sincRatioAt l t ch o) g).k) = ch * (D1 + ((R0 + u1 : ℕ) : ℤ) - (posAt ⟨k0, i0⟩ (sincRatioAt l t ch o) g).k) - ch * D1 by ring]; exact hin
      have := lt_of_mul_lt_mul_left this (by omega)
      rw [hnext]
      push_cast at this ⊢
      omega
    · omega

/-- One iteration. -/
theorem sstep_spec (Q : SCall sg co N inc B ch y m st d v l t n o R0 h en) {k0 : ℕ} {i0 : ℚ} (hi0 : 0 ≤ i0 ∧ i0 < 1) {τv : F64} {τ : ℚ}
    (hτ : τv.val = some τ) (hτl : |τ - 1 / l| ≤ 1 / 10000000000) {roomy0 tail0 : Prop} {u g : ℕ} {D : ℤ} {s : SincLoop}
    (I : SInv sg W co N inc B ch y m st d l n o R0 h (sincReach N inc (min l t)) en (posAt ⟨k0, i0⟩ (sincRatioAt l t ch o)) (sincRatioAt l t ch o)
      roomy0 tail0 u g D s)
    (hcond : sg.isSome ∨ Tame ch d.endOfInput en (sincStep v st d (ch * sincReach N inc (min l t)) τv s)) :
    ∃ b s', sincStep v st d (ch * sincReach N inc (min l t)) τv s = .ok (b, s') ∧
      (b = true → g < o ∧ ∃ u' D', SInv sg W co N inc B ch y m st d l n o R0 h (sincReach N inc (min l t)) en
        (posAt ⟨k0, i0⟩ (sincRatioAt l t ch o)) (sincRatioAt l t ch o) roomy0 tail0 u' (g + 1) D' s') ∧
      (b = false → ∃ u' D', SInv sg W co N inc B ch y m st d l n o R0 h (sincReach N inc (min l t)) en
        (posAt ⟨k0, i0⟩ (sincRatioAt l t ch o)) (sincRatioAt l t ch o) roomy0 tail0 u' g D' s' ∧
        (g < o → SStop B ch d l n R0 (sincReach N inc (min l t)) roomy0 u' (posAt ⟨k0, i0⟩ (sincRatioAt l t ch o) g) s'.f)) := by
  have C := Q.C
  have hv := Q.vmin
  have hch1 := Q.chz
  have hb := C.half_bounds
  unfold sincStep at hcond ⊢
  by_cases hgo : g < o
  swap
  · rw [if_pos]
    · exact ⟨false, s, rfl, by simp, fun _ => ⟨u, D, I, fun hh => absurd hh hgo⟩⟩
    · rw [I.gen, I.ocount]
      have : ch * o ≤ ch * g := Nat.mul_le_mul_left _ (by omega)
      push_cast
      have : ((ch * o : ℕ) : ℤ) ≤ ((ch * g : ℕ) : ℤ) := by exact_mod_cast this
      push_cast at this
      omega
  have hlt : ¬ ¬ (s.f.outGen < s.f.outCount) := by
    rw [I.gen, I.ocount, not_not]
    exact_mod_cast Nat.mul_lt_mul_of_pos_left hgo C.ch1
  rw [if_neg hlt] at hcond ⊢
  obtain ⟨brk, s1, u1, D1, e1, I1, hstop, hgoon⟩ := reload_spec Q I (hcond.imp_right fun h => h.bind.1)
  rw [e1] at hcond ⊢
  simp only [bind, Except.bind] at hcond ⊢
  cases brk with
  | true =>
    simp only [if_true]
    exact ⟨false, s1, rfl, by simp, fun _ => ⟨u1, D1, I1, fun _ => hstop rfl⟩⟩
  | false =>
  have hin := hgoon rfl
  clear hstop hgoon e1 I hlt
  simp only [Bool.false_eq_true, if_false] at hcond ⊢
  have hfr := posAt_frac (start := ⟨k0, i0⟩) (ρ := sincRatioAt l t ch o) hi0 g
  set H := sincReach N inc (min l t) with hH
  cases hdone : sincDone v s1.f s1.idx τv with
  | true =>
    simp only [if_true]
    refine ⟨false, s1, rfl, by simp, fun _ => ⟨u1, D1, I1, fun _ => Or.inr ?_⟩⟩
    have he : 0 ≤ s1.f.bRealEnd := by
      by_contra hh
      unfold sincDone at hdone
      rw [if_neg hh] at hdone
      exact absurd hdone (by simp)
    exact ⟨he, Or.inr ((sincDone_spec v I1.buf C he I1.idx hfr.1 hfr.2 hτ Q.vl hτl).1 hdone)⟩
  | false =>
  rw [hdone] at hcond
  simp only [Bool.false_eq_true, if_false] at hcond ⊢
  have hnd : 0 ≤ s1.f.bRealEnd → (posAt ⟨k0, i0⟩ (sincRatioAt l t ch o) g).i + 1 / l - 1 / 1000000 ≤
      ((ch * (((R0 + u1 : ℕ) : ℤ) - (posAt ⟨k0, i0⟩ (sincRatioAt l t ch o) g).k) : ℤ) : ℚ) := fun he =>
    (sincDone_spec v I1.buf C he I1.idx hfr.1 hfr.2 hτ Q.vl hτl).2 hdone
  -- the ratio
  obtain ⟨hrv, vr, hrlow⟩ := sincRatio_val (cur := s1.ratio) (g := g) Q.hl Q.ht Q.vl Q.vt C.ch1 hgo (Q.hob.trans (by norm_num)) (by
    intro hnear
    rw [I1.ratio]
    congr 1
    split_ifs
    · rfl
    · unfold sincRatioAt
      rw [if_pos hnear])
  rw [I1.gen, I1.ocount, I1.buf.hinc, Q.hch] at hcond ⊢
  generalize hrat : sincRatio st.lastRatio d.srcRatio ((ch * g : ℕ) : ℤ) ((ch * o : ℕ) : ℤ) s1.ratio = ratio at *
  obtain ⟨v1, v2, v3⟩ := C.geo.step_vals hrv vr.1 I1.idx hfr.1 hfr.2
  rw [v1, v2] at hcond
  rw [v1, v2, v3]
  -- the output
  have hl0 : (0 : ℚ) < l := lt_of_lt_of_le (by norm_num) Q.vl.1
  have hl1 : (1 : ℚ) / 256 ≤ 1 / l := one_div_le_one_div_of_le hl0 Q.vl.2
  have hroom : ch * (D1 + H + 1) ≤ s1.f.bEnd ∨ calcOutput v s1.f ch (rne (sincInc inc (sincRatioAt l t ch o g) * 4096))
      (rne (r64 ((posAt ⟨k0, i0⟩ (sincRatioAt l t ch o) g).i * sincInc inc (sincRatioAt l t ch o g)) * 4096)) ≠ .error .assertFailed := by
    have hcur := I1.buf.hcur
    rcases I1.buf.hend with ⟨_, _, e⟩ | ⟨he, e2, e3, e4, _⟩
    · left
      rw [e, hcur] at hin
      have : (ch : ℤ) * H < ch * (((R0 + u1 : ℕ) : ℤ) - (posAt ⟨k0, i0⟩ (sincRatioAt l t ch o) g).k) := by
        rw [show (ch : ℤ) * (((R0 + u1 : ℕ) : ℤ) - (posAt ⟨k0, i0⟩ (sincRatioAt l t ch o) g).k) = ch * (D1 + ((R0 + u1 : ℕ) : ℤ) - (posAt ⟨k0, i0⟩ (sincRatioAt l t ch o) g).k) - ch * D1 by ring]; exact hin
      have := lt_of_mul_lt_mul_left this (by omega)
      rw [e]
      exact mul_le_mul_of_nonneg_left (by omega) (by omega)
    · have hone : ch = 1 → (ch : ℤ) * (D1 + H + 1) ≤ s1.f.bEnd := by
        intro e4
        rw [e4] at hin hcur ⊢
        push_cast at hin hcur ⊢
        omega
      rcases hcond with hs | hr
      swap
      · have hr := (hr.imp (z := calcOutput v s1.f ch (rne (sincInc inc (sincRatioAt l t ch o g) * 4096))
          (rne (r64 ((posAt ⟨k0, i0⟩ (sincRatioAt l t ch o) g).i * sincInc inc (sincRatioAt l t ch o g)) * 4096))) fun e he => by rw [he]).2
        rcases hr with h1 | ⟨h1, h2⟩ | h1
        · exact Or.inl (hone h1)
        · rcases (I1.ended he).2 with h3 | ⟨_, h3⟩
          · exact absurd h3 h1
          · exact absurd h2 h3
        · exact Or.inr h1
      left
      obtain ⟨pad, hpad⟩ := Option.isSome_iff_exists.1 hs
      rcases e4 pad hpad with e4 | e4
      · rw [e4] at hin hcur ⊢
        push_cast at hin hcur ⊢
        omega
      · have hHh := (I1.ended he).1 pad hpad
        have e5 : (ch : ℤ) * H ≤ ch * pad := mul_le_mul_of_nonneg_left hHh (by omega)
        have hp := hnd he
        have hpos : (0 : ℚ) < ((ch * (((R0 + u1 : ℕ) : ℤ) - (posAt ⟨k0, i0⟩ (sincRatioAt l t ch o) g).k) : ℤ) : ℚ) := by
          linarith [hfr.1]
        have hposz : (0 : ℤ) < ch * (((R0 + u1 : ℕ) : ℤ) - (posAt ⟨k0, i0⟩ (sincRatioAt l t ch o) g).k) := by exact_mod_cast hpos
        have := (mul_pos_iff_of_pos_left (by omega : (0 : ℤ) < ch)).1 hposz
        have h1 : (ch : ℤ) * (D1 + H + 1) ≤ ch * (D1 + ((R0 + u1 : ℕ) : ℤ) - (posAt ⟨k0, i0⟩ (sincRatioAt l t ch o) g).k + H) :=
          mul_le_mul_of_nonneg_left (by omega) (by omega)
        have h2 : (ch : ℤ) * (D1 + ((R0 + u1 : ℕ) : ℤ) - (posAt ⟨k0, i0⟩ (sincRatioAt l t ch o) g).k + H) = s1.f.bRealEnd + ch * H := by
          rw [e2]; ring
        omega
  obtain ⟨sum, e4, hsum⟩ := output_spec C I1.buf Q.fits hv.1 hrlow vr.1 hfr.1 hfr.2 hin hroom
  obtain ⟨mem, f', idx', D2, e5, e6, I2⟩ := sstep_after Q hi0 hgo I1 hin hnd hrv vr hrlow (fun _ => hsum)
  rw [e4]
  simp only []
  rw [Q.fits.1, e5]
  simp only []
  rw [e6]
  simp only [pure, Except.pure]
  exact ⟨true, _, rfl, fun _ => ⟨hgo, u1, D2, I2⟩, by simp⟩

/-- The loop. -/
theorem sloop_spec (Q : SCall sg co N inc B ch y m st d v l t n o R0 h en) {k0 : ℕ} {i0 : ℚ} (hi0 : 0 ≤ i0 ∧ i0 < 1) {τv : F64} {τ : ℚ}
    (hτ : τv.val = some τ) (hτl : |τ - 1 / l| ≤ 1 / 10000000000) {roomy0 tail0 : Prop} {D : ℤ} {s : SincLoop}
    (I : SInv sg W co N inc B ch y m st d l n o R0 h (sincReach N inc (min l t)) en (posAt ⟨k0, i0⟩ (sincRatioAt l t ch o)) (sincRatioAt l t ch o)
      roomy0 tail0 0 0 D s)
    (hcond : sg.isSome ∨ Tame ch d.endOfInput en (whileM (sincStep v st d (ch * sincReach N inc (min l t)) τv) (o + 1) s)) :
    ∃ s' u g D', whileM (sincStep v st d (ch * sincReach N inc (min l t)) τv) (o + 1) s = .ok s' ∧
      SInv sg W co N inc B ch y m st d l n o R0 h (sincReach N inc (min l t)) en
        (posAt ⟨k0, i0⟩ (sincRatioAt l t ch o)) (sincRatioAt l t ch o) roomy0 tail0 u g D' s' ∧
      (g < o → SStop B ch d l n R0 (sincReach N inc (min l t)) roomy0 u (posAt ⟨k0, i0⟩ (sincRatioAt l t ch o) g) s'.f) := by
  have hch1 := Q.C.ch1
  obtain ⟨s', h1, u, g, D', h2, h3⟩ := whileM_or (sg := sg) (ch := ch) (en := en) (eoi := d.endOfInput)
    (step := sincStep v st d (ch * sincReach N inc (min l t)) τv)
    (fun s => ∃ u g D, SInv sg W co N inc B ch y m st d l n o R0 h (sincReach N inc (min l t)) en
        (posAt ⟨k0, i0⟩ (sincRatioAt l t ch o)) (sincRatioAt l t ch o) roomy0 tail0 u g D s)
    (fun s => ∃ u g D, SInv sg W co N inc B ch y m st d l n o R0 h (sincReach N inc (min l t)) en
        (posAt ⟨k0, i0⟩ (sincRatioAt l t ch o)) (sincRatioAt l t ch o) roomy0 tail0 u g D s ∧
        (g < o → SStop B ch d l n R0 (sincReach N inc (min l t)) roomy0 u (posAt ⟨k0, i0⟩ (sincRatioAt l t ch o) g) s.f))
    (fun s => o - (s.f.outGen / ch).toNat)
    (by
      rintro s ⟨u, g, D, I⟩ hc
      obtain ⟨b, s', h1, h2, h3⟩ := sstep_spec Q hi0 hτ hτl I hc
      refine ⟨b, s', h1, fun hb => ?_, fun hb => ?_⟩
      · obtain ⟨hgo, u', D', I'⟩ := h2 hb
        refine ⟨⟨u', g + 1, D', I'⟩, ?_⟩
        have e1 : s.f.outGen / ch = g := by
          rw [I.gen]; push_cast; exact Int.mul_ediv_cancel_left _ (by omega)
        have e2 : s'.f.outGen / ch = g + 1 := by
          rw [I'.gen]; push_cast; exact Int.mul_ediv_cancel_left _ (by omega)
        rw [e1, e2]
        omega
      · obtain ⟨u', D', I', hs⟩ := h3 hb
        exact ⟨u', g, D', I', hs⟩)
    (o + 1) s ⟨0, 0, D, I⟩ (by omega) hcond
  exact ⟨s', u, g, D', h1, h2, h3⟩

end
end Verif
