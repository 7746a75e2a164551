import Verif.Proof.CallbackFuel
import Verif.Proof.SincLive

/-! `src_callback_read` returns on handles of the sinc converters (C39). -/

namespace Verif
open Spec

/-- A sinc handle before the end of input, or past it. -/
structure SOk (co : ℤ → F32) (N inc B : ℤ) (ch : ℕ) (st : SrcState) : Prop where
  geo : Geom N inc B
  hB : B = 3 * sincReach N inc (1 / 256)
  hvt : st.vt = sincVt ch
  hch : st.channels = ch
  hch1 : 1 ≤ ch
  hchM : ch ≤ 128
  filter : ∃ f, st.priv = .sinc f ∧ f.coeffHalfLen = N ∧ f.indexInc = inc ∧ f.coeffs = co ∧ f.bLen = ch * B + 1
  live : SEnded st ∨ SHist co N inc B ch .endless { st with mode := .process }

section
variable {co : ℤ → F32} {N inc B : ℤ} {ch : ℕ} {st st' : SrcState} {d d' : SrcData} {m m' : Mem}

theorem SHist.not_ended (S : SHist co N inc B ch .endless st) : ¬ SEnded st := by
  obtain ⟨P, l, y, f, D, k, R, i, h, V, hU⟩ := S.view
  rintro ⟨f', h1, h2⟩
  rw [V.hpriv] at h1
  cases h1
  have : f.bRealEnd < 0 := hU
  omega

theorem SOk.of_hist (S : SHist co N inc B ch .endless { st with mode := .process }) : SOk co N inc B ch st := by
  obtain ⟨P, l, y, f, D, k, R, i, h, V, hU⟩ := id S.view
  exact ⟨V.geo, S.hB, V.hvt, V.hch, V.hch1, V.hchM, ⟨f, V.hpriv, V.buf.hN, V.buf.hinc, V.buf.hco, V.buf.hlen⟩, Or.inr S⟩

theorem SView.alike {sg : Guard} {l : ℚ} {y : ℤ → ℕ → F32} {f : SincFilter} {D : ℤ} {k R : ℕ} {i : ℚ} {h : ℤ} (V : SView sg co N inc B st ch l y f D k R i h)
    (hA : Alike st st') : SView sg co N inc B st' ch l y f D k R i h := by
  obtain ⟨h1, h2, h3, h4, h5⟩ := alike_iff.1 hA
  exact ⟨V.geo, h1.trans V.hvt, h4.trans V.hch, V.hch1, V.hchM, h5.trans V.hpriv, V.buf, by rw [h3]; exact V.hpos, V.hi, by rw [h2]; exact V.hl, V.vl⟩

theorem SEnded.alike (h : SEnded st) (hA : Alike st st') : SEnded st' := by
  obtain ⟨f, h1, h2⟩ := h
  exact ⟨f, (alike_iff.1 hA).2.2.2.2.trans h1, h2⟩

theorem SHist.alike {u : Phase} (S : SHist co N inc B ch u st) (hA : Alike st st') (hm : st'.mode = .process) : SHist co N inc B ch u st' := by
  obtain ⟨P, l, y, f, D, k, R, i, h, V, hU⟩ := S.view
  exact ⟨hm, S.hB, P, l, y, f, D, k, R, i, h, V.alike hA, hU⟩

theorem SOk.alike (S : SOk co N inc B ch st) (hA : Alike st st') : SOk co N inc B ch st' := by
  obtain ⟨h1, h2, h3, h4, h5⟩ := alike_iff.1 hA
  obtain ⟨f, hf, hr⟩ := S.filter
  refine ⟨S.geo, S.hB, h1.trans S.hvt, h4.trans S.hch, S.hch1, S.hchM, ⟨f, h5.trans hf, hr⟩, ?_⟩
  rcases S.live with h | h
  · exact Or.inl (h.alike hA)
  · exact Or.inr (h.alike (alike_iff.2 ⟨h1, h2, h3, h4, h5⟩) rfl)

theorem SOk.handle (S : SOk co N inc B ch st) : SincHandle st := by
  obtain ⟨f, hf, h1, h2, h3, h4⟩ := S.filter
  refine ⟨by rw [S.hch]; exact S.hvt, by rw [S.hch]; exact_mod_cast S.hchM, f, N, B, hf, by rw [h2]; exact S.geo⟩

/-- A call of `src_process`. -/
theorem SOk.process (S : SOk co N inc B ch st) (L : Like st st) (hm : st.mode = .process) (hO : SincSized ch d) {e : ℤ} {x : Option SrcData}
    (h : srcProcess m (some st) (some d) = .ok (e, m', some st', x)) :
    SOk co N inc B ch st' ∧ (SEnded st' → SEnded st ∨ d.endOfInput ≠ 0) := by
  obtain ⟨s1, hs1, L1⟩ := process_like L h
  cases hs1
  obtain ⟨f, hf, h1, h2, h3, h4⟩ := S.filter
  have hfil : ∃ f', st'.priv = .sinc f' ∧ f'.coeffHalfLen = N ∧ f'.indexInc = inc ∧ f'.coeffs = co ∧ f'.bLen = ch * B + 1 := by
    have hp := L1.priv
    rw [hf] at hp
    cases hp' : st'.priv <;> rw [hp'] at hp <;> simp only [PrivLike] at hp
    rename_i g
    exact ⟨g, rfl, hp.1.halfLen.trans h1, hp.1.inc.trans h2, hp.1.co.trans h3, hp.1.bLen.trans h4⟩
  have hm' : st'.mode = .process := L1.mode.trans hm
  have go : ∀ (d : SrcData) (x : Option SrcData), SincSized ch d → d.endOfInput = 0 → SHist co N inc B ch .endless { st with mode := .process } →
      srcProcess m (some st) (some d) = .ok (e, m', some st', x) → SHist co N inc B ch .endless { st' with mode := .process } := by
    intro d x hO he hS hp
    have hst : { st with mode := .process } = st := by rw [← hm]
    rw [hst] at hS
    obtain ⟨e1, m1, s1, x1, w1, w2, _⟩ := sinc_process_total hS hO he m
    rw [hp] at w1
    have w1 := ok_inj w1
    simp only [Prod.mk.injEq, Option.some.injEq] at w1
    rw [← w1.2.2.1] at w2
    have : { st' with mode := .process } = st' := by rw [← hm']
    rw [this]
    exact w2
  refine ⟨⟨S.geo, S.hB, L1.vt.trans S.hvt, L1.channels.trans S.hch, S.hch1, S.hchM, hfil, ?_⟩, fun hE => ?_⟩
  · by_cases hE : SEnded st'
    · exact Or.inl hE
    obtain ⟨a, x', b⟩ := process_live S.hvt hf h hE
    exact Or.inr (go { d with endOfInput := 0 } _ ⟨hO.ratio, hO.inSize, hO.outSize⟩ rfl (S.live.resolve_left a) b)
  · by_contra hc
    push Not at hc
    have := go d x hO hc.2 (S.live.resolve_left hc.1) h
    have hst : { st' with mode := .process } = st' := by rw [← hm']
    rw [hst] at this
    exact this.not_ended hE

theorem SOk.reset (S : SOk co N inc B ch st) : SOk co N inc B ch (srcResetState st) ∧ ¬ SEnded (srcResetState st) := by
  obtain ⟨f, hf, h1, h2, h3, h4⟩ := S.filter
  have h0 : 0 ≤ B := by
    have := S.geo.room
    have := S.geo.reach_ge (r := 1 / 256) (by norm_num)
    omega
  have V : SView (some 0) co N inc B { srcResetState st with mode := .process } ch 0 (fun _ _ => zero32) (sincReset ch f) 0 0 0 0 0 := by
    refine ⟨S.geo, S.hvt, S.hch, S.hch1, S.hchM, ?_, reset_buf h1 h2 h3 h4 h0 (fun _ _ _ => rfl) 0, zero64_val, ⟨le_refl _, by norm_num⟩, zero64_val, Or.inl rfl⟩
    unfold srcResetState
    dsimp only
    rw [resetPriv_sinc S.hvt hf, S.hch]
  have H : SHist co N inc B ch .endless { srcResetState st with mode := .process } :=
    ⟨rfl, S.hB, 0, 0, _, _, _, _, _, _, _, V, by show (sincReset ch f).bRealEnd < 0; simp [sincReset]⟩
  refine ⟨.of_hist H, fun hE => H.not_ended ?_⟩
  obtain ⟨f, a, b⟩ := hE
  exact ⟨f, a, b⟩

theorem SOk.setRatio (S : SOk co N inc B ch st) {r : F64} (hr : r ≠ .nan) {o : Obs} (h : (Op.setRatio r).run st = .ok (o, st')) :
    SOk co N inc B ch st' ∧ (SEnded st' → SEnded st) := by
  have hc : st' = st ∨ (isBadSrcRatio r = false ∧ st' = { st with lastRatio := r }) := by
    simp only [Op.run, srcSetRatio] at h
    split at h
    · have h := ok_inj h; simp only [Option.getD_some, Prod.mk.injEq] at h
      exact Or.inl h.2.symm
    · rename_i hb
      have h := ok_inj h; simp only [Option.getD_some, Prod.mk.injEq] at h
      exact Or.inr ⟨by simpa using hb, h.2.symm⟩
  rcases hc with rfl | ⟨hb, rfl⟩
  · exact ⟨S, id⟩
  · refine ⟨⟨S.geo, S.hB, S.hvt, S.hch, S.hch1, S.hchM, S.filter, ?_⟩, fun h => h⟩
    rcases S.live with h | h
    · exact Or.inl h
    · right
      obtain ⟨e, s, h1, h2, h3⟩ := sinc_setRatio_total h hr rfl
      unfold srcSetRatio at h1
      dsimp only at h1
      rw [if_neg (by rw [hb]; simp)] at h1
      simp only [Prod.mk.injEq, Option.some.injEq] at h1
      rw [← h1.2] at h3
      exact h3

/-- Samples of the buffer that wait to be used. -/
def inHand (s : CbSt) : ℤ :=
  match s.st.priv with
  | .sinc f => f.bEnd - f.bCurrent
  | _ => 0

/-- A call that has input and room for output makes output, or takes input in without exceeding the buffer. -/
theorem sinc_progress (S : SHist co N inc B ch .endless st) (hO : SincSized ch d) (he : d.endOfInput = 0)
    (h : srcProcess m (some st) (some d) = .ok (0, m', some st', some d')) (hin : 0 < d.inputFrames) (hout : 0 < d.outputFrames) :
    0 < d'.outputFramesGen ∨ (d'.outputFramesGen = 0 ∧ ∃ f f', st.priv = .sinc f ∧ st'.priv = .sinc f' ∧
      0 ≤ f.bEnd - f.bCurrent ∧ f.bEnd - f.bCurrent < f'.bEnd - f'.bCurrent ∧ f'.bEnd - f'.bCurrent ≤ ch * B) := by
  obtain ⟨P, l, y, f, D, k, R, i, hh, V, hU⟩ := S.view
  have hU : f.bRealEnd < 0 := hU
  rcases ordinary_cases V.hch S.mode (sincSized_ordinary hO) with ⟨e, hf⟩ | ⟨_, _, _, t, g⟩
  · exfalso
    have b1 := hO.inSize
    have b2 := hO.outSize
    obtain ⟨x, hx⟩ := process_rejects (m := m) hf (by
        rintro s y h1 h2; cases h1; cases h2
        rw [V.hch]
        exact ⟨by positivity, by omega, by omega⟩)
    rw [h] at hx
    have hx := ok_inj hx
    simp only [Prod.mk.injEq] at hx
    have ha := firstFailing_arg hf
    rw [← hx.1] at ha
    unfold ArgError at ha
    omega
  have s1 : samples ch d.inputFrames = ((ch * d.inputFrames.toNat : ℕ) : ℤ) := by
    unfold samples
    rw [show max d.inputFrames 0 = (d.inputFrames.toNat : ℤ) by omega]; push_cast; ring
  have b1 := hO.inSize
  rw [s1] at b1
  have b1 : ch * d.inputFrames.toNat < 2147483648 := by exact_mod_cast b1
  obtain ⟨n, hnn⟩ : ∃ n, d.inputFrames.toNat = n := ⟨_, rfl⟩
  rw [hnn] at g b1
  have V' : SView (some P) co N inc B st ch l (extendBy y m d ch R n) f D k R i hh := V.congr (fun z hz => by
    funext c
    unfold extendBy
    rw [if_pos (by omega)])
  obtain ⟨s, u, gen, D', w1, I, w3, W⟩ := sinc_call (m := m) V' S.mode g b1 (H := sincReach N inc (min (startRatio l t) t)) rfl
    (fun _ j c hj hc => by
      unfold extendBy
      rw [if_neg (by omega), if_pos (by omega)]
      rw [show (((R + j : ℕ) : ℤ) - (R : ℤ)).toNat = j by omega])
    (fun _ hz => absurd he hz) (fun h => by omega) (Or.inl rfl)
  rw [h] at w1
  have w1 := ok_inj w1
  simp only [Prod.mk.injEq, Option.some.injEq, true_and] at w1
  obtain ⟨-, -, rfl, rfl⟩ := w1
  rcases Nat.eq_zero_or_pos gen with h0 | h0
  swap
  · exact Or.inl (by simp only [callData]; omega)
  subst h0
  right
  have hG := geom_ctx V.geo V.hch1 V.hchM (validMin (startRatio_valid V.vl g.vt) g.vt)
  rcases w3 (by omega) with ⟨a1, a2, a3⟩ | ⟨a1, _⟩
  swap
  · exfalso
    rcases (I.ended a1).2 with h | ⟨_, h⟩
    · omega
    · exact h he
  have hu : 0 < u := by
    rcases a3 with a3 | a3
    · rcases g.hin with h | h
      · omega
      · exact absurd a3 h
    · exact a3.2.2 (by omega)
  refine ⟨rfl, f, s.f, V.hpriv, rfl, ?_⟩
  have hb := W.buf
  have hch1 : (1 : ℤ) ≤ ch := by exact_mod_cast V.hch1
  rcases V.buf.hend with ⟨_, e1, e2⟩ | ⟨h, _⟩
  swap
  · omega
  rcases hb.hend with ⟨_, e3, e4⟩ | ⟨h, _⟩
  swap
  · omega
  have hP : (posAt (⟨k, i⟩ : Pos) (sincRatioAt (startRatio l t) t ch d.outputFrames.toNat) 0).k = k := rfl
  have hP' : (posAt (⟨k, i⟩ : Pos) (sincRatioAt (startRatio l t) t ch d.outputFrames.toNat) 0) = ⟨k, i⟩ := rfl
  rw [hP'] at a2 e3 e4
  dsimp only at a2 e3 e4
  rw [e2, e4, V.buf.hcur, hb.hcur]
  have r1 : (ch : ℤ) * (D + R - k) - ch * D = ch * ((R : ℤ) - k) := by ring
  have r2 : (ch : ℤ) * (D' + ((R + u : ℕ) : ℤ) - k) - ch * D' = ch * ((((R + u : ℕ) : ℤ)) - k) := by ring
  rw [r1, r2]
  have hHB := hG.HB
  have hH6 := hG.H6
  refine ⟨mul_nonneg (by omega) (by omega), mul_lt_mul_of_pos_left (by push_cast; omega) (by omega),
    mul_le_mul_of_nonneg_left (by omega) (by omega)⟩

end

/-- Loop of `src_callback_read` on a sinc handle. -/
structure SLoop (co : ℤ → F32) (N inc B : ℤ) (ch : ℕ) (st0 : SrcState) (cb : Callback) (ud calls : ℕ) (ratio : F64) (frames : ℤ) (s : CbSt) : Prop where
  held : HeldLoop ch st0 cb ud calls ratio frames s
  ok : SOk co N inc B ch s.st
  insize : samples ch s.d.inputFrames < 2 ^ 31
  nonneg : 0 ≤ s.d.inputFrames
  eof : s.d.endOfInput = 0 ∨ s.d.endOfInput = 1

section
variable {cfg : Config} {type e0 : ℤ} {ch : ℕ} {st0 : SrcState} {cb : Callback} {ud calls : ℕ} {ratio : F64} {frames dummy : ℤ}
  {co : ℤ → F32} {N inc B : ℤ}

theorem samples_lt {x : ℤ} (h : samples ch x < 2 ^ 31) : samples ch x ≤ 2 ^ 52 := by norm_num at h ⊢; omega

/-- The fetch before the call. -/
theorem cbFetch_sloop (hcb : ∀ ud c m, samples ch (cb ud c m).1 < 2 ^ 31) (hcb0 : NonnegCounts cb) {s : CbSt}
    (H : SLoop co N inc B ch st0 cb ud calls ratio frames s) : SLoop co N inc B ch st0 cb ud calls ratio frames (cbFetch cb dummy s) := by
  have F := cbFetch_held (dummy := dummy) (fun ud c m => samples_lt (hcb ud c m)) H.held
  have hst : (cbFetch cb dummy s).st = s.st := by unfold cbFetch; split_ifs <;> rfl
  refine ⟨F, by rw [hst]; exact H.ok, ?_, ?_, ?_⟩
  · unfold cbFetch
    split_ifs
    · exact hcb _ _ _
    · exact H.insize
  · unfold cbFetch
    split_ifs
    · exact hcb0 _ _ _
    · exact H.nonneg
  · unfold cbFetch
    split_ifs with h1
    · dsimp only
      split_ifs
      · exact Or.inr rfl
      · exact H.eof
    · exact H.eof

/-- A handle in the loop has the shape of a handle. -/
theorem held_like (h0 : srcNew cfg type ch = .ok (e0, some st0)) {s : CbSt} (H : HeldLoop ch st0 cb ud calls ratio frames s) :
    Like { s.st with mode := .process } { s.st with mode := .process } := by
  obtain ⟨ps, qs, p, B⟩ := H.back
  have Lp := like_self_priv (reach_like (.new _ _ _ _ h0) ⟨_, _, B.run⟩)
  obtain ⟨a1, a2, a3, a4, a5⟩ := alike_iff.1 B.alike
  exact ⟨rfl, rfl, rfl, rfl, rfl, by dsimp only; rw [a4, a5]; exact Lp.priv, by dsimp only; rw [a1, a5]; exact Lp.kind, by dsimp only; rw [a4]; exact Lp.pos⟩

theorem sloop_sized (hr : ratio ≠ .nan) (hf : samples ch frames ≤ 2 ^ 50) {s : CbSt} (F : SLoop co N inc B ch st0 cb ud calls ratio frames s) :
    SincSized ch s.d :=
  ⟨by rw [F.held.hrat]; exact hr, F.insize, le_trans (samples_mono (by rw [F.held.room]; have := F.held.gen0; omega)) hf⟩

/-- One iteration. -/
theorem cbStep_sloop (hL : LibraryTables cfg) (hc : ch ≤ 8355967) (h0 : srcNew cfg type ch = .ok (e0, some st0))
    (hcb : ∀ ud c m, samples ch (cb ud c m).1 < 2 ^ 31) (hcb0 : NonnegCounts cb) (hr : ratio ≠ .nan) (hf : samples ch frames ≤ 2 ^ 50) {s s' : CbSt} {b : Bool}
    (H : SLoop co N inc B ch st0 cb ud calls ratio frames s) (h : cbStep cb dummy frames s = .ok (b, s')) :
    (b = true → SLoop co N inc B ch st0 cb ud calls ratio frames s') ∧ SOk co N inc B ch s'.st ∧ samples ch s'.d.inputFrames < 2 ^ 31 ∧
      0 ≤ s'.d.inputFrames ∧
      ((s' = s ∧ b = false) ∨ ((SEnded s'.st → SEnded s.st ∨ (cbFetch cb dummy s).d.endOfInput = 1) ∧ s'.calls = (cbFetch cb dummy s).calls ∧
        s'.d.inputFrames ≤ (cbFetch cb dummy s).d.inputFrames)) := by
  have hcb' := fun ud c m => samples_lt (hcb ud c m)
  have hf' : samples ch frames ≤ 2 ^ 52 := by norm_num at hf ⊢; omega
  have hh := cbStep_held hL hc h0 hcb' hr hf' H.held h
  have hnn := cbStep_nonneg hL hc h0 hcb' hcb0 hr hf' H.held H.nonneg h
  have F := cbFetch_sloop (dummy := dummy) hcb hcb0 H
  have hO := sloop_sized hr hf F
  rcases cbStep_inv h with ⟨_, rfl, rfl⟩ | ⟨hg, e, mem, st, d, hp, hcase⟩
  · exact ⟨fun h => (by cases h), H.ok, H.insize, H.nonneg, Or.inl ⟨rfl, rfl⟩⟩
  have hA : Alike s.st { s.st with mode := .process } := alike_iff.2 ⟨rfl, rfl, rfl, rfl, rfl⟩
  obtain ⟨S', hE⟩ := (H.ok.alike hA).process (held_like h0 H.held) rfl hO hp
  have hA' : Alike st { st with mode := .callback } := alike_iff.2 ⟨rfl, rfl, rfl, rfl, rfl⟩
  have S'' := S'.alike hA'
  have hE' : SEnded { st with mode := .callback } → SEnded s.st ∨ (cbFetch cb dummy s).d.endOfInput = 1 := by
    rintro ⟨f, a, b⟩
    rcases hE ⟨f, a, b⟩ with ⟨f, a, b⟩ | h
    · exact Or.inl ⟨f, a, b⟩
    · rcases F.eof with h1 | h1
      · exact absurd h1 h
      · exact Or.inr h1
  rcases hcase with ⟨he, hb, c1, c2, c3, c4, c5, c6⟩ | ⟨he, hb, c1, c2, c3, c4, c5, c6⟩
  · have hle : s'.d.inputFrames ≤ (cbFetch cb dummy s).d.inputFrames := by
      rw [c4]
      have := F.nonneg
      rcases process_keeps_in hp with h | h <;> omega
    refine ⟨fun h => (by rw [hb] at h; cases h), by rw [c3]; exact S'', lt_of_le_of_lt (samples_mono hle) F.insize, hnn, Or.inr ⟨by rw [c3]; exact hE', c6, hle⟩⟩
  · subst he
    obtain ⟨ps, qs, p, Bk⟩ := H.held.back
    obtain ⟨o, p', B', _, _, _, _, hok⟩ := Bk.step hL hc h0 (ordinary_of hO.ratio F.held.insize (by have := hO.outSize; norm_num at this ⊢; omega)) hp
    obtain ⟨hA, _, hK, _⟩ := hok rfl
    have hle : s'.d.inputFrames ≤ (cbFetch cb dummy s).d.inputFrames := by
      rw [c4]
      dsimp only
      have := hA.used0
      have := F.nonneg
      rw [hK.inputFrames]; omega
    have hsz := lt_of_le_of_lt (samples_mono (ch := ch) hle) F.insize
    refine ⟨fun h => ⟨hh.1 h, by rw [c3]; exact S'', hsz, hnn, ?_⟩, by rw [c3]; exact S'', hsz, hnn, Or.inr ⟨by rw [c3]; exact hE', c6, hle⟩⟩
    rw [c4]
    dsimp only
    rw [hK.endOfInput]
    exact F.eof

/-- What the loop of a read must do so that it ends: past the end of input there is nothing to feed. -/
def EndedOk (cb : Callback) (ud : ℕ) (e : Prop) (s : CbSt) : Prop :=
  (SEnded s.st → e ∨ s.d.endOfInput = 1) ∧ (e → s.d.inputFrames = 0 ∧ ∀ i m, s.calls ≤ i → (cb ud i m).1 = 0)

/-- Measure: room left in the buffer. -/
def roomLeft (C : ℕ) (s : CbSt) : ℕ := min (C - inHand s).toNat C

theorem cbStep_sinc (hL : LibraryTables cfg) (hc : ch ≤ 8355967) (h0 : srcNew cfg type ch = .ok (e0, some st0))
    (hcb : ∀ ud c m, samples ch (cb ud c m).1 < 2 ^ 31) (hcb0 : NonnegCounts cb) (hr : ratio ≠ .nan) (hf : samples ch frames ≤ 2 ^ 50) {s : CbSt}
    {e : Prop} (H : SLoop co N inc B ch st0 cb ud calls ratio frames s) (hE : EndedOk cb ud e s) :
    NoFuel (cbStep cb dummy frames s) ∧ ∀ s', cbStep cb dummy frames s = .ok (true, s') →
      (SLoop co N inc B ch st0 cb ud calls ratio frames s' ∧ EndedOk cb ud e s') ∧ s'.gen ≤ frames ∧
      (s.gen < s'.gen ∨ (s'.gen = s.gen ∧ roomLeft (ch * B).toNat s' < roomLeft (ch * B).toNat s)) := by
  have F := cbFetch_sloop (dummy := dummy) hcb hcb0 H
  have hO := sloop_sized hr hf F
  have hA : Alike s.st { s.st with mode := .process } := alike_iff.2 ⟨rfl, rfl, rfl, rfl, rfl⟩
  have S1 := H.ok.alike hA
  refine ⟨cbStep_noFuel (process_noFuel_of ?_ (Or.inr (Or.inr S1.handle)) _ _ ?_), fun s' h => ?_⟩
  · rw [S1.hch]; exact_mod_cast S1.hch1
  · rintro d' ⟨⟩
    rw [S1.hch]
    have := hO.outSize
    unfold samples at this
    have h2 : (cbFetch cb dummy s).d.outputFrames * (ch : ℤ) ≤ max (cbFetch cb dummy s).d.outputFrames 0 * ch :=
      mul_le_mul_of_nonneg_right (le_max_left _ _) (by positivity)
    norm_num at this ⊢
    omega
  have HS := cbStep_sloop hL hc h0 hcb hcb0 hr hf H h
  have H' := HS.1 rfl
  obtain ⟨hEn, hcalls, hle⟩ := HS.2.2.2.2.resolve_left (fun h => by cases h.2)
  have hst : (cbFetch cb dummy s).st = s.st := by unfold cbFetch; split_ifs <;> rfl
  have hgen : (cbFetch cb dummy s).gen = s.gen := by unfold cbFetch; split_ifs <;> rfl
  have hfetch : (e → (cbFetch cb dummy s).d.inputFrames = 0 ∧ (cbFetch cb dummy s).d.endOfInput = 1) ∧ s.calls ≤ (cbFetch cb dummy s).calls ∧
      ((cbFetch cb dummy s).d.endOfInput = 1 ∨ ((cbFetch cb dummy s).d.endOfInput = s.d.endOfInput ∧ 0 < (cbFetch cb dummy s).d.inputFrames)) := by
    unfold cbFetch
    split_ifs with h1
    · dsimp only
      by_cases h2 : (cb s.st.userData s.calls s.mem).1 = 0
      · rw [if_pos h2]
        exact ⟨fun _ => ⟨h2, rfl⟩, Nat.le_succ _, Or.inl rfl⟩
      · rw [if_neg h2]
        refine ⟨fun he => ?_, Nat.le_succ _, Or.inr ⟨rfl, ?_⟩⟩
        · have := (hE.2 he).2 s.calls s.mem le_rfl
          rw [H.held.hud] at h2
          exact absurd this h2
        · have := hcb0 s.st.userData s.calls s.mem
          omega
    · refine ⟨fun he => absurd (hE.2 he).1 h1, le_rfl, Or.inr ⟨rfl, ?_⟩⟩
      have := H.nonneg
      omega
  rcases cbStep_inv h with ⟨_, hb, _⟩ | ⟨hg, er, mem, st, d, hp, hcase⟩
  · cases hb
  rcases hcase with ⟨_, hb, _⟩ | ⟨rfl, hb, c1, c2, c3, c4, c5, c6⟩
  · cases hb
  obtain ⟨ps, qs, p, Bk⟩ := H.held.back
  obtain ⟨o, p', B', _, _, _, _, hok⟩ := Bk.step hL hc h0 (ordinary_of hO.ratio F.held.insize (by have := hO.outSize; norm_num at this ⊢; omega)) hp
  obtain ⟨hAc, _, hK, _⟩ := hok rfl
  have heof : s'.d.endOfInput = (cbFetch cb dummy s).d.endOfInput := by rw [c4]; exact hK.endOfInput
  have hE' : EndedOk cb ud e s' := by
    refine ⟨fun hse => ?_, fun he => ⟨?_, fun i m hi => (hE.2 he).2 i m (by have := hfetch.2.1; omega)⟩⟩
    · rcases hEn hse with h1 | h1
      · rcases hE.1 h1 with h2 | h2
        · exact Or.inl h2
        · right
          rw [heof]
          rcases hfetch.2.2 with h3 | ⟨h3, _⟩
          · exact h3
          · rw [h3]; exact h2
      · right; rw [heof]; exact h1
    · have := (hfetch.1 he).1
      have := H'.nonneg
      omega
  refine ⟨⟨H', hE'⟩, H'.held.gen1, ?_⟩
  by_cases hz : d.outputFramesGen = 0
  swap
  · left; rw [c5]; have := hAc.gen0; omega
  have hne : ¬ d.endOfInput = 1 := fun h => (of_decide_eq_true hb.symm) ⟨h, hz⟩
  rw [hK.endOfInput] at hne
  obtain ⟨e1, e2⟩ := hfetch.2.2.resolve_left hne
  have e3 : (cbFetch cb dummy s).d.endOfInput = 0 := F.eof.resolve_right hne
  have hroom : 0 < (cbFetch cb dummy s).d.outputFrames := by rw [F.held.room, hgen]; omega
  have hlive : ¬ SEnded s.st := by
    intro hse
    rcases hE.1 hse with h1 | h1
    · exact hne (hfetch.1 h1).2
    · rw [e1, h1] at hne; exact hne rfl
  right
  refine ⟨by rw [c5, hz, add_zero], ?_⟩
  have S2 := H.ok.live.resolve_left hlive
  rcases sinc_progress S2 hO e3 hp e2 hroom with h1 | ⟨_, f, f', q1, q2, q3, q4, q5⟩
  · omega
  have a1 : inHand s = f.bEnd - f.bCurrent := by
    unfold inHand
    have : s.st.priv = .sinc f := q1
    rw [this]
  have a2 : inHand s' = f'.bEnd - f'.bCurrent := by
    unfold inHand
    have : s'.st.priv = .sinc f' := by rw [c3]; exact q2
    rw [this]
  unfold roomLeft
  rw [a1, a2]
  have : (0 : ℤ) ≤ ch * B := by omega
  omega

/-- `src_callback_read` on a sinc handle. -/
theorem read_sinc (hL : LibraryTables cfg) (hc : ch ≤ 8355967) (h0 : srcNew cfg type ch = .ok (e0, some st0))
    (hcb : ∀ ud c m, samples ch (cb ud c m).1 < 2 ^ 31) (hcb0 : NonnegCounts cb) (hr : ratio ≠ .nan)
    (hf : samples ch frames ≤ 2 ^ 50) {st : SrcState} (H : Held ch st0 st) (S : SOk co N inc B ch st) (hs : 0 ≤ st.savedFrames)
    (hs1 : samples ch st.savedFrames < 2 ^ 31) {e : Prop} (h1 : SEnded st → e)
    (h2 : e → st.savedFrames = 0 ∧ ∀ i m, calls ≤ i → (cb st.userData i m).1 = 0) {m : Mem} {data : ℤ} {fuel : ℕ}
    (hfu : (frames.toNat + 1) * (128000000 + 1) ≤ fuel) : NoFuel (srcCallbackRead cb dummy fuel calls m (some st) ratio frames data) := by
  refine read_noFuel fun hf0 _ _ => ?_
  refine cbLoop_noFuel (fun s => SLoop co N inc B ch st0 cb st.userData calls ratio frames s ∧ EndedOk cb st.userData e s) (roomLeft (ch * B).toNat)
    (ch * B).toNat (fun s => min_le_right _ _) ?_ _ ⟨⟨?_, S, hs1, hs, Or.inl rfl⟩, fun h => Or.inl (h1 h), h2⟩ le_rfl (le_trans (Nat.mul_le_mul_left _ ?_) hfu)
  · rintro s ⟨a, b⟩
    exact cbStep_sinc hL hc h0 hcb hcb0 hr hf a b
  · exact ⟨H.back, H.saved, rfl, rfl, le_rfl, by dsimp only; omega, by simp [cbData], le_rfl, fun h => by simp [cbData] at h, rfl⟩
  · have : (ch : ℤ) * B ≤ 128 * 1000000 := mul_le_mul (by exact_mod_cast S.hchM) S.geo.bM (by
      have := S.geo.room
      have := S.geo.reach_ge (r := 1 / 256) (by norm_num)
      omega) (by norm_num)
    omega

/-- Invariant of a history between the calls. -/
structure SHeld (co : ℤ → F32) (N inc B : ℤ) (ch : ℕ) (st0 : SrcState) (e : Prop) (st : SrcState) : Prop where
  held : Held ch st0 st
  ok : SOk co N inc B ch st
  nonneg : 0 ≤ st.savedFrames
  size : samples ch st.savedFrames < 2 ^ 31
  end1 : SEnded st → e
  end2 : e → st.savedFrames = 0

/-- A finished `src_callback_read` of a callback that stays at the end. -/
theorem read_sheld (hL : LibraryTables cfg) (hc : ch ≤ 8355967) (h0 : srcNew cfg type ch = .ok (e0, some st0))
    (hcb : ∀ ud c m, samples ch (cb ud c m).1 < 2 ^ 31) (hcb0 : NonnegCounts cb) (hr : ratio ≠ .nan)
    (hf : samples ch frames ≤ 2 ^ 50) {st : SrcState} {e : Prop} (S : SHeld co N inc B ch st0 e st) {cnt : ℕ → ℤ} (hcnt : Counts cnt cb) {fuel : ℕ}
    {m m' : Mem} {data n : ℤ} {st' : SrcState} {k : ℕ} (h : srcCallbackRead cb dummy fuel calls m (some st) ratio frames data = .ok (n, m', some st', k))
    (d1 : e → ∀ i, calls ≤ i → i < k → cnt i = 0) (d2 : ∀ i j, calls ≤ i → i < j → j < k → cnt i = 0 → cnt j = 0) :
    SHeld co N inc B ch st0 (e ∨ ∃ i, calls ≤ i ∧ i < k ∧ cnt i = 0) st' := by
  have hf' : samples ch frames ≤ 2 ^ 52 := by norm_num at hf ⊢; omega
  have H' : Held ch st0 st' := by
    obtain ⟨s', h1, h2, _⟩ := read_held hL hc h0 (fun ud c m => samples_lt (hcb ud c m)) hr hf' S.held h
    cases h1
    exact h2
  unfold srcCallbackRead at h
  dsimp only at h
  iterate 4
    split at h
    · have h := ok_inj h; simp only [Prod.mk.injEq, Option.some.injEq] at h
      obtain ⟨_, _, rfl, rfl⟩ := h
      refine ⟨H', S.ok.alike (alike_iff.2 ⟨rfl, rfl, rfl, rfl, rfl⟩), S.nonneg, S.size, ?_, ?_⟩
      · rintro ⟨f, a, b⟩
        exact Or.inl (S.end1 ⟨f, a, b⟩)
      · rintro (he | ⟨i, a, b, _⟩)
        · exact S.end2 he
        · omega
  rename_i hfr _ _ _
  obtain ⟨r, hw, h⟩ := bind_ok h
  -- state of the loop, as far as the callbacks made stay at the end
  let J : CbSt → Prop := fun s => calls ≤ s.calls ∧ SOk co N inc B ch s.st ∧ samples ch s.d.inputFrames < 2 ^ 31 ∧ 0 ≤ s.d.inputFrames ∧
    ((e → ∀ i, calls ≤ i → i < s.calls → cnt i = 0) → (∀ i j, calls ≤ i → i < j → j < s.calls → cnt i = 0 → cnt j = 0) →
      (SEnded s.st → e ∨ ∃ i, calls ≤ i ∧ i < s.calls ∧ cnt i = 0) ∧
      ((e ∨ ∃ i, calls ≤ i ∧ i < s.calls ∧ cnt i = 0) → s.d.inputFrames = 0))
  have I0 : SLoop co N inc B ch st0 cb st.userData calls ratio frames { st := st, mem := m, d := cbData st ratio frames data, gen := 0, calls, err := 0 } :=
    ⟨⟨S.held.back, S.held.saved, rfl, rfl, le_rfl, by dsimp only; omega, by simp [cbData], le_rfl, fun h => by simp [cbData] at h, rfl⟩,
      S.ok, S.size, S.nonneg, Or.inl rfl⟩
  have key : ∀ s, (SLoop co N inc B ch st0 cb st.userData calls ratio frames s ∧ J s) → ∀ b s', cbStep cb dummy frames s = .ok (b, s') →
      (b = true → SLoop co N inc B ch st0 cb st.userData calls ratio frames s' ∧ J s') ∧ (b = false → J s') := by
    rintro s ⟨H, j1, j2, j3, j4, j5⟩ b s' hs
    have HS := cbStep_sloop hL hc h0 hcb hcb0 hr hf H hs
    have F := cbFetch_sloop (dummy := dummy) hcb hcb0 H
    have hJ : J s' := by
      refine ⟨?_, HS.2.1, HS.2.2.1, HS.2.2.2.1, fun p1 p2 => ?_⟩
      · rcases HS.2.2.2.2 with ⟨rfl, _⟩ | ⟨_, hcl, _⟩
        · exact j1
        · rw [hcl]; exact F.held.hcal
      rcases HS.2.2.2.2 with ⟨rfl, _⟩ | ⟨hEn, hcl, hle⟩
      · exact j5 p1 p2
      have hcf : s.calls ≤ (cbFetch cb dummy s).calls := by unfold cbFetch; split_ifs <;> simp
      rw [← hcl] at hcf
      obtain ⟨q1, q2⟩ := j5 (fun he i a b => p1 he i a (by omega)) (fun i j a b c => p2 i j a b (by omega))
      constructor
      · intro hse
        rcases hEn hse with h1 | h1
        · rcases q1 h1 with h2 | ⟨i, a, b, c⟩
          · exact Or.inl h2
          · exact Or.inr ⟨i, a, by omega, c⟩
        · obtain ⟨c, m, a1, a2, a3⟩ := F.held.eof h1
          rw [hcnt] at a3
          exact Or.inr ⟨c, a1, by omega, a3⟩
      · intro hx
        have hn := HS.2.2.2.1
        have hfn := F.nonneg
        suffices hz : (cbFetch cb dummy s).d.inputFrames = 0 by omega
        by_cases hx' : e ∨ ∃ i, calls ≤ i ∧ i < s.calls ∧ cnt i = 0
        · have h0' := q2 hx'
          have hc' : s'.calls = s.calls + 1 := by rw [hcl]; unfold cbFetch; rw [if_pos h0']
          have : (cbFetch cb dummy s).d.inputFrames = cnt s.calls := by
            unfold cbFetch; rw [if_pos h0']; exact hcnt _ _ _
          rw [this]
          rcases hx' with he | ⟨i, a, b, c⟩
          · exact p1 he _ j1 (by omega)
          · exact p2 i s.calls a b (by omega) c
        · by_cases h0' : s.d.inputFrames = 0
          · have hc' : s'.calls = s.calls + 1 := by rw [hcl]; unfold cbFetch; rw [if_pos h0']
            have : (cbFetch cb dummy s).d.inputFrames = cnt s.calls := by
              unfold cbFetch; rw [if_pos h0']; exact hcnt _ _ _
            rw [this]
            rcases hx with he | ⟨i, a, b, c⟩
            · exact absurd (Or.inl he) hx'
            · by_cases hi : i < s.calls
              · exact absurd (Or.inr ⟨i, a, hi, c⟩) hx'
              · rw [show s.calls = i by omega]; exact c
          · have hc' : s'.calls = s.calls := by rw [hcl]; unfold cbFetch; rw [if_neg h0']
            rw [hc'] at hx
            exact absurd hx hx'
    exact ⟨fun hb => ⟨HS.1 hb, hJ⟩, fun _ => hJ⟩
  have J0 : J { st := st, mem := m, d := cbData st ratio frames data, gen := 0, calls, err := 0 } := by
    refine ⟨le_rfl, S.ok, S.size, S.nonneg, fun _ _ => ⟨fun h => Or.inl (S.end1 h), ?_⟩⟩
    rintro (he | ⟨i, a, b, _⟩)
    · exact S.end2 he
    · dsimp only at b; omega
  obtain ⟨j1, j2, j3, j4, j5⟩ := whileM_partial (fun s => SLoop co N inc B ch st0 cb st.userData calls ratio frames s ∧ J s) J key _ _ _ ⟨I0, J0⟩ hw
  split at h
  all_goals
    have h := ok_inj h; simp only [Prod.mk.injEq, Option.some.injEq] at h
    obtain ⟨_, _, rfl, rfl⟩ := h
    obtain ⟨z1, z2⟩ := j5 d1 d2
    refine ⟨H', j2.alike (alike_iff.2 ⟨rfl, rfl, rfl, rfl, rfl⟩), j4, j3, ?_, z2⟩
    rintro ⟨f, a, b⟩
    exact z1 ⟨f, a, b⟩

/-- A history of calls. -/
theorem history_sheld (hL : LibraryTables cfg) (hc : ch ≤ 8355967) (h0 : srcNew cfg type ch = .ok (e0, some st0)) {cnt : ℕ → ℤ} {stc : SrcState}
    (hm : stc.mode = .callback) {c c' : ℕ} {e e' : Prop} {ops : List Op} {os : List Obs} (hD : StaysAtEnd cnt c e ops os c' e') :
    ∀ {st st' : SrcState}, SHeld co N inc B ch st0 e st → Like stc st → (∀ op ∈ ops, SincPull ch op ∧ NonnegPull op) → run ops st = .ok (os, st') →
      SHeld co N inc B ch st0 e' st' ∧ Like stc st' := by
  induction hD with
  | nil c e =>
    intro st st' H L _ h
    have h := ok_inj h; simp only [Prod.mk.injEq] at h
    obtain ⟨_, rfl⟩ := h
    exact ⟨H, L⟩
  | read c e cb dummy fuel m ratio frames data o ops os c' e' hcnt d1 d2 _ ih =>
    intro st st' H L hO h
    obtain ⟨⟨o1, s1⟩, h1, h⟩ := bind_ok h
    obtain ⟨⟨os', s2⟩, h2, h⟩ := bind_ok h
    have h := ok_inj h; simp only [Prod.mk.injEq, List.cons.injEq] at h
    obtain ⟨⟨rfl, rfl⟩, rfl⟩ := h
    refine ih ?_ (op_like L h1) (fun o ho => hO o (by simp [ho])) h2
    obtain ⟨hP, hN⟩ := hO _ List.mem_cons_self
    obtain ⟨⟨n, m', s1, k⟩, hr, h⟩ := bind_ok h1
    obtain ⟨s', rfl, _⟩ := read_held hL hc h0 (fun ud c m => samples_lt (hP.2.2 ud c m)) hP.1 (by have := hP.2.1; norm_num at this ⊢; omega) H.held hr
    have h := ok_inj h; simp only [Prod.mk.injEq] at h
    obtain ⟨rfl, rfl⟩ := h
    exact read_sheld hL hc h0 hP.2.2 hN hP.1 hP.2.1 H hcnt hr d1 d2
  | process c e m d o ops os c' e' _ ih =>
    intro st st' H L hO h
    obtain ⟨⟨o1, s1⟩, h1, h⟩ := bind_ok h
    obtain ⟨⟨os', s2⟩, h2, h⟩ := bind_ok h
    have h := ok_inj h; simp only [Prod.mk.injEq, List.cons.injEq] at h
    obtain ⟨⟨rfl, rfl⟩, rfl⟩ := h
    refine ih ?_ (op_like L h1) (fun o ho => hO o (by simp [ho])) h2
    simp only [Op.run, srcProcess] at h1
    rw [if_pos (by rw [L.mode.trans hm]; decide)] at h1
    have h1 := ok_inj h1; simp only [Prod.mk.injEq] at h1
    rw [← h1.2]
    exact H
  | setRatio c e r o ops os c' e' _ ih =>
    intro st st' H L hO h
    obtain ⟨⟨o1, s1⟩, h1, h⟩ := bind_ok h
    obtain ⟨⟨os', s2⟩, h2, h⟩ := bind_ok h
    have h := ok_inj h; simp only [Prod.mk.injEq, List.cons.injEq] at h
    obtain ⟨⟨rfl, rfl⟩, rfl⟩ := h
    refine ih ?_ (op_like L h1) (fun o ho => hO o (by simp [ho])) h2
    have hP : r ≠ .nan := (hO _ List.mem_cons_self).1
    obtain ⟨ps, qs, p, Bk⟩ := H.held.back
    obtain ⟨o', p', _, B', e1, _⟩ := Bk.setRatio h0 hP h1
    obtain ⟨S', hE⟩ := H.ok.setRatio hP h1
    exact ⟨⟨⟨_, _, _, B'⟩, by rw [e1]; exact H.held.saved⟩, S', by rw [e1]; exact H.nonneg, by rw [e1]; exact H.size,
      fun h => H.end1 (hE h), fun h => by rw [e1]; exact H.end2 h⟩
  | reset c e o ops os c' e' _ ih =>
    intro st st' H L hO h
    obtain ⟨⟨o1, s1⟩, h1, h⟩ := bind_ok h
    obtain ⟨⟨os', s2⟩, h2, h⟩ := bind_ok h
    have h := ok_inj h; simp only [Prod.mk.injEq, List.cons.injEq] at h
    obtain ⟨⟨rfl, rfl⟩, rfl⟩ := h
    refine ih ?_ (op_like L h1) (fun o ho => hO o (by simp [ho])) h2
    obtain ⟨ps, qs, p, Bk⟩ := H.held.back
    obtain ⟨o', B'⟩ := Bk.reset h0
    obtain ⟨S', hE⟩ := H.ok.reset
    have h := ok_inj h1; simp only [Prod.mk.injEq] at h
    obtain ⟨_, rfl⟩ := h
    exact ⟨⟨⟨_, _, _, B'⟩, by simp [srcResetState, samples]⟩, S', le_rfl, by simp [srcResetState, samples], fun h => absurd h hE, fun h => h.elim⟩

/-- A new handle. -/
theorem new_sheld (hL : LibraryTables cfg) (ht : SincType type) (h0 : srcNew cfg type ch = .ok (e0, some st0)) (func : Option ℕ) (ud : ℕ) :
    ∃ co N inc B, SHeld co N inc B ch st0 False { st0 with mode := .callback, callbackFunc := func, userData := ud } := by
  obtain ⟨t, B, _, S⟩ := sinc_new_hist hL ht h0 (p := .endless) (Or.inl rfl)
  have hs : st0.savedFrames = 0 := by
    have := new_reset h0
    rw [← this]
    simp [srcResetState]
  have A : Alike st0 { st0 with mode := .process, callbackFunc := func, userData := ud } := alike_iff.2 ⟨rfl, rfl, rfl, rfl, rfl⟩
  have S' := S.alike A rfl
  refine ⟨_, _, _, B, ⟨⟨_, _, _, callback_backed h0 func ud⟩, by dsimp only; rw [hs]; simp [samples]⟩, .of_hist S', by dsimp only; omega,
    by dsimp only; rw [hs]; simp [samples], ?_, fun h => h.elim⟩
  rintro ⟨f, a, b⟩
  exact S.not_ended ⟨f, a, b⟩

end
end Verif
