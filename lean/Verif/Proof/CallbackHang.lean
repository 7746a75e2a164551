import Verif.Proof.CallbackSinc

/-! Loops of `src_callback_read` that do not end (C39). -/

namespace Verif
open Spec

/-- A loop that did not run out of fuel is not changed by more fuel. -/
theorem whileM_stable {σ : Type} {step : σ → M (Bool × σ)} :
    ∀ (n k : ℕ) (s : σ), whileM step n s ≠ .error .outOfFuel → whileM step (n + k) s = whileM step n s := by
  intro n
  induction n with
  | zero => intro k s h; exact absurd rfl h
  | succ n ih =>
    intro k s h
    rw [Nat.succ_add]
    simp only [whileM] at h ⊢
    cases hs : step s with
    | error e => rfl
    | ok r =>
      obtain ⟨b, s1⟩ := r
      rw [hs] at h
      simp only [bind, Except.bind] at h ⊢
      cases b with
      | false => rfl
      | true => exact ih k s1 (by simpa using h)

theorem whileM_hangs {σ : Type} {step : σ → M (Bool × σ)} (I : σ → Prop) (h : ∀ s, I s → ∃ s', step s = .ok (true, s') ∧ I s') :
    ∀ (n : ℕ) (s : σ), I s → whileM step n s = .error .outOfFuel := by
  intro n
  induction n with
  | zero => intro s _; rfl
  | succ n ih =>
    intro s hI
    obtain ⟨s', h1, h2⟩ := h s hI
    simp only [whileM, h1, bind, Except.bind, if_true]
    exact ih s' h2

/-- A read whose loop does not run out of fuel for large fuel returns. -/
theorem read_returns {cb : Callback} {dummy frames data : ℤ} {calls : ℕ} {m : Mem} {st : SrcState} {ratio : F64} {N : ℕ}
    (h : NoFuel (srcCallbackRead cb dummy N calls m (some st) ratio frames data)) :
    Returns fun fuel => srcCallbackRead cb dummy fuel calls m (some st) ratio frames data := by
  obtain ⟨h⟩ := h
  refine ⟨N, _, h, fun fuel hf => ?_⟩
  obtain ⟨k, rfl⟩ := Nat.exists_eq_add_of_le hf
  unfold srcCallbackRead at h ⊢
  dsimp only at h ⊢
  iterate 4
    split
    · rfl
  rename_i h1 h2 h3 h4
  rw [if_neg h1, if_neg h2, if_neg h3, if_neg h4] at h
  rw [whileM_stable]
  intro hc
  rw [hc] at h
  exact h rfl

/-- A read whose loop never ends. -/
theorem read_hangs {cb : Callback} {dummy frames data : ℤ} {calls : ℕ} {m : Mem} {st : SrcState} {ratio : F64} (hf : 0 < frames) (hm : st.mode = .callback)
    (hc : st.callbackFunc ≠ none) (hr : isBadSrcRatio ratio = false) (I : CbSt → Prop)
    (h : ∀ s, I s → ∃ s', cbStep cb dummy frames s = .ok (true, s') ∧ I s')
    (h0 : I { st := st, mem := m, d := cbData st ratio frames data, gen := 0, calls, err := 0 }) :
    Hangs fun fuel => srcCallbackRead cb dummy fuel calls m (some st) ratio frames data := by
  intro fuel
  dsimp only
  unfold srcCallbackRead
  dsimp only
  rw [if_neg (by omega), if_neg (by rw [hm]; simp), if_neg hc, if_neg (by rw [hr]; simp), whileM_hangs I h _ _ h0]
  rfl

/-- One iteration whose `src_process` call succeeds without doing anything. -/
theorem cbStep_idle {cb : Callback} {dummy frames : ℤ} {s : CbSt} {st : SrcState} {mem : Mem} {ch : ℕ} (hg : s.gen < frames)
    (hp : srcProcess (cbFetch cb dummy s).mem (some { s.st with mode := .process }) (some (cbFetch cb dummy s).d) =
      .ok (Err.NO_ERROR, mem, some st, some (callData (cbFetch cb dummy s).d 0 0))) (he : (cbFetch cb dummy s).d.endOfInput = 0) :
    cbStep cb dummy frames s = .ok (true, { cbFetch cb dummy s with
      mem := mem, st := { st with mode := .callback }, d := callData (cbFetch cb dummy s).d 0 0 }) := by
  have hst : (cbFetch cb dummy s).st = s.st := by unfold cbFetch; split_ifs <;> rfl
  unfold cbStep
  rw [if_neg (by omega)]
  dsimp only
  rw [hst, hp]
  simp only [bind, Except.bind]
  rw [if_neg (by simp [Err.NO_ERROR])]
  have e : (callData (cbFetch cb dummy s).d 0 0).endOfInput = 0 := he
  simp [callData, chkI64, pure, Except.pure] at e ⊢
  simp [clampFrames, he]

section
variable {K : Kind} {ch : ℕ} {cb : Callback} {dummy frames : ℤ} {st : SrcState} {p l : ℚ} {before : Option (List F32)} {ratio : F64} {t : ℚ}

/-- On a zero order hold or linear handle: a callback that always returns a negative count. -/
theorem negative_hangs (V : View K st ch p l before) (hm : st.mode = .callback) (hc : st.callbackFunc ≠ none) (hs : st.savedFrames = 0) (hrat : ratio.val = some t) (vt : ValidRatio t)
    (hf : 0 < frames) (hfb : ch * frames.toNat ≤ 2 ^ 52) {data a : ℤ} (hd : data ≠ 0) (hda : a < data)
    (hcb : ∀ ud c m, (cb ud c m).1 < 0 ∧ (cb ud c m).2.1 = some a) {calls : ℕ} {m : Mem} :
    Hangs fun fuel => srcCallbackRead cb dummy fuel calls m (some st) ratio frames data := by
  refine read_hangs hf hm hc ((isBad_false_iff hrat).2 vt)
    (fun s => (∃ l, View K s.st ch p l before) ∧ s.d.inputFrames = 0 ∧ s.d.dataOut = data ∧ s.d.outputFrames = frames ∧ s.d.endOfInput = 0 ∧
      s.d.srcRatio = ratio ∧ s.gen = 0) ?_ ⟨⟨l, V⟩, hs, rfl, rfl, rfl, rfl, rfl⟩
  rintro s ⟨⟨l, V⟩, h1, h2, h3, h4, h5, h6⟩
  have hcbs := hcb s.st.userData s.calls s.mem
  have hfe : (cbFetch cb dummy s).d = { s.d with inputFrames := (cb s.st.userData s.calls s.mem).1, dataIn := a } := by
    unfold cbFetch
    rw [if_pos h1]
    dsimp only
    rw [hcbs.2, if_neg (by omega)]
    rfl
  have V' : View K { s.st with mode := .process } ch p l before := V.alike (alike_iff.2 ⟨rfl, rfl, rfl, rfl, rfl⟩)
  have g : GoodCall ch (cbFetch cb dummy s).d 0 frames.toNat t := by
    rw [hfe]
    refine ⟨by dsimp only; omega, by dsimp only; rw [h3], Or.inl rfl, Or.inr (by dsimp only; rw [h2]; exact hd), by simp, hfb, Or.inl ⟨by dsimp only; omega, by dsimp only; simp; omega⟩,
      by dsimp only; rw [h5]; exact hrat, vt⟩
  obtain ⟨st', w1, w2, _⟩ := call_empty (m := (cbFetch cb dummy s).mem) V' rfl g
  refine ⟨_, cbStep_idle (ch := ch) (by omega) w1 (by rw [hfe]; exact h4), ⟨_, w2.alike (alike_iff.2 ⟨rfl, rfl, rfl, rfl, rfl⟩)⟩, ?_, ?_, ?_, ?_, ?_, ?_⟩
  · rw [hfe]
    simp only [callData, clampFrames]
    rw [if_pos hcbs.1]
  · rw [hfe]; exact h2
  · rw [hfe]
    simp only [callData, clampFrames]
    rw [if_neg (by omega)]; exact h3
  · rw [hfe]; exact h4
  · rw [hfe]; exact h5
  · have : (cbFetch cb dummy s).gen = s.gen := by unfold cbFetch; split_ifs <;> rfl
    dsimp only
    rw [this]; exact h6

end

section
variable {co : ℤ → F32} {N inc B : ℤ} {ch : ℕ} {st : SrcState} {l t : ℚ} {y : ℤ → ℕ → F32} {f : SincFilter} {D : ℤ} {k R : ℕ} {i : ℚ} {h : ℤ}
  {cb : Callback} {dummy frames : ℤ} {ratio : F64}

/-- On a sinc handle that has been played to the end: input that comes later is never taken. -/
theorem drained_hangs {P : ℤ} (V : SView (some P) co N inc B st ch t y f D k R i h) (vt : ValidRatio t) (he : 0 ≤ f.bRealEnd) (hk : R ≤ k)
    (hH : sincReach N inc t ≤ P) (hm : st.mode = .callback) (hc : st.callbackFunc ≠ none) (hs : st.savedFrames = 0) (hrat : ratio.val = some t)
    (hf : 0 < frames) (hfb : ch * frames.toNat ≤ 2 ^ 52) {data a : ℤ} {n : ℕ} (hd : data ≠ 0) (ha : a ≠ 0) (hda : data + ch * frames ≤ a) (hn : 0 < n) (hnb : ch * n < 2147483648)
    (hcb : ∀ ud c m, (cb ud c m).1 = n ∧ (cb ud c m).2.1 = some a) {calls : ℕ} {m : Mem} :
    Hangs fun fuel => srcCallbackRead cb dummy fuel calls m (some st) ratio frames data := by
  have ht0 : t ≠ 0 := by have := vt.1; intro hc; rw [hc] at this; norm_num at this
  have hsr : startRatio t t = t := by unfold startRatio; split_ifs <;> rfl
  refine read_hangs hf hm hc ((isBad_false_iff hrat).2 vt)
    (fun s => (∃ f D h, SView (some P) co N inc B s.st ch t y f D k R i h ∧ 0 ≤ f.bRealEnd) ∧
      (s.d.inputFrames = 0 ∨ (s.d.inputFrames = n ∧ s.d.dataIn = a)) ∧ s.d.dataOut = data ∧ s.d.outputFrames = frames ∧ s.d.endOfInput = 0 ∧
      s.d.srcRatio = ratio ∧ s.gen = 0) ?_ ⟨⟨f, D, h, V, he⟩, Or.inl hs, rfl, rfl, rfl, rfl, rfl⟩
  rintro s ⟨⟨f, D, h, V, he⟩, h1, h2, h3, h4, h5, h6⟩
  have hcbs := hcb s.st.userData s.calls s.mem
  have hfe : (cbFetch cb dummy s).d = { s.d with inputFrames := n, dataIn := a } := by
    unfold cbFetch
    split_ifs with h0
    · dsimp only
      rw [hcbs.2, if_neg (by omega), hcbs.1]
      rfl
    · obtain ⟨e1, e2⟩ := h1.resolve_left h0
      rw [← e1, ← e2]
  have V' : SView (some P) co N inc B { s.st with mode := .process } ch t y f D k R i h := V.alike (alike_iff.2 ⟨rfl, rfl, rfl, rfl, rfl⟩)
  have hfr : ((ch * frames.toNat : ℕ) : ℤ) = ch * frames := by push_cast; rw [Int.toNat_of_nonneg (by omega)]
  have hfr0 : 0 < (ch : ℤ) * frames := mul_pos (by exact_mod_cast V.hch1) hf
  have g : GoodCall ch (cbFetch cb dummy s).d n frames.toNat t := by
    rw [hfe]
    exact ⟨by dsimp only; omega, by dsimp only; rw [h3], Or.inr ha, Or.inr (by dsimp only; rw [h2]; exact hd), by norm_num at hnb ⊢; omega, hfb,
      Or.inr ⟨by dsimp only; omega, by dsimp only; omega⟩, by dsimp only; rw [h5]; exact hrat, vt⟩
  obtain ⟨s', u, gen, D', w1, I, w3, W⟩ := sinc_call (m := (cbFetch cb dummy s).mem) V' rfl g hnb (H := sincReach N inc t)
    (by rw [hsr, min_self]) (fun h => by omega) (fun h => by omega) (fun _ Q hQ => by cases hQ; exact hH) (Or.inl rfl)
  have hu : u = 0 := I.enu he
  have hg0 : gen = 0 := by
    by_contra hc
    rcases I.look 0 (by omega) with h | ⟨_, h⟩
    · have hr := V.geo.reach_ge vt.1
      have hP : (posAt (⟨k, i⟩ : Pos) (sincRatioAt (startRatio t t) t ch frames.toNat) 0).k = k := rfl
      rw [hP, hu] at h
      omega
    · have hP : (posAt (⟨k, i⟩ : Pos) (sincRatioAt (startRatio t t) t ch frames.toNat) 0) = ⟨k, i⟩ := rfl
      rw [hP, hu, hsr] at h
      dsimp only at h
      have h7 : ((ch * (((R + 0 : ℕ) : ℤ) - k) : ℤ) : ℚ) ≤ 0 := by
        have : (ch : ℤ) * (((R + 0 : ℕ) : ℤ) - k) ≤ 0 := mul_nonpos_of_nonneg_of_nonpos (by positivity) (by push_cast; omega)
        exact_mod_cast this
      have h8 : (1 : ℚ) / 256 ≤ 1 / t := one_div_le_one_div_of_le (lt_of_lt_of_le (by norm_num) vt.1) vt.2
      have := V.hi.1
      linarith
  subst hu; subst hg0
  rw [if_pos rfl, hsr] at W
  refine ⟨_, cbStep_idle (ch := ch) (by omega) w1 (by rw [hfe]; exact h4), ⟨_, D', _, W.alike (alike_iff.2 ⟨rfl, rfl, rfl, rfl, rfl⟩), ?_⟩, ?_, ?_, ?_, ?_, ?_, ?_⟩
  · by_contra hc
    exact I.noten (by omega) he
  · right
    rw [hfe]
    simp only [callData, clampFrames]
    exact ⟨by rw [if_neg (by omega)], trivial⟩
  · rw [hfe]; exact h2
  · rw [hfe]
    simp only [callData, clampFrames]
    rw [if_neg (by omega)]; exact h3
  · rw [hfe]; exact h4
  · rw [hfe]; exact h5
  · have : (cbFetch cb dummy s).gen = s.gen := by unfold cbFetch; split_ifs <;> rfl
    dsimp only
    rw [this]; exact h6

end
end Verif
