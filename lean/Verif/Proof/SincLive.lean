import Verif.Proof.SincStream

/-! Sinc handles before and after the end of input: a call that does not reach the end of input does the same as one that is not
told about it. -/

namespace Verif
open Spec

theorem bufZero_dst {f f' : SincFilter} {channels dst len : ℤ} (h : bufZero f channels dst len = .ok f') : 0 ≤ dst ∧ f'.bRealEnd = f.bRealEnd := by
  unfold bufZero at h
  split at h
  · (simp [throw, throwThe, MonadExceptOf.throw] at h; done)
  split at h
  · rename_i hb
    exact ⟨hb.1, by rw [← ok_inj h]⟩
  · (simp [throw, throwThe, MonadExceptOf.throw] at h; done)

theorem prepTail_live {f f' : SincFilter} {channels half : ℤ} {d : SrcData} (h : prepTail f channels half d = .ok f') (hl : f'.bRealEnd < 0) :
    f' = f ∧ prepTail f channels half { d with endOfInput := 0 } = .ok f' := by
  unfold prepTail at h ⊢
  rw [if_neg (by simp)]
  split at h
  · exfalso
    obtain ⟨f1, _, h⟩ := bind_ok h
    obtain ⟨n, _, h⟩ := bind_ok h
    obtain ⟨e, _, h⟩ := bind_ok h
    obtain ⟨f2, hz, h⟩ := bind_ok h
    obtain ⟨h1, h2⟩ := bufZero_dst hz
    rw [← ok_inj h] at hl
    dsimp only at hl h1 h2
    omega
  · have := ok_inj h
    exact ⟨this.symm, by rw [this]; rfl⟩

theorem prepTail_keeps {f f' : SincFilter} {channels half : ℤ} {d : SrcData} (h : prepTail f channels half d = .ok f') (hl : 0 ≤ f.bRealEnd) :
    0 ≤ f'.bRealEnd := by
  by_contra hh
  have := (prepTail_live h (by omega)).1
  rw [this] at hh
  omega

theorem prepareData_live {m : Mem} {f f' : SincFilter} {channels half e : ℤ} {d : SrcData} (h : prepareData m f channels d half = .ok (e, f'))
    (hl : f'.bRealEnd < 0) : f.bRealEnd < 0 ∧ prepareData m f channels { d with endOfInput := 0 } half = .ok (e, f') := by
  unfold prepareData at h ⊢
  split at h
  · rename_i hb
    have h := ok_inj h; simp only [Prod.mk.injEq] at h
    rw [← h.2] at hl
    omega
  rename_i hb
  refine ⟨by omega, ?_⟩
  rw [if_neg hb]
  split at h
  · rename_i hd
    rw [if_pos hd]
    exact h
  rename_i hd
  rw [if_neg hd]
  obtain ⟨⟨f1, len⟩, h1, h⟩ := bind_ok h
  rw [h1]
  simp only [bind, Except.bind] at h ⊢
  split at h
  · cases h
  rename_i r hr
  split at h
  · cases h
  rename_i e' he
  split at h
  · rename_i hc
    rw [if_pos hc]; exact h
  rename_i hc
  rw [if_neg hc]
  split at h
  · cases h
  rename_i f2 hf2
  have : bufLoad m { d with endOfInput := 0 } f1 channels f1.bEnd f1.inUsed (min (truncI32 (f1.inCount - f1.inUsed)) len - r) = .ok f2 := hf2
  rw [this]
  dsimp only
  split at h
  · cases h
  rename_i f3 hf3
  have h' := ok_inj h; simp only [Prod.mk.injEq] at h'
  obtain ⟨_, rfl⟩ := h'
  rw [(prepTail_live hf3 hl).2]
  exact h

theorem sincReload_live {st : SrcState} {d : SrcData} {half : ℤ} {s s' : SincLoop} {b : Bool} (h : sincReload st d half s = .ok (b, s'))
    (hl : s'.f.bRealEnd < 0) : s.f.bRealEnd < 0 ∧ sincReload st { d with endOfInput := 0 } half s = .ok (b, s') := by
  unfold sincReload at h ⊢
  obtain ⟨n, hn, h⟩ := bind_ok h
  rw [hn]
  simp only [bind, Except.bind]
  split at h
  · rename_i hc
    rw [if_pos hc]
    obtain ⟨⟨e, f⟩, hp, h⟩ := bind_ok h
    dsimp only at h
    have hf : f = s'.f := by
      split at h
      · have h := ok_inj h; simp only [Prod.mk.injEq] at h
        rw [← h.2]
      · obtain ⟨_, _, h⟩ := bind_ok h
        have h := ok_inj h; simp only [Prod.mk.injEq] at h
        rw [← h.2]
    obtain ⟨a, b⟩ := prepareData_live hp (by rw [hf]; exact hl)
    refine ⟨a, ?_⟩
    rw [b]
    exact h
  · rename_i hc
    rw [if_neg hc]
    have h' := ok_inj h; simp only [Prod.mk.injEq] at h'
    refine ⟨by rw [h'.2]; exact hl, h⟩

theorem sincNorm_end {channels : ℤ} {f f' : SincFilter} {i i' : F64} (h : sincNorm channels f i = .ok (f', i')) : f'.bRealEnd = f.bRealEnd := by
  unfold sincNorm at h
  obtain ⟨_, _, h⟩ := bind_ok h
  obtain ⟨_, _, h⟩ := bind_ok h
  obtain ⟨_, _, h⟩ := bind_ok h
  have h := ok_inj h; simp only [Prod.mk.injEq] at h
  rw [← h.1]

theorem sincStep_live {v : SincVariant} {st : SrcState} {d : SrcData} {half : ℤ} {t : F64} {s s' : SincLoop} {b : Bool}
    (h : sincStep v st d half t s = .ok (b, s')) (hl : s'.f.bRealEnd < 0) :
    s.f.bRealEnd < 0 ∧ sincStep v st { d with endOfInput := 0 } half t s = .ok (b, s') := by
  unfold sincStep at h ⊢
  split at h
  · rename_i hc
    rw [if_pos hc]
    have h' := ok_inj h; simp only [Prod.mk.injEq] at h'
    exact ⟨by rw [h'.2]; exact hl, h⟩
  rename_i hc
  rw [if_neg hc]
  obtain ⟨⟨brk, s1⟩, h1, h⟩ := bind_ok h
  dsimp only at h
  have key : s1.f.bRealEnd < 0 := by
    split at h
    · have h' := ok_inj h; simp only [Prod.mk.injEq] at h'
      rw [h'.2]; exact hl
    split at h
    · have h' := ok_inj h; simp only [Prod.mk.injEq] at h'
      rw [h'.2]; exact hl
    obtain ⟨_, _, h⟩ := bind_ok h
    obtain ⟨_, _, h⟩ := bind_ok h
    obtain ⟨⟨f2, i2⟩, hN, h⟩ := bind_ok h
    have h' := ok_inj h; simp only [Prod.mk.injEq] at h'
    have := sincNorm_end hN
    rw [← h'.2] at hl
    dsimp only at hl this
    omega
  obtain ⟨a, b⟩ := sincReload_live h1 key
  refine ⟨a, ?_⟩
  rw [b]
  exact h

theorem sincLoop_live {v : SincVariant} {st : SrcState} {d : SrcData} {half : ℤ} {t : F64} :
    ∀ (n : ℕ) {s s' : SincLoop}, whileM (sincStep v st d half t) n s = .ok s' → s'.f.bRealEnd < 0 →
      s.f.bRealEnd < 0 ∧ whileM (sincStep v st { d with endOfInput := 0 } half t) n s = .ok s' := by
  intro n
  induction n with
  | zero => intro s s' h; simp [whileM] at h
  | succ n ih =>
    intro s s' h hl
    unfold whileM at h ⊢
    obtain ⟨⟨b, s1⟩, h1, h⟩ := bind_ok h
    dsimp only at h
    cases b with
    | false =>
      have h' : s1 = s' := ok_inj h
      obtain ⟨a, b⟩ := sincStep_live h1 (by rw [h']; exact hl)
      refine ⟨a, ?_⟩
      rw [b]
      exact h
    | true =>
      obtain ⟨a, b⟩ := ih h hl
      obtain ⟨a', b'⟩ := sincStep_live h1 a
      refine ⟨a', ?_⟩
      rw [b']
      exact b

theorem sincVari_live {v : SincVariant} {m : Mem} {st : SrcState} {d : SrcData} {r : ProcRes} (h : sincVariProcess v m st d = .ok r) {f : SincFilter}
    (hp : st.priv = .sinc f) (hl : ¬ SEnded r.st) :
    ¬ SEnded st ∧ ∃ d', sincVariProcess v m st { d with endOfInput := 0 } = .ok ⟨r.err, r.mem, r.st, d'⟩ := by
  unfold sincVariProcess at h ⊢
  rw [hp] at h ⊢
  dsimp only at h ⊢
  obtain ⟨ic, e1, h⟩ := bind_ok h
  obtain ⟨oc, e2, h⟩ := bind_ok h
  rw [e1, e2]
  simp only [bind, Except.bind]
  have nE : ∀ {st' : SrcState} {f' : SincFilter}, st'.priv = .sinc f' → (¬ SEnded st' ↔ f'.bRealEnd < 0) := by
    intro st' f' h
    unfold SEnded
    constructor
    · intro hh
      by_contra hc
      exact hh ⟨f', h, by omega⟩
    · rintro hh ⟨f2, h2, h3⟩
      rw [h] at h2
      cases h2
      omega
  split at h
  · rename_i hb
    rw [if_pos hb]
    have h := ok_inj h
    subst h
    dsimp only at hl
    have := (nE (f' := { f with inCount := ic, outCount := oc, inUsed := 0, outGen := 0 }) rfl).1 hl
    exact ⟨(nE hp).2 this, _, rfl⟩
  rename_i hb
  rw [if_neg hb]
  obtain ⟨half, e3, h⟩ := bind_ok h
  obtain ⟨⟨f1, idx⟩, e4, h⟩ := bind_ok h
  obtain ⟨s, e5, h⟩ := bind_ok h
  have hs : s.f.bRealEnd < 0 := by
    split at h
    · rw [← ok_inj h] at hl
      exact (nE rfl).1 hl
    · obtain ⟨_, _, h⟩ := bind_ok h
      obtain ⟨_, _, h⟩ := bind_ok h
      rw [← ok_inj h] at hl
      exact (nE rfl).1 hl
  obtain ⟨a, b⟩ := sincLoop_live _ e5 hs
  have := sincNorm_end e4
  dsimp only at a this
  refine ⟨(nE hp).2 (by omega), ?_⟩
  rw [e3]
  dsimp only
  rw [e4]
  dsimp only
  dsimp only at b
  rw [b]
  dsimp only
  split at h
  · rename_i hc
    rw [if_pos hc, ← ok_inj h]
    exact ⟨_, rfl⟩
  · rename_i hc
    rw [if_neg hc]
    obtain ⟨u, hu, h⟩ := bind_ok h
    obtain ⟨g, hg, h⟩ := bind_ok h
    rw [hu, hg, ← ok_inj h]
    exact ⟨_, rfl⟩

/-- A call that leaves the handle before the end of input does the same as one that is not told about the end. -/
theorem process_live {m m' : Mem} {st st' : SrcState} {d : SrcData} {x : Option SrcData} {e ch : ℤ} {f : SincFilter} (hvt : st.vt = sincVt ch) (hp : st.priv = .sinc f)
    (h : srcProcess m (some st) (some d) = .ok (e, m', some st', x)) (hl : ¬ SEnded st') :
    ¬ SEnded st ∧ ∃ x', srcProcess m (some st) (some { d with endOfInput := 0 }) = .ok (e, m', some st', x') := by
  unfold srcProcess at h ⊢
  dsimp only at h ⊢
  split at h
  · rename_i hm
    rw [if_pos hm]
    have h := ok_inj h; simp only [Prod.mk.injEq, Option.some.injEq] at h
    obtain ⟨rfl, rfl, rfl, _⟩ := h
    exact ⟨hl, _, rfl⟩
  rename_i hm
  rw [if_neg hm]
  obtain ⟨r, hr, h⟩ := bind_ok h
  have h := ok_inj h; simp only [Prod.mk.injEq, Option.some.injEq] at h
  obtain ⟨rfl, rfl, rfl, _⟩ := h
  suffices hs : ¬ SEnded st ∧ ∃ d', srcProcessData m st { d with endOfInput := 0 } = .ok ⟨r.err, r.mem, r.st, d'⟩ by
    obtain ⟨a, d', hd'⟩ := hs
    refine ⟨a, some d', ?_⟩
    rw [hd']
    rfl
  unfold srcProcessData at hr ⊢
  dsimp only at hr ⊢
  split at hr
  · rename_i hc
    rw [if_pos hc]
    rw [← ok_inj hr] at hl ⊢
    exact ⟨hl, _, rfl⟩
  rename_i hc
  rw [if_neg hc]
  split at hr
  · rename_i hc
    rw [if_pos hc]
    rw [← ok_inj hr] at hl ⊢
    exact ⟨hl, _, rfl⟩
  rename_i hc2
  rw [if_neg hc2]
  obtain ⟨ov, ho, hr⟩ := bind_ok hr
  have ho' : overlapTest st.channels (clampFrames { d with endOfInput := 0 }) = .ok ov := ho
  rw [ho']
  simp only [bind, Except.bind]
  split at hr
  · rename_i hc
    rw [if_pos hc]
    rw [← ok_inj hr] at hl ⊢
    exact ⟨hl, _, rfl⟩
  rename_i hc3
  rw [if_neg hc3]
  unfold constProcess at hr ⊢
  rw [ite_self] at hr ⊢
  have hv : (if Fl.lt st.lastRatio MIN_RATIO = true then { st with lastRatio := d.srcRatio } else st).vt = sincVt ch := by split <;> exact hvt
  have hp' : (if Fl.lt st.lastRatio MIN_RATIO = true then { st with lastRatio := d.srcRatio } else st).priv = .sinc f := by split <;> exact hp
  have e0 : (clampFrames d).srcRatio = d.srcRatio := rfl
  rw [e0, variProcess_sinc hv] at hr
  obtain ⟨a, b⟩ := sincVari_live hr hp' hl
  refine ⟨?_, ?_⟩
  · rintro ⟨f2, h2, h3⟩
    rw [hp] at h2; cases h2
    exact a ⟨f, hp', h3⟩
  · have e2 : (clampFrames { d with endOfInput := 0 }).srcRatio = d.srcRatio := rfl
    rw [e2, variProcess_sinc hv]
    exact b

end Verif
