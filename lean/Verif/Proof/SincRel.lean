import Verif.Proof.Relational

/-! Relational theorem for the sinc converters. -/

namespace Verif

variable {T : SRel} {W : ℤ → ℤ → F32 → F32 → Prop} {d : SrcData} {ch : ℤ}

variable (T) in
/-- Related history buffers: sample `i` belongs to channel `i % ch`. -/
def BRel (ch n : ℤ) (b b' : ℤ → F32) : Prop := ∀ i, 0 ≤ i → i < n → T.S (i % ch) (b i) (b' i)

variable (T) in
/-- Related filters: same control data, related buffers. -/
def FRel (ch : ℤ) (f g : SincFilter) : Prop := g = { f with buffer := g.buffer } ∧ BRel T ch f.bLen f.buffer g.buffer

theorem shift_class (h : ch ∣ δ) (i : ℤ) : (i + δ) % ch = i % ch := by
  obtain ⟨q, rfl⟩ := h
  rw [Int.add_mul_emod_self_left]

theorem rdCoeff_buf (f : SincFilter) (b : ℤ → F32) (i : ℤ) : rdCoeff { f with buffer := b } i = rdCoeff f i := rfl
theorem icoeff_buf (f : SincFilter) (b : ℤ → F32) (i : ℤ) : icoeff { f with buffer := b } i = icoeff f i := rfl

theorem accumulate_rel {f g : SincFilter} (hf : FRel T ch f g) {w : ℤ} {cap : ℕ} {ic : F64} {di : ℤ}
    (hal : T.Triv ∨ (w = ch ∧ ch ∣ di)) (h0 : 0 ≤ di) (h1 : di + w - 1 < f.bLen) {a a' : ℕ → F64}
    (ha : ∀ c : ℕ, T.A c (a c) (a' c)) :
    RelM (fun x y => ∀ c : ℕ, T.A c (x c) (y c)) (accumulate f ch w cap ic di a) (accumulate g ch w cap ic di a') := by
  unfold accumulate
  refine RelM.for' (R := fun _ (x y : ℕ → F64) => ∀ c : ℕ, T.A c (x c) (y c)) w.toNat (fun c hc x y h => ?_) ha
  refine RelM.bind (R := T.S (c : ℤ)) ?_ (fun u u' hu => ?_)
  · rw [hf.1]
    unfold rdBuf
    dsimp only
    refine RelM.ite (fun h => RelM.pure ?_) (fun _ => RelM.throw _)
    rcases hal with ht | ⟨hw, hd⟩
    · exact ht.1 _ _ _
    · have := hf.2 (di + c) h.1 (by omega)
      rwa [chan_class (by omega) hd] at this
  · refine RelM.ite (fun _ => RelM.pure (fun c' => ?_)) (fun _ => RelM.throw _)
    by_cases e : c' = c
    · subst e; simp only [Function.update_self]; exact T.acc _ _ _ _ _ _ (h c') hu
    · simp only [Function.update_of_ne e]; exact h c'

variable (T) in
/-- Related states of the filter loops. -/
def TRel (ch : ℤ) (s t : TapSt) : Prop :=
  t = { s with acc := t.acc } ∧ (∀ c : ℕ, T.A c (s.acc c) (t.acc c)) ∧ (T.Triv ∨ ch ∣ s.dataIndex)

theorem assertM_true {b : Bool} {u : Unit} (h : assertM b = .ok u) : b = true := by
  unfold assertM at h; split_ifs at h with hb; exact hb

theorem chkI32_eq {a n : ℤ} (h : chkI32 a = .ok n) : n = a := by
  unfold chkI32 at h; split_ifs at h; cases h; rfl

theorem leftStep_rel {v : SincVariant} {f g : SincFilter} (hf : FRel T ch f g) (hw : T.Triv ∨ v.w ch = ch) (incr : ℤ) {s t : TapSt}
    (h : TRel T ch s t) :
    RelM (fun p q => p.1 = q.1 ∧ TRel T ch p.2 q.2) (leftStep v f ch incr s) (leftStep v g ch incr t) := by
  obtain ⟨h1, h2, h3⟩ := h
  have hg := hf.1
  unfold leftStep
  rw [h1]
  dsimp only
  refine RelM.ite (fun _ => RelM.pure ⟨rfl, rfl, h2, h3⟩) (fun _ => ?_)
  have e1 : g.coeffHalfLen = f.coeffHalfLen := by rw [hg]
  have e2 : g.bLen = f.bLen := by rw [hg]
  have e3 : g.bEnd = f.bEnd := by rw [hg]
  have e4 : ∀ i, icoeff g i = icoeff f i := by intro i; rw [hg]; rfl
  rw [e1, e2, e3, e4]
  refine RelM.bind_same (fun _ _ => RelM.bind_same (fun ic _ => RelM.bind_same (fun _ ha => RelM.bind_same (fun _ _ => ?_))))
  have hb := assertM_true ha
  simp only [Bool.and_eq_true, decide_eq_true_eq] at hb
  refine RelM.bind (accumulate_rel hf ?_ hb.1 hb.2 h2) (fun x y hxy => ?_)
  · rcases hw with hw | hw
    · exact Or.inl hw
    · exact h3.imp id (fun h => ⟨hw, h⟩)
  refine RelM.bind_same (fun fi _ => RelM.bind_same (fun di hdi => RelM.pure ⟨rfl, rfl, hxy, ?_⟩))
  rcases hw with hw | hw
  · exact Or.inl hw
  · refine h3.imp id (fun h => ?_)
    rw [chkI32_eq hdi, hw]
    exact Dvd.dvd.add h (dvd_refl ch)

theorem rightStep_rel {v : SincVariant} {f g : SincFilter} (hf : FRel T ch f g) (hw : T.Triv ∨ v.w ch = ch) (incr : ℤ) {s t : TapSt}
    (h : TRel T ch s t) :
    RelM (fun p q => p.1 = q.1 ∧ TRel T ch p.2 q.2) (rightStep v f ch incr s) (rightStep v g ch incr t) := by
  obtain ⟨h1, h2, h3⟩ := h
  have hg := hf.1
  unfold rightStep
  rw [h1]
  dsimp only
  have e1 : ∀ i, rightAssert v g i = rightAssert v f i := by intro i; rw [hg]; rfl
  have e2 : g.bLen = f.bLen := by rw [hg]
  have e3 : g.bEnd = f.bEnd := by rw [hg]
  have e4 : ∀ i, icoeff g i = icoeff f i := by intro i; rw [hg]; rfl
  rw [e1, e2, e3, e4]
  refine RelM.bind_same (fun _ _ => RelM.bind_same (fun ic _ => RelM.bind_same (fun _ ha => RelM.bind_same (fun _ _ => ?_))))
  have hb := assertM_true ha
  simp only [Bool.and_eq_true, decide_eq_true_eq] at hb
  refine RelM.bind (accumulate_rel hf ?_ hb.1 hb.2 h2) (fun x y hxy => ?_)
  · rcases hw with hw | hw
    · exact Or.inl hw
    · exact h3.imp id (fun h => ⟨hw, h⟩)
  refine RelM.bind_same (fun fi _ => RelM.bind_same (fun di hdi => RelM.pure ⟨rfl, rfl, hxy, ?_⟩))
  rcases hw with hw | hw
  · exact Or.inl hw
  · refine h3.imp id (fun h => ?_)
    rw [chkI32_eq hdi, hw]
    exact Dvd.dvd.sub h (dvd_refl ch)

theorem leftSkip_dvd {w incr fi di : ℤ} {r : ℤ × ℤ} (h : leftSkip w incr fi di = .ok r) (hd : w ∣ di) : w ∣ r.2 := by
  unfold leftSkip at h
  split_ifs at h
  · simp only [bind, Except.bind] at h
    repeat' (split at h; · cases h)
    rename_i v6 h6 _ v7 h7
    cases h
    rw [chkI32_eq h7, chkI32_eq h6]
    exact Dvd.dvd.add hd ⟨_, mul_comm _ _⟩
  · cases h; exact hd

theorem calcOutput_rel {v : SincVariant} {f g : SincFilter} (hf : FRel T ch f g)
    (hal : T.Triv ∨ (v.w ch = ch ∧ ch ∣ f.bCurrent)) (incr start : ℤ) :
    RelM (fun x y => ∀ c : ℕ, ∃ l l' r r', T.A c l l' ∧ T.A c r r' ∧ x c = Fl.add l r ∧ y c = Fl.add l' r')
      (calcOutput v f ch incr start) (calcOutput v g ch incr start) := by
  have hg := hf.1
  have hw : T.Triv ∨ v.w ch = ch := hal.imp id And.left
  have hd : T.Triv ∨ ch ∣ f.bCurrent := hal.imp id And.right
  have e1 : g.coeffHalfLen = f.coeffHalfLen := by rw [hg]
  have e2 : g.bCurrent = f.bCurrent := by rw [hg]
  unfold calcOutput
  rw [e1, e2]
  dsimp only
  refine RelM.bind_same (fun mf _ => RelM.bind_same (fun _ _ => RelM.bind_same (fun cc _ => RelM.bind_same (fun _ _ =>
    RelM.bind_same (fun fi _ => RelM.bind_same (fun off hoff => RelM.bind_same (fun di hdi => RelM.bind_same (fun sk hsk => ?_))))))))
  obtain ⟨fi', di'⟩ := sk
  dsimp only
  refine RelM.bind (RelM.while' (J := fun _ => True) (fun s t _ hs => leftStep_rel hf hw incr hs) (fun _ _ _ _ => trivial) _ _ _
    trivial ⟨rfl, fun c => T.azero c, ?_⟩) (fun l l' hl => ?_)
  · rcases hal with h | ⟨h, h'⟩
    · exact Or.inl h
    · refine Or.inr ?_
      have h1 : v.w ch ∣ di := by
        rw [chkI32_eq hdi, chkI32_eq hoff, h]; exact Dvd.dvd.sub h' ⟨_, rfl⟩
      have := leftSkip_dvd hsk h1
      rwa [h] at this
  refine RelM.bind_same (fun fi _ => RelM.bind_same (fun _ _ => RelM.bind_same (fun cc _ => RelM.bind_same (fun _ _ =>
    RelM.bind_same (fun fi _ => RelM.bind_same (fun off hoff => RelM.bind_same (fun di hdi => ?_)))))))
  refine RelM.bind (RelM.while' (J := fun _ => True) (fun s t _ hs => rightStep_rel hf hw incr hs) (fun _ _ _ _ => trivial) _ _ _
    trivial ⟨rfl, fun c => T.azero c, ?_⟩) (fun r r' hr => ?_)
  · refine hd.imp id (fun h => ?_)
    rw [chkI32_eq hdi, chkI32_eq hoff]; exact Dvd.dvd.add h ⟨_, rfl⟩
  exact RelM.pure (fun c => ⟨_, _, _, _, hl.2.1 c, hr.2.1 c, rfl, rfl⟩)

/-! ### the buffer -/

theorem bufMove_rel {f g : SincFilter} (hf : FRel T ch f g) {src len : ℤ} (h : T.Triv ∨ (ch ∣ src ∧ src + len ≤ f.bLen)) :
    RelM (fun f' g' => FRel T ch f' g' ∧ f' = { f with buffer := f'.buffer }) (bufMove f ch src len) (bufMove g ch src len) := by
  rw [hf.1]
  unfold bufMove
  dsimp only
  refine RelM.ite (fun _ => RelM.throw _) (fun _ => RelM.ite (fun h1 => RelM.pure ⟨⟨rfl, fun i hi0 hi1 => ?_⟩, rfl⟩) (fun _ => RelM.throw _))
  dsimp only at hi1 ⊢
  split_ifs with hi
  · rcases h with h | ⟨h, h'⟩
    · exact h.1 _ _ _
    · have := hf.2 (src + i) (by omega) (by omega)
      have e := shift_class h i
      rw [add_comm] at e
      rwa [e] at this
  · exact hf.2 i hi0 hi1

theorem bufLoad_rel (hC : Compat T W d ch) {m m' : Mem} {o : ℤ} (hm : MRel (W o) m m') {f g : SincFilter} (hf : FRel T ch f g) {dst src len : ℤ}
    (h : T.Triv ∨ (ch ∣ dst ∧ ch ∣ src)) :
    RelM (fun f' g' => FRel T ch f' g' ∧ f' = { f with buffer := f'.buffer }) (bufLoad m d f ch dst src len) (bufLoad m' d g ch dst src len) := by
  rw [hf.1]
  unfold bufLoad
  dsimp only
  refine RelM.ite (fun _ => RelM.throw _) (fun _ => RelM.ite (fun h1 => RelM.throw _) (fun _ => RelM.ite (fun h1 => RelM.throw _)
    (fun h1 => RelM.pure ⟨⟨rfl, fun i hi0 hi1 => ?_⟩, rfl⟩)))
  dsimp only at hi1 ⊢
  split_ifs with hi
  · rcases h with h | ⟨h, h'⟩
    · exact h.1 _ _ _
    · have := hC.hin o (src + (i - dst)) (by omega) (by omega) _ _ (hm (d.dataIn + (src + (i - dst))))
      have e : (src + (i - dst)) = i + (src - dst) := by ring
      rw [← add_assoc, e, shift_class (Dvd.dvd.sub h' h)] at this
      exact this
  · exact hf.2 i hi0 hi1

theorem bufZero_rel {f g : SincFilter} (hf : FRel T ch f g) {dst len : ℤ} :
    RelM (fun f' g' => FRel T ch f' g' ∧ f' = { f with buffer := f'.buffer }) (bufZero f ch dst len) (bufZero g ch dst len) := by
  rw [hf.1]
  unfold bufZero
  dsimp only
  refine RelM.ite (fun _ => RelM.throw _) (fun _ => RelM.ite (fun h1 => RelM.pure ⟨⟨rfl, fun i hi0 hi1 => ?_⟩, rfl⟩) (fun _ => RelM.throw _))
  dsimp only at hi1 ⊢
  split_ifs with hi
  · exact T.zero _
  · exact hf.2 i hi0 hi1

variable (T) in
/-- Frame alignment of the buffer positions (needed only to keep channels apart). -/
def Al (ch : ℤ) (f : SincFilter) : Prop :=
  T.Triv ∨ (ch ∣ f.bCurrent ∧ (f.bRealEnd < 0 → ch ∣ f.bEnd) ∧ f.bEnd ≤ f.bLen)

theorem prepRoom_rel {f g : SincFilter} (hf : FRel T ch f g) {half : ℤ} (hh : ch ∣ half) (hal : Al T ch f) (hr : f.bRealEnd < 0) :
    RelM (fun p q => p.2 = q.2 ∧ FRel T ch p.1 q.1 ∧ (T.Triv ∨ (ch ∣ p.1.bCurrent ∧ ch ∣ p.1.bEnd)) ∧
        p.1 = { f with bCurrent := p.1.bCurrent, bEnd := p.1.bEnd, buffer := p.1.buffer })
      (prepRoom f ch half) (prepRoom g ch half) := by
  obtain ⟨hg, hb⟩ := hf
  rw [hg]
  unfold prepRoom
  dsimp only
  refine RelM.ite (fun _ => ?_) (fun _ => ?_)
  · exact RelM.bind_same (fun len _ => RelM.pure ⟨rfl, ⟨rfl, hb⟩, Or.inr ⟨hh, hh⟩, rfl⟩)
  refine RelM.bind_same (fun e _ => RelM.ite (fun _ => ?_) (fun _ => ?_))
  · exact RelM.bind_same (fun len _ => RelM.pure ⟨rfl, ⟨rfl, hb⟩, hal.imp id (fun h => ⟨h.1, h.2.1 hr⟩), rfl⟩)
  refine RelM.bind_same (fun len hlen => RelM.bind_same (fun n hn => ?_))
  refine RelM.bind (bufMove_rel (f := f) (g := { f with buffer := g.buffer }) ⟨rfl, hb⟩ ?_) (fun f1 g1 h1 => ?_)
  · refine hal.imp id (fun h => ⟨Dvd.dvd.sub h.1 hh, ?_⟩)
    rw [chkI32_eq hn, chkI32_eq hlen]
    have := h.2.2
    omega
  obtain ⟨⟨e1, e2⟩, e3⟩ := h1
  rw [e1]
  dsimp only
  refine RelM.bind_same (fun l _ => RelM.pure ⟨rfl, ⟨rfl, e2⟩, ?_, ?_⟩)
  · refine hal.imp id (fun h => ⟨hh, ?_⟩)
    dsimp only
    rw [chkI32_eq hlen]
    exact Dvd.dvd.add hh (Dvd.dvd.sub (h.2.1 hr) h.1)
  · rw [e3]

theorem prepTail_rel {f g : SincFilter} (hf : FRel T ch f g) {half : ℤ} (hh : ch ∣ half)
    (hal : T.Triv ∨ (ch ∣ f.bCurrent ∧ f.bEnd ≤ f.bLen)) :
    RelM (fun p q => FRel T ch p q ∧ (T.Triv ∨ ch ∣ p.bCurrent) ∧ p.inUsed = f.inUsed ∧ p.outGen = f.outGen)
      (prepTail f ch half d) (prepTail g ch half d) := by
  obtain ⟨hg, hb⟩ := hf
  rw [hg]
  unfold prepTail
  dsimp only
  refine RelM.ite (fun _ => ?_) (fun _ => RelM.pure ⟨⟨rfl, hb⟩, hal.imp id And.left, rfl, rfl⟩)
  refine RelM.bind (R := fun p q => FRel T ch p q ∧ (T.Triv ∨ ch ∣ p.bCurrent) ∧ p.inUsed = f.inUsed ∧ p.outGen = f.outGen) ?_
    (fun f1 g1 h1 => ?_)
  · unfold tailMove
    dsimp only
    refine RelM.ite (fun _ => ?_) (fun _ => RelM.pure ⟨⟨rfl, hb⟩, hal.imp id And.left, rfl, rfl⟩)
    refine RelM.bind_same (fun len hlen => RelM.bind_same (fun n hn => ?_))
    refine RelM.bind (bufMove_rel (f := f) (g := { f with buffer := g.buffer }) ⟨rfl, hb⟩ ?_) (fun f1 g1 h1 => ?_)
    · refine hal.imp id (fun h => ⟨Dvd.dvd.sub h.1 hh, ?_⟩)
      rw [chkI32_eq hn, chkI32_eq hlen]
      have := h.2
      omega
    obtain ⟨⟨e1, e2⟩, e3⟩ := h1
    rw [e1]
    refine RelM.pure ⟨⟨rfl, e2⟩, Or.inr hh, ?_, ?_⟩ <;> rw [e3]
  · obtain ⟨⟨e1, e2⟩, e3, e4, e5⟩ := h1
    rw [e1]
    dsimp only
    refine RelM.bind_same (fun len hlen => RelM.bind_same (fun n hn => ?_))
    refine RelM.bind (bufZero_rel (f := { f1 with bRealEnd := f1.bEnd }) (g := { f1 with bRealEnd := f1.bEnd, buffer := g1.buffer })
      ⟨rfl, e2⟩) (fun f2 g2 h2 => ?_)
    obtain ⟨⟨a1, a2⟩, a3⟩ := h2
    rw [a1]
    refine RelM.pure ⟨⟨rfl, a2⟩, ?_, ?_, ?_⟩ <;> rw [a3]
    · exact e3
    · exact e4
    · exact e5

theorem dvd_sub_tmod (a b : ℤ) : b ∣ a - a.tmod b := ⟨a.tdiv b, by have := Int.mul_tdiv_add_tmod a b; omega⟩

theorem prepareData_rel (hC : Compat T W d ch) {m m' : Mem} {o : ℤ} (hm : MRel (W o) m m') {f g : SincFilter} (hf : FRel T ch f g) {half : ℤ}
    (hh : ch ∣ half) (hal : Al T ch f) (hu : T.Triv ∨ ch ∣ f.inUsed) :
    RelM (fun p q => p.1 = q.1 ∧ FRel T ch p.2 q.2 ∧ (T.Triv ∨ (ch ∣ p.2.bCurrent ∧ ch ∣ p.2.inUsed)) ∧ p.2.outGen = f.outGen)
      (prepareData m f ch d half) (prepareData m' g ch d half) := by
  have hb0 : T.Triv ∨ (ch ∣ f.bCurrent ∧ ch ∣ f.inUsed) := by
    rcases hal with h | h
    · exact Or.inl h
    · exact hu.imp id (fun h' => ⟨h.1, h'⟩)
  have eR : g.bRealEnd = f.bRealEnd := by rw [hf.1]
  unfold prepareData
  rw [eR]
  refine RelM.ite (fun _ => RelM.pure ⟨rfl, hf, hb0, rfl⟩) (fun hr => ?_)
  refine RelM.ite (fun _ => RelM.pure ⟨rfl, hf, hb0, rfl⟩) (fun _ => ?_)
  refine RelM.bind (prepRoom_rel hf hh hal (by omega)) ?_
  rintro ⟨f1, len⟩ ⟨g1, len'⟩ ⟨e, ⟨hg1, hbr⟩, h2, h3⟩
  dsimp only at e hg1 hbr h2 h3 ⊢
  subst e
  rw [hg1]
  dsimp only
  have hin : f1.inUsed = f.inUsed := by rw [h3]
  have hog : f1.outGen = f.outGen := by rw [h3]
  refine RelM.bind_same (fun r hr => RelM.bind_same (fun e he => ?_))
  have hr' : r = (min (truncI32 (f1.inCount - f1.inUsed)) len).tmod ch := by
    unfold modM at hr; split_ifs at hr; cases hr; rfl
  refine RelM.ite (fun _ => RelM.pure ⟨rfl, ⟨rfl, hbr⟩, ?_, hog⟩) (fun hle => ?_)
  · rcases h2 with h | h
    · exact Or.inl h
    · exact hu.imp id (fun h' => ⟨h.1, by dsimp only; rw [hin]; exact h'⟩)
  have hl : ch ∣ min (truncI32 (f1.inCount - f1.inUsed)) len - r := by rw [hr']; exact dvd_sub_tmod _ _
  refine RelM.bind (bufLoad_rel hC hm (f := f1) (g := { f1 with buffer := g1.buffer }) ⟨rfl, hbr⟩ ?_) (fun f2 g2 h4 => ?_)
  · rcases h2 with h | h
    · exact Or.inl h
    · exact hu.imp id (fun h' => ⟨h.2, by rw [hin]; exact h'⟩)
  obtain ⟨⟨a1, a2⟩, a3⟩ := h4
  rw [a1]
  dsimp only
  have c1 : f2.bEnd = f1.bEnd := by rw [a3]
  have c2 : f2.inUsed = f.inUsed := by rw [a3]; exact hin
  have c3 : f2.bCurrent = f1.bCurrent := by rw [a3]
  have c4 : f2.outGen = f.outGen := by rw [a3]; exact hog
  have c5 : f2.bLen = f1.bLen := by rw [a3]
  refine RelM.bind (prepTail_rel (f := { f2 with bEnd := f2.bEnd + _, inUsed := f2.inUsed + _ })
    (g := { f2 with bEnd := f2.bEnd + _, inUsed := f2.inUsed + _, buffer := g2.buffer }) ⟨rfl, a2⟩ hh ?_) (fun f3 g3 h5 => ?_)
  · refine h2.imp id (fun h => ⟨?_, ?_⟩)
    · dsimp only; rw [c3]; exact h.1
    · dsimp only; rw [c1, c5]
      have := chkI32_eq he
      omega
  · obtain ⟨b1, b2, b3, b4⟩ := h5
    refine RelM.pure ⟨rfl, b1, ?_, by dsimp only; rw [b4]; exact c4⟩
    rcases b2 with h | h
    · exact Or.inl h
    · refine hu.imp id (fun h' => ⟨h, ?_⟩)
      dsimp only
      rw [b3]
      dsimp only
      rw [c2]
      exact Dvd.dvd.add h' hl

/-! ### the processing loop -/

variable (T) in
/-- Loop states of the two runs. -/
def LRel (W : ℤ → ℤ → F32 → F32 → Prop) (ch : ℤ) (s t : SincLoop) : Prop :=
  t = { s with mem := t.mem, f := t.f } ∧ MRel (W s.f.outGen) s.mem t.mem ∧ FRel T ch s.f t.f ∧ (T.Triv ∨ (ch ∣ s.f.outGen ∧ ch ∣ s.f.inUsed))

theorem inHand_rel {f g : SincFilter} (hf : FRel T ch f g) : samplesInHand g = samplesInHand f := by rw [hf.1]; rfl

section
variable {st st' : SrcState} (hst : st'.channels = st.channels ∧ st'.lastRatio = st.lastRatio)
include hst

theorem sincReload_rel (hC : Compat T W d st.channels) {half : ℤ} (hh : st.channels ∣ half) {s t : SincLoop}
    (h : LRel T W st.channels s t) (hal : Al T st.channels s.f) :
    RelM (fun p q => p.1 = q.1 ∧ LRel T W st.channels p.2 q.2 ∧ (T.Triv ∨ st.channels ∣ p.2.f.bCurrent))
      (sincReload st d half s) (sincReload st' d half t) := by
  obtain ⟨h1, h2, h3, h4⟩ := h
  have hbc : T.Triv ∨ st.channels ∣ s.f.bCurrent := hal.imp id And.left
  unfold sincReload
  rw [inHand_rel h3, hst.1]
  refine RelM.bind_same (fun n _ => RelM.ite (fun _ => ?_) (fun _ => RelM.pure ⟨rfl, ⟨h1, h2, h3, h4⟩, hbc⟩))
  refine RelM.bind (prepareData_rel hC h2 h3 hh hal (h4.imp id And.right)) ?_
  rintro ⟨e, f⟩ ⟨e', g⟩ ⟨a1, a2, a3, a4⟩
  dsimp only at a1 a2 a3 a4 ⊢
  subst a1
  have hnew : T.Triv ∨ (st.channels ∣ f.outGen ∧ st.channels ∣ f.inUsed) := by
    rcases a3 with h | h
    · exact Or.inl h
    · exact h4.imp id (fun h' => ⟨by rw [a4]; exact h'.1, h.2⟩)
  rw [h1]
  dsimp only
  rw [← a4] at h2
  refine RelM.ite (fun _ => RelM.pure ⟨rfl, ⟨rfl, h2, a2, hnew⟩, a3.imp id And.left⟩) (fun _ => ?_)
  rw [inHand_rel a2]
  exact RelM.bind_same (fun n _ => RelM.pure ⟨rfl, ⟨rfl, h2, a2, hnew⟩, a3.imp id And.left⟩)

theorem sincStep_rel {v : SincVariant} (hw0 : 0 ≤ v.w st.channels) (hw : T.Triv ∨ v.w st.channels = st.channels) (hC : Compat T W d st.channels) {half : ℤ}
    (hh : st.channels ∣ half) (tm : F64) {s t : SincLoop} (h : LRel T W st.channels s t) (hal : Al T st.channels s.f) :
    RelM (fun p q => p.1 = q.1 ∧ LRel T W st.channels p.2 q.2)
      (sincStep v st d half tm s) (sincStep v st' d half tm t) := by
  have hx := h
  obtain ⟨h1, h2, h3, h4⟩ := h
  unfold sincStep
  have e1 : t.f.outGen = s.f.outGen := by rw [h3.1]
  have e2 : t.f.outCount = s.f.outCount := by rw [h3.1]
  rw [e1, e2]
  refine RelM.ite (fun _ => RelM.pure ⟨rfl, hx⟩) (fun _ => ?_)
  refine RelM.bind (sincReload_rel hst hC hh hx hal) ?_
  rintro ⟨b, s1⟩ ⟨b', t1⟩ ⟨rfl, hL, hbc⟩
  dsimp only at hL hbc ⊢
  have hL0 := hL
  obtain ⟨k1, k2, k3, k4⟩ := hL
  refine RelM.ite (fun _ => RelM.pure ⟨rfl, hL0⟩) (fun _ => ?_)
  have i1 : t1.idx = s1.idx := by rw [k1]
  have i2 : t1.ratio = s1.ratio := by rw [k1]
  have i3 : t1.f.outGen = s1.f.outGen := by rw [k3.1]
  have i4 : t1.f.outCount = s1.f.outCount := by rw [k3.1]
  have i5 : t1.f.indexInc = s1.f.indexInc := by rw [k3.1]
  have i6 : ∀ x y, sincDone v t1.f x y = sincDone v s1.f x y := by intro x y; rw [k3.1]; rfl
  rw [i1, i2, i3, i4, i5, i6, hst.1, hst.2]
  refine RelM.ite (fun _ => RelM.pure ⟨rfl, hL0⟩) (fun _ => ?_)
  have hal2 : T.Triv ∨ (v.w st.channels = st.channels ∧ st.channels ∣ s1.f.bCurrent) := by
    rcases hw with h | h
    · exact Or.inl h
    · exact hbc.imp id (fun h' => ⟨h, h'⟩)
  refine RelM.bind (calcOutput_rel k3 hal2 _ _) (fun x y hxy => ?_)
  refine RelM.bind (R := MRel (W (s1.f.outGen + v.w st.channels))) ?_ (fun mm mm' hmm => ?_)
  · unfold writeOutputs
    rw [← Int.toNat_of_nonneg hw0]
    refine RelM.for' (R := fun (c : ℕ) => MRel (W (s1.f.outGen + c))) (v.w st.channels).toNat (fun c hc m m' hm => ?_)
      (by rw [Nat.cast_zero, add_zero]; exact k2)
    rw [show s1.f.outGen + ((c + 1 : ℕ) : ℤ) = s1.f.outGen + c + 1 by push_cast; ring]
    refine wrOut_rel hC _ hm ?_
    obtain ⟨l, l', r, r', a1, a2, a3, a4⟩ := hxy c
    rw [a3, a4]
    rcases hw with h | h
    · exact h.1 _ _ _
    · rcases k4 with h' | h'
      · exact h'.1 _ _ _
      · rw [chan_class (by rw [h] at hc; exact hc) h'.1]
        exact T.fin _ _ _ _ _ _ a1 a2
  · have hg := k3.1
    unfold sincNorm
    have j1 : t1.f.bCurrent = s1.f.bCurrent := by rw [k3.1]
    have j2 : t1.f.bLen = s1.f.bLen := by rw [k3.1]
    dsimp only
    rw [j1, j2]
    simp only [bind_assoc]
    refine RelM.bind_same (fun p _ => RelM.bind_same (fun b _ => RelM.bind_same (fun c _ => ?_)))
    simp only [pure_bind]
    refine RelM.pure ⟨rfl, ?_, hmm, ⟨?_, k3.2⟩, ?_⟩
    · dsimp only; rw [k1]
    · dsimp only; rw [hg]
    · rcases hw with h | h
      · exact Or.inl h
      · refine k4.imp id (fun h' => ⟨?_, h'.2⟩)
        dsimp only; rw [h]; exact Dvd.dvd.add h'.1 (dvd_refl _)

end

/-- The state of the loop at its start. -/
def sincInit (m : Mem) (st : SrcState) (f : SincFilter) (idx : F64) : SincLoop :=
  { mem := m, f, idx, ratio := st.lastRatio, error := st.error, stop := 0 }

theorem half_dvd {f : SincFilter} {ch half : ℤ} {a b : F64} (h : halfFilterChanLen f ch a b = .ok half) : ch ∣ half := by
  unfold halfFilterChanLen at h
  simp only [bind, Except.bind] at h
  split at h
  · cases h
  · rw [chkI32_eq h]; exact ⟨_, rfl⟩

/-- Relational theorem for the sinc converters.  `J` is an invariant of the loop of the first run that guarantees the alignment of
the buffer; for a trivial relation `T` nothing is needed. -/
theorem sinc_rel {v : SincVariant} {m m' : Mem} {st st' : SrcState} {f g : SincFilter} (hp : st.priv = .sinc f) (hp' : st'.priv = .sinc g)
    (hst : st' = { st with priv := st'.priv }) (hw0 : 0 ≤ v.w st.channels) (hw : T.Triv ∨ v.w st.channels = st.channels)
    (hC : Compat T W d st.channels) (hm : MRel (W 0) m m') (hf : FRel T st.channels f g) (J : ℤ → SincLoop → Prop)
    (hJ0 : T.Triv ∨ ∀ half f1 idx, halfFilterChanLen { f with inCount := d.inputFrames * st.channels, outCount := d.outputFrames * st.channels, inUsed := 0, outGen := 0 } st.channels st.lastRatio d.srcRatio = .ok half →
      sincNorm st.channels { f with inCount := d.inputFrames * st.channels, outCount := d.outputFrames * st.channels, inUsed := 0, outGen := 0 } st.lastPosition = .ok (f1, idx) →
      J half (sincInit m st f1 idx))
    (hJ : ∀ half s s', J half s → sincStep v st d half (Fl.add (Fl.div one64 st.lastRatio) SRC_MIN_RATIO_DIFF) s = .ok (true, s') → J half s')
    (hJal : ∀ half s, J half s → Al T st.channels s.f) :
    RelM (fun r r' => r.err = r'.err ∧ (∃ g, MRel (W g) r.mem r'.mem ∧ (T.Triv ∨ (r.err = 0 → g = r.data.outputFramesGen * st.channels))) ∧ r'.data = r.data ∧
        ∃ f g, r.st.priv = .sinc f ∧ r'.st = { r.st with priv := .sinc g } ∧ FRel T st.channels f g)
      (sincVariProcess v m st d) (sincVariProcess v m' st' d) := by
  have e1 : st'.channels = st.channels := by rw [hst]
  have e2 : st'.lastRatio = st.lastRatio := by rw [hst]
  have e3 : st'.lastPosition = st.lastPosition := by rw [hst]
  have e4 : st'.error = st.error := by rw [hst]
  unfold sincVariProcess
  rw [hp, hp', e1, e2, e3, e4]
  dsimp only
  refine RelM.bind_same (fun ic hic => RelM.bind_same (fun oc hoc => ?_))
  have hic' : ic = d.inputFrames * st.channels := by unfold chkI64 at hic; split_ifs at hic; cases hic; rfl
  have hoc' : oc = d.outputFrames * st.channels := by unfold chkI64 at hoc; split_ifs at hoc; cases hoc; rfl
  subst hic'; subst hoc'
  refine RelM.ite (fun _ => RelM.pure ⟨rfl, ⟨0, hm, Or.inr (fun h => absurd h (show ¬ Err.BAD_INTERNAL_STATE = 0 by decide))⟩, rfl, _,
    { g with inCount := d.inputFrames * st.channels, outCount := d.outputFrames * st.channels, inUsed := 0, outGen := 0 },
    rfl, ?_, ?_, hf.2⟩) (fun _ => ?_)
  · rw [hst]
  · rw [hf.1]
  set f0 : SincFilter := { f with inCount := d.inputFrames * st.channels, outCount := d.outputFrames * st.channels, inUsed := 0, outGen := 0 } with hf0
  set g0 : SincFilter := { g with inCount := d.inputFrames * st.channels, outCount := d.outputFrames * st.channels, inUsed := 0, outGen := 0 } with hg0
  have hfg0 : FRel T st.channels f0 g0 := ⟨by rw [hg0, hf0, hf.1], hf.2⟩
  have eh : halfFilterChanLen g0 st.channels st.lastRatio d.srcRatio = halfFilterChanLen f0 st.channels st.lastRatio d.srcRatio := by
    rw [hfg0.1]; rfl
  rw [eh]
  refine RelM.bind_same (fun half hhalf => ?_)
  have hh := half_dvd hhalf
  have hn : RelM (fun p q => q.2 = p.2 ∧ FRel T st.channels p.1 q.1 ∧ p.1.outGen = 0 ∧ p.1.inUsed = 0)
      (sincNorm st.channels f0 st.lastPosition) (sincNorm st.channels g0 st.lastPosition) := by
    unfold sincNorm
    have j1 : g0.bCurrent = f0.bCurrent := by rw [hfg0.1]
    have j2 : g0.bLen = f0.bLen := by rw [hfg0.1]
    dsimp only
    rw [j1, j2]
    refine RelM.bind_same (fun p _ => RelM.bind_same (fun b _ => RelM.bind_same (fun c _ => ?_)))
    exact RelM.pure ⟨rfl, ⟨by dsimp only; rw [hfg0.1], hfg0.2⟩, rfl, rfl⟩
  refine RelM.bind_ok hn ?_
  rintro ⟨f1, idx⟩ ⟨g1, idx'⟩ ok1 ok2 ⟨hidx, hfg1, z1, z2⟩
  dsimp only at hidx hfg1 z1 z2 ⊢
  subst hidx
  have hst2 : st'.channels = st.channels ∧ st'.lastRatio = st.lastRatio := ⟨e1, e2⟩
  refine RelM.bind (R := LRel T W st.channels) (RelM.while' (J := fun s => T.Triv ∨ J half s)
    (fun s t hs hL => sincStep_rel hst2 hw0 hw hC hh _ hL (hs.elim Or.inl (hJal half s)))
    (fun s s' hs hok => hs.imp id (fun h => hJ half s s' h hok)) _ _ _
    (hJ0.imp id (fun h => h half f1 _ hhalf ok1)) ⟨rfl, by dsimp only; rw [z1]; exact hm, hfg1, Or.inr ⟨?_, ?_⟩⟩) (fun s t hs => ?_)
  · rw [z1]; exact dvd_zero _
  · rw [z2]; exact dvd_zero _
  obtain ⟨k1, k2, k3, k4⟩ := hs
  have i1 : t.idx = s.idx := by rw [k1]
  have i2 : t.ratio = s.ratio := by rw [k1]
  have i3 : t.error = s.error := by rw [k1]
  have i4 : t.stop = s.stop := by rw [k1]
  have i5 : t.f.inUsed = s.f.inUsed := by rw [k3.1]
  have i6 : t.f.outGen = s.f.outGen := by rw [k3.1]
  rw [i1, i2, i3, i4, i5, i6]
  refine RelM.ite (fun hs => RelM.pure ⟨rfl, ⟨_, k2, Or.inr (fun h => absurd h hs)⟩, rfl, s.f, t.f, rfl, ?_, k3⟩) (fun _ => ?_)
  · rw [hst]
  refine RelM.bind_same (fun u _ => RelM.bind_same (fun gn hgn => RelM.pure ⟨rfl, ⟨_, k2, k4.imp id (fun h _ => ?_)⟩, rfl, s.f, t.f, rfl, ?_, k3⟩))
  · unfold divM at hgn; split_ifs at hgn; cases hgn; exact (Int.tdiv_mul_cancel h.1).symm
  · rw [hst]

end Verif
