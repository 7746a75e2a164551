import Verif.Proof.Skeleton
import Verif.Proof.SincTaps
import Verif.Model.Api

/-! Two runs of the same call on different sample values: a relational logic for the model, and the relational theorems for the
process functions.  No assumption on the state is made here except where channels must be kept apart in the buffer of a sinc
converter. -/

namespace Verif

/-- Both runs fail with the same fault, or both succeed with related results. -/
def RelM {α β : Type} (R : α → β → Prop) : M α → M β → Prop
  | .ok a, .ok b => R a b
  | .error e, .error e' => e = e'
  | _, _ => False

namespace RelM
variable {α β γ δ : Type} {R : α → β → Prop} {Q : γ → δ → Prop}

theorem pure {a : α} {b : β} (h : R a b) : RelM R (Pure.pure a : M α) (Pure.pure b : M β) := h
theorem throw (e : Fault) : RelM R (MonadExcept.throw e : M α) (MonadExcept.throw e : M β) := rfl

theorem bind {x : M α} {y : M β} {f : α → M γ} {g : β → M δ} (h : RelM R x y) (hf : ∀ a b, R a b → RelM Q (f a) (g b)) :
    RelM Q (x >>= f) (y >>= g) := by
  cases x <;> cases y
  · exact h
  · exact h.elim
  · exact h.elim
  · exact hf _ _ h

theorem bind_ok {x : M α} {y : M β} {f : α → M γ} {g : β → M δ} (h : RelM R x y)
    (hf : ∀ a b, x = .ok a → y = .ok b → R a b → RelM Q (f a) (g b)) : RelM Q (x >>= f) (y >>= g) := by
  cases x <;> cases y
  · exact h
  · exact h.elim
  · exact h.elim
  · exact hf _ _ rfl rfl h

/-- The same computation in both runs. -/
theorem bind_same {x : M α} {f : α → M γ} {g : α → M δ} (hf : ∀ a, x = .ok a → RelM Q (f a) (g a)) :
    RelM Q (x >>= f) (x >>= g) := by
  cases x
  · rfl
  · exact hf _ rfl

theorem mono {R' : α → β → Prop} {x : M α} {y : M β} (h : RelM R x y) (hR : ∀ a b, R a b → R' a b) : RelM R' x y := by
  cases x <;> cases y
  · exact h
  · exact h
  · exact h
  · exact hR _ _ h

theorem ite {p : Prop} [Decidable p] {x x' : M α} {y y' : M β} (h1 : p → RelM R x y) (h2 : ¬ p → RelM R x' y') :
    RelM R (if p then x else x') (if p then y else y') := by
  split_ifs with h
  · exact h1 h
  · exact h2 h

theorem refl {x : M α} {R : α → α → Prop} (h : ∀ a, R a a) : RelM R x x := by
  cases x
  · rfl
  · exact h _

theorem while' {σ τ : Type} {R : σ → τ → Prop} {J : σ → Prop} {st : σ → M (Bool × σ)} {st' : τ → M (Bool × τ)}
    (h : ∀ s t, J s → R s t → RelM (fun p q => p.1 = q.1 ∧ R p.2 q.2) (st s) (st' t))
    (hJ : ∀ s s', J s → st s = .ok (true, s') → J s') :
    ∀ (n : ℕ) (s : σ) (t : τ), J s → R s t → RelM R (whileM st n s) (whileM st' n t) := by
  intro n
  induction n with
  | zero => intro s t _ _; rfl
  | succ n ih =>
    intro s t hs hR
    unfold whileM
    refine bind_ok (h s t hs hR) ?_
    rintro ⟨b, s1⟩ ⟨b', t1⟩ e1 e2 ⟨rfl, h2⟩
    cases b
    · exact h2
    · exact ih s1 t1 (hJ _ _ hs e1) h2

theorem for' {σ τ : Type} {R : ℕ → σ → τ → Prop} {b : ℕ → σ → M σ} {b' : ℕ → τ → M τ} (n : ℕ)
    (h : ∀ i < n, ∀ s t, R i s t → RelM (R (i + 1)) (b i s) (b' i t)) {s : σ} {t : τ} (h0 : R 0 s t) :
    RelM (R n) (forM' n b s) (forM' n b' t) := by
  induction n with
  | zero => exact h0
  | succ n ih =>
    rw [forM'_succ, forM'_succ]
    exact bind (ih (fun i hi => h i (by omega))) (fun s t hst => h n (by omega) s t hst)

end RelM

/-- A family of relations on sample values, one per channel, that the arithmetic of the converters respects; `A` relates the
double precision accumulators of the sinc filters. -/
structure SRel where
  S : ℤ → F32 → F32 → Prop
  A : ℤ → F64 → F64 → Prop
  zero : ∀ c, S c zero32 zero32
  lin : ∀ c a a' b b' i, S c a a' → S c b b' → S c (Spec.between a b i) (Spec.between a' b' i)
  azero : ∀ c, A c zero64 zero64
  acc : ∀ c s s' x x' ic, A c s s' → S c x x' → A c (Fl.add s (Fl.mul ic (Fl.conv f64 x))) (Fl.add s' (Fl.mul ic (Fl.conv f64 x')))
  fin : ∀ c l l' r r' k, A c l l' → A c r r' → S c (Fl.conv f32 (Fl.mul k (Fl.add l r))) (Fl.conv f32 (Fl.mul k (Fl.add l' r')))

/-- All values are related. -/
def SRel.Triv (T : SRel) : Prop := (∀ c a b, T.S c a b) ∧ ∀ c a b, T.A c a b

variable (T : SRel)

/-- Memories related address by address. -/
def MRel (W : ℤ → F32 → F32 → Prop) (m m' : Mem) : Prop := ∀ a, W a (m a) (m' a)

/-- The relations `W g` on addresses, for the memory after `g` samples have been written, agree with the relations on channels in
the input and the output buffer of the call. -/
structure Compat (W : ℤ → ℤ → F32 → F32 → Prop) (d : SrcData) (ch : ℤ) : Prop where
  hin : ∀ g i, 0 ≤ i → i < d.inputFrames * ch → ∀ x y, W g (d.dataIn + i) x y → T.S (i % ch) x y
  hout : ∀ i, 0 ≤ i → i < d.outputFrames * ch → ∀ x y, T.S (i % ch) x y → W (i + 1) (d.dataOut + i) x y
  hstep : ∀ i, 0 ≤ i → i < d.outputFrames * ch → ∀ a x y, a ≠ d.dataOut + i → W i a x y → W (i + 1) a x y

variable {T} {W : ℤ → ℤ → F32 → F32 → Prop} {d : SrcData} {ch : ℤ}

theorem rdIn_rel (hC : Compat T W d ch) {m m' : Mem} {g : ℤ} (hm : MRel (W g) m m') (i : ℤ) :
    RelM (T.S (i % ch)) (rdIn m d ch i) (rdIn m' d ch i) := by
  unfold rdIn
  refine RelM.ite (fun _ => RelM.throw _) (fun _ => RelM.ite (fun h => ?_) (fun _ => RelM.throw _))
  exact RelM.pure (hC.hin g i h.1 h.2 _ _ (hm _))

theorem wrOut_rel (hC : Compat T W d ch) {m m' : Mem} (i : ℤ) (hm : MRel (W i) m m') {v v' : F32} (hv : T.S (i % ch) v v') :
    RelM (MRel (W (i + 1))) (wrOut m d ch i v) (wrOut m' d ch i v') := by
  unfold wrOut
  refine RelM.ite (fun _ => RelM.throw _) (fun _ => RelM.ite (fun h => ?_) (fun _ => RelM.throw _))
  refine RelM.pure (fun a => ?_)
  unfold Mem.set
  by_cases e : a = d.dataOut + i
  · subst e
    rw [if_pos rfl, if_pos rfl]
    exact hC.hout i h.1 h.2 _ _ hv
  · rw [if_neg e, if_neg e]; exact hC.hstep i h.1 h.2 a _ _ e (hm a)

/-! ### the interpolating converters -/

variable (T) in
/-- Related `last_value` arrays. -/
def LvRel (lv lv' : List F32) : Prop :=
  lv'.length = lv.length ∧ ∀ c : ℕ, ∀ v v', lv[c]? = some v → lv'[c]? = some v' → T.S c v v'

theorem rdLast_rel {lv lv' : List F32} (h : LvRel T lv lv') (c : ℕ) : RelM (T.S c) (rdLast lv c) (rdLast lv' c) := by
  unfold rdLast
  by_cases hc : c < lv.length
  · have h1 : lv[c]? = some lv[c] := List.getElem?_eq_getElem hc
    have hc' : c < lv'.length := by rw [h.1]; exact hc
    have h2 : lv'[c]? = some lv'[c] := List.getElem?_eq_getElem hc'
    rw [h1, h2]
    exact RelM.pure (h.2 c _ _ h1 h2)
  · have h1 : lv[c]? = none := List.getElem?_eq_none (by omega)
    have h2 : lv'[c]? = none := List.getElem?_eq_none (by rw [h.1]; omega)
    rw [h1, h2]
    exact RelM.throw _

theorem chan_class {ch : ℤ} {c : ℕ} (h : c < ch.toNat) {k : ℤ} (hk : ch ∣ k) : (k + c) % ch = c := by
  obtain ⟨q, rfl⟩ := hk
  rw [add_comm, Int.add_mul_emod_self_left]
  exact Int.emod_eq_of_lt (by omega) (by omega)

theorem loadLast_rel (hC : Compat T W d ch) {m m' : Mem} {g : ℤ} (hm : MRel (W g) m m') {base : ℤ} (hb : ch ∣ base) {lv lv' : List F32}
    (h : LvRel T lv lv') : RelM (LvRel T) (loadLast m d ch base lv) (loadLast m' d ch base lv') := by
  unfold loadLast
  refine RelM.for' (R := fun _ => LvRel T) ch.toNat (fun c hc lv lv' h => ?_) h
  refine RelM.bind (rdIn_rel hC hm _) (fun v v' hv => ?_)
  rw [chan_class hc hb] at hv
  unfold wrLast
  rw [h.1]
  refine RelM.ite (fun _ => RelM.pure ⟨by simp [h.1], fun c' w w' h1 h2 => ?_⟩) (fun _ => RelM.throw _)
  by_cases e : c = c'
  · subst e
    rw [List.getElem?_set_self'] at h1 h2
    have := h.1
    rw [List.getElem?_eq_getElem (by omega)] at h1 h2
    simp at h1 h2
    rw [← h1, ← h2]; exact hv
  · rw [List.getElem?_set_ne e] at h1 h2
    exact h.2 c' w w' h1 h2

/-- Loop states of the two runs: same control, related memory, frame aligned counters. -/
def LsRel (W : ℤ → ℤ → F32 → F32 → Prop) (ch : ℤ) (s t : LoopSt) : Prop :=
  t = { s with mem := t.mem } ∧ MRel (W s.outGen) s.mem t.mem ∧ ch ∣ s.inUsed ∧ ch ∣ s.outGen

variable (T) in
/-- What the relational proof needs about a kernel. -/
structure KRel (k : Kernel) : Prop where
  brk : ∀ ch a (s : LoopSt) m, k.brk ch a { s with mem := m } = k.brk ch a s
  guard : ∀ ch a (s : LoopSt) m, k.guard ch a { s with mem := m } = k.guard ch a s
  first : ∀ {W d ch m m' lv lv' i g} {c : ℕ}, Compat T W d ch → MRel (W g) m m' → LvRel T lv lv' → c < ch.toNat →
    RelM (T.S c) (k.firstV d ch lv i m c) (k.firstV d ch lv' i m' c)
  main : ∀ {W d ch m m' u i g} {c : ℕ}, Compat T W d ch → MRel (W g) m m' → ch ∣ u → c < ch.toNat →
    RelM (T.S c) (k.mainV d ch u i m c) (k.mainV d ch u i m' c)

theorem zoh_krel : KRel T zohKernel where
  brk _ _ _ _ := rfl
  guard _ _ _ _ := rfl
  first _ _ hl _ := rdLast_rel hl _
  main := by
    intro W d ch m m' u i g c hC hm hu hc
    have h := rdIn_rel hC hm (u - ch + c)
    rw [chan_class hc (Dvd.dvd.sub hu (dvd_refl ch))] at h
    exact h

theorem linear_krel : KRel T linearKernel where
  brk _ _ _ _ := rfl
  guard _ _ _ _ := rfl
  first := by
    intro W d ch m m' lv lv' i g c hC hm hl hc
    refine RelM.bind (rdLast_rel hl c) (fun a a' ha => ?_)
    have h := rdIn_rel hC hm (0 + (c : ℤ))
    rw [chan_class hc (dvd_zero ch), zero_add] at h
    exact RelM.bind h (fun b b' hb => RelM.pure (T.lin _ _ _ _ _ _ ha hb))
  main := by
    intro W d ch m m' u i g c hC hm hu hc
    have h1 := rdIn_rel hC hm (u - ch + c)
    rw [chan_class hc (Dvd.dvd.sub hu (dvd_refl ch))] at h1
    have h2 := rdIn_rel hC hm (u + c)
    rw [chan_class hc hu] at h2
    exact RelM.bind h1 (fun a a' ha => RelM.bind h2 (fun b b' hb => RelM.pure (T.lin _ _ _ _ _ _ ha hb)))

/-- One output frame. -/
theorem emit_rel (hC : Compat T W d ch) {v v' : Mem → ℕ → M F32} {m m' : Mem} {g : ℤ} (hm : MRel (W g) m m') (hg : ch ∣ g)
    (hv : ∀ m m' h, MRel (W h) m m' → ∀ c < ch.toNat, RelM (T.S c) (v m c) (v' m' c)) :
    RelM (fun p q => MRel (W p.2) p.1 q.1 ∧ q.2 = p.2 ∧ p.2 = g + ch.toNat)
      (forM' ch.toNat (fun c (p : Mem × ℤ) => do
        let x ← v p.1 c
        let mem ← wrOut p.1 d ch p.2 x
        pure (mem, p.2 + 1)) (m, g))
      (forM' ch.toNat (fun c (p : Mem × ℤ) => do
        let x ← v' p.1 c
        let mem ← wrOut p.1 d ch p.2 x
        pure (mem, p.2 + 1)) (m', g)) := by
  refine RelM.for' (R := fun (i : ℕ) (p q : Mem × ℤ) => MRel (W p.2) p.1 q.1 ∧ q.2 = p.2 ∧ p.2 = g + (i : ℤ)) ch.toNat ?_
    ⟨hm, rfl, by simp⟩
  rintro c hc ⟨p, i⟩ ⟨q, j⟩ ⟨h1, h2, h3⟩
  dsimp only at h1 h2 h3 ⊢
  subst h2
  refine RelM.bind (hv p q _ h1 c hc) (fun x x' hx => ?_)
  refine RelM.bind (R := MRel (W (j + 1))) (wrOut_rel hC _ h1 (by rw [h3, chan_class hc hg]; exact hx)) (fun a b hab => ?_)
  exact RelM.pure ⟨hab, rfl, by rw [h3]; push_cast; ring⟩

theorem dvd_gen {ch g : ℤ} (hg : ch ∣ g) (h : 0 ≤ ch) : ch ∣ g + ch.toNat := by
  rw [Int.toNat_of_nonneg h]; exact Dvd.dvd.add hg (dvd_refl ch)

theorem normIdx_rel {s t : LoopSt} (h : LsRel W ch s t) : RelM (LsRel W ch) (normIdx ch s) (normIdx ch t) := by
  obtain ⟨h1, h2, h3, h4⟩ := h
  rw [h1]
  unfold normIdx
  dsimp only
  refine RelM.bind_same (fun k hk => RelM.pure ⟨rfl, h2, ?_, h4⟩)
  have : k = ch * lrint (Fl.sub s.idx (fmodOne s.idx)) := by
    unfold chkI32 at hk
    split_ifs at hk
    · cases hk; rfl
  exact Dvd.dvd.add h3 ⟨_, this⟩

section
variable {k : Kernel} {st st' : SrcState} (hst : st'.channels = st.channels ∧ st'.lastRatio = st.lastRatio ∧
  st'.lastPosition = st.lastPosition)
include hst

theorem skFirst_rel (hK : KRel T k) (hC : Compat T W d st.channels) (h0 : 0 ≤ st.channels) {lv lv' : List F32} (hlv : LvRel T lv lv')
    (a b : ℤ) {s t : LoopSt} (h : LsRel W st.channels s t) :
    RelM (fun p q => p.1 = q.1 ∧ LsRel W st.channels p.2 q.2) (skFirst k st d lv a b s) (skFirst k st' d lv' a b t) := by
  obtain ⟨h1, h2, h3, h4⟩ := h
  have hb := hK.brk st.channels a s t.mem
  rw [h1]
  unfold skFirst
  rw [hst.1, hst.2.1]
  dsimp only
  rw [hb]
  refine RelM.ite (fun _ => RelM.pure ⟨rfl, rfl, h2, h3, h4⟩) (fun _ => ?_)
  refine RelM.ite (fun _ => RelM.pure ⟨rfl, rfl, h2, h3, h4⟩) (fun _ => ?_)
  refine RelM.bind (emit_rel hC h2 h4 (fun m m' h hm c hc => hK.first hC hm hlv hc)) ?_
  rintro ⟨p, i⟩ ⟨q, j⟩ ⟨e1, e2, e3⟩
  dsimp only at e1 e2 e3 ⊢
  subst e2
  exact RelM.pure ⟨rfl, rfl, e1, h3, by dsimp only; rw [e3]; exact dvd_gen h4 h0⟩

theorem skMain_rel (hK : KRel T k) (hC : Compat T W d st.channels) (h0 : 0 ≤ st.channels)
    (a b : ℤ) {s t : LoopSt} (h : LsRel W st.channels s t) :
    RelM (fun p q => p.1 = q.1 ∧ LsRel W st.channels p.2 q.2) (skMain k st d a b s) (skMain k st' d a b t) := by
  obtain ⟨h1, h2, h3, h4⟩ := h
  have hb := hK.guard st.channels a s t.mem
  rw [h1]
  unfold skMain
  rw [hst.1, hst.2.1]
  dsimp only
  rw [hb]
  refine RelM.ite (fun _ => RelM.pure ⟨rfl, rfl, h2, h3, h4⟩) (fun _ => ?_)
  refine RelM.bind (emit_rel hC h2 h4 (fun m m' h hm c hc => hK.main hC hm h3 hc)) ?_
  rintro ⟨p, i⟩ ⟨q, j⟩ ⟨e1, e2, e3⟩
  dsimp only at e1 e2 e3 ⊢
  subst e2
  refine RelM.bind (R := LsRel W st.channels) (normIdx_rel ⟨rfl, e1, h3, by dsimp only; rw [e3]; exact dvd_gen h4 h0⟩) (fun x y hxy => ?_)
  exact RelM.pure ⟨rfl, hxy⟩

end

variable (T) in
/-- Related private data of an interpolating converter. -/
def ZRel (z z' : InterpData) : Prop := z' = { z with lastValue := z'.lastValue } ∧ LvRel T z.lastValue z'.lastValue

theorem chkI64_dvd {a b n : ℤ} (h : chkI64 (a * b) = .ok n) : b ∣ n := by
  unfold chkI64 at h
  split_ifs at h
  cases h
  exact ⟨a, by ring⟩

theorem skBody_rel {k : Kernel} (hK : KRel T k) {wrap : InterpData → Priv} {m m' : Mem} {st st' : SrcState} {z z' : InterpData}
    (hst : st' = { st with priv := st'.priv }) (h0 : 0 ≤ st.channels) (hC : Compat T W d st.channels) (hm : MRel (W 0) m m')
    (hz : ZRel T z z') :
    RelM (fun r r' => r.err = r'.err ∧ (∃ g, MRel (W g) r.mem r'.mem ∧ (r.err = 0 → g = r.data.outputFramesGen * st.channels)) ∧ r'.data = r.data ∧
        ∃ z z', r.st.priv = wrap z ∧ r'.st = { r.st with priv := wrap z' } ∧ ZRel T z z')
      (skBody k wrap m st d z) (skBody k wrap m' st' d z') := by
  have hst3 : st'.channels = st.channels ∧ st'.lastRatio = st.lastRatio ∧ st'.lastPosition = st.lastPosition := by
    rw [hst]; exact ⟨rfl, rfl, rfl⟩
  unfold skBody
  rw [hst3.1, hst3.2.1, hst3.2.2]
  refine RelM.bind (R := LvRel T) ?_ (fun lv lv' hlv => ?_)
  · unfold initLast
    rw [hz.1]
    exact RelM.ite (fun _ => RelM.pure hz.2) (fun _ => loadLast_rel hC hm (dvd_zero _) hz.2)
  refine RelM.bind_same (fun ic hic => RelM.bind_same (fun oc hoc => ?_))
  dsimp only
  refine RelM.ite (fun _ => RelM.pure ⟨rfl, ⟨0, hm, fun h => absurd h (show ¬ Err.BAD_INTERNAL_STATE = 0 by decide)⟩, rfl, _, ⟨true, ic, 0, oc, 0, lv'⟩, rfl, ?_, rfl, hlv⟩) (fun _ => ?_)
  · rw [hst]
  refine RelM.bind (RelM.while' (J := fun _ => True) (fun s t _ hs => skFirst_rel hst3 hK hC h0 hlv ic oc hs)
    (fun _ _ _ _ => trivial) _ _ _ trivial ⟨rfl, hm, dvd_zero _, dvd_zero _⟩) (fun s t hs => ?_)
  refine RelM.bind (normIdx_rel hs) (fun s t hs => ?_)
  refine RelM.bind (RelM.while' (J := fun _ => True) (fun s t _ hs => skMain_rel hst3 hK hC h0 ic oc hs)
    (fun _ _ _ _ => trivial) _ _ _ trivial hs) (fun s t hs => ?_)
  obtain ⟨h1, h2, h3, h4⟩ := hs
  refine RelM.ite (fun _ => rfl) (fun _ => ?_)
  have ec : carryIdx st.channels ic t = carryIdx st.channels ic s := by rw [h1]; rfl
  have ed : st.channels ∣ (carryIdx st.channels ic s).1 := by
    unfold carryIdx; split_ifs
    · exact chkI64_dvd hic
    · exact h3
  have er : t.ratio = s.ratio := by rw [h1]
  have eg : t.outGen = s.outGen := by rw [h1]
  rw [ec, er, eg]
  generalize carryIdx st.channels ic s = ui at ed ⊢
  obtain ⟨u, i⟩ := ui
  dsimp only at ed ⊢
  refine RelM.bind (R := LvRel T) ?_ (fun lv lv' hlv => RelM.pure ⟨rfl, ⟨_, h2, fun _ => (Int.tdiv_mul_cancel h4).symm⟩, rfl, _, ⟨true, ic, u, oc, s.outGen, lv'⟩, rfl, ?_, rfl, hlv⟩)
  · unfold saveLast
    exact RelM.ite (fun _ => loadLast_rel hC h2 (Dvd.dvd.sub ed (dvd_refl _)) hlv) (fun _ => RelM.pure hlv)
  · rw [hst]

end Verif
