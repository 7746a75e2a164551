import Verif.Proof.Errors
import Verif.Proof.SincRel
import Verif.Spec.History

/-! What no API call changes: the parameters of a handle. -/

namespace Verif
open Spec

theorem forM'_inv {σ : Type} {body : ℕ → σ → M σ} (I : σ → Prop) (h : ∀ i s s', I s → body i s = .ok s' → I s') (n : ℕ) :
    ∀ s s', I s → forM' n body s = .ok s' → I s' := by
  induction n with
  | zero => intro s s' hI h0; rw [forM'_zero] at h0; cases h0; exact hI
  | succ n ih =>
    intro s s' hI hs
    rw [forM'_succ] at hs
    obtain ⟨s1, h1, h2⟩ := bind_ok hs
    exact h n s1 s' (ih s s1 hI h1) h2

theorem ok_inj {α : Type} {a b : α} (h : (pure a : M α) = .ok b) : a = b := by
  simpa [pure, Except.pure] using h

theorem loadLast_len {m : Mem} {d : SrcData} {ch base : ℤ} {lv lv' : List F32} (h : loadLast m d ch base lv = .ok lv') :
    lv'.length = lv.length := by
  unfold loadLast at h
  refine forM'_inv (fun l => l.length = lv.length) (fun i s s' hI hs => ?_) _ _ _ rfl h
  obtain ⟨v, _, hs⟩ := bind_ok hs
  unfold wrLast at hs
  split at hs
  · rw [← ok_inj hs, List.length_set]; exact hI
  · simp [throw, throwThe, MonadExceptOf.throw] at hs

theorem skBody_frame {k : Kernel} {wrap : InterpData → Priv} {m : Mem} {st : SrcState} {d : SrcData} {z : InterpData} {r : ProcRes}
    (h : skBody k wrap m st d z = .ok r) :
    ∃ z', r.st = { st with lastPosition := r.st.lastPosition, lastRatio := r.st.lastRatio, priv := wrap z' } ∧
      z'.lastValue.length = z.lastValue.length := by
  unfold skBody at h
  obtain ⟨lv, h1, h⟩ := bind_ok h
  have hl : lv.length = z.lastValue.length := by
    unfold initLast at h1
    split at h1
    · rw [ok_inj h1]
    · exact loadLast_len h1
  obtain ⟨_, _, h⟩ := bind_ok h
  obtain ⟨_, _, h⟩ := bind_ok h
  dsimp only at h
  split at h
  · rw [← ok_inj h]
    exact ⟨_, rfl, hl⟩
  obtain ⟨_, _, h⟩ := bind_ok h
  obtain ⟨_, _, h⟩ := bind_ok h
  obtain ⟨_, _, h⟩ := bind_ok h
  split at h
  · simp [throw, throwThe, MonadExceptOf.throw, bind, Except.bind] at h
  obtain ⟨lv', h2, h⟩ := bind_ok h
  rw [← ok_inj h]
  refine ⟨_, rfl, ?_⟩
  unfold saveLast at h2
  split at h2
  · rw [loadLast_len h2]; exact hl
  · rw [← ok_inj h2]; exact hl

/-- Geometry of a sinc filter: everything fixed at construction, and the part of the model's buffer function outside the
allocation. -/
structure FGeom (ch : ℤ) (f g : SincFilter) : Prop where
  halfLen : g.coeffHalfLen = f.coeffHalfLen
  inc : g.indexInc = f.indexInc
  co : g.coeffs = f.coeffs
  bLen : g.bLen = f.bLen
  out : ∀ i, ¬ (0 ≤ i ∧ i < f.bLen + ch) → g.buffer i = f.buffer i

theorem FGeom.refl (ch : ℤ) (f : SincFilter) : FGeom ch f f := ⟨rfl, rfl, rfl, rfl, fun _ _ => rfl⟩

theorem FGeom.trans {ch : ℤ} {f g h : SincFilter} (a : FGeom ch f g) (b : FGeom ch g h) : FGeom ch f h :=
  ⟨b.halfLen.trans a.halfLen, b.inc.trans a.inc, b.co.trans a.co, b.bLen.trans a.bLen,
    fun i hi => (b.out i (by rw [a.bLen]; exact hi)).trans (a.out i hi)⟩

theorem bufMove_geom {f g : SincFilter} {ch src len : ℤ} (h : bufMove f ch src len = .ok g) : FGeom ch f g := by
  unfold bufMove at h
  split at h
  · simp [throw, throwThe, MonadExceptOf.throw] at h
  split at h
  · rw [← ok_inj h]
    refine ⟨rfl, rfl, rfl, rfl, fun i hi => ?_⟩
    dsimp only; rw [if_neg]; omega
  · simp [throw, throwThe, MonadExceptOf.throw] at h

theorem bufLoad_geom {m : Mem} {d : SrcData} {f g : SincFilter} {ch dst src len : ℤ} (h : bufLoad m d f ch dst src len = .ok g) :
    FGeom ch f g := by
  unfold bufLoad at h
  split at h
  · simp [throw, throwThe, MonadExceptOf.throw] at h
  split at h
  · simp [throw, throwThe, MonadExceptOf.throw] at h
  split at h
  · simp [throw, throwThe, MonadExceptOf.throw] at h
  · rw [← ok_inj h]
    refine ⟨rfl, rfl, rfl, rfl, fun i hi => ?_⟩
    dsimp only; rw [if_neg]; omega

theorem bufZero_geom {f g : SincFilter} {ch dst len : ℤ} (h : bufZero f ch dst len = .ok g) : FGeom ch f g := by
  unfold bufZero at h
  split at h
  · simp [throw, throwThe, MonadExceptOf.throw] at h
  split at h
  · rw [← ok_inj h]
    refine ⟨rfl, rfl, rfl, rfl, fun i hi => ?_⟩
    dsimp only; rw [if_neg]; omega
  · simp [throw, throwThe, MonadExceptOf.throw] at h

theorem prepRoom_geom {f g : SincFilter} {ch half n : ℤ} (h : prepRoom f ch half = .ok (g, n)) : FGeom ch f g := by
  unfold prepRoom at h
  split at h
  · obtain ⟨_, _, h⟩ := bind_ok h
    have := ok_inj h; simp only [Prod.mk.injEq] at this; rw [← this.1]
    exact ⟨rfl, rfl, rfl, rfl, fun _ _ => rfl⟩
  obtain ⟨_, _, h⟩ := bind_ok h
  split at h
  · obtain ⟨_, _, h⟩ := bind_ok h
    have := ok_inj h; simp only [Prod.mk.injEq] at this; rw [← this.1]
    exact FGeom.refl _ _
  · obtain ⟨_, _, h⟩ := bind_ok h
    obtain ⟨_, _, h⟩ := bind_ok h
    obtain ⟨f1, h1, h⟩ := bind_ok h
    obtain ⟨_, _, h⟩ := bind_ok h
    have := ok_inj h; simp only [Prod.mk.injEq] at this; rw [← this.1]
    have := bufMove_geom h1
    exact ⟨this.halfLen, this.inc, this.co, this.bLen, this.out⟩

theorem tailMove_geom {f g : SincFilter} {ch half : ℤ} (h : tailMove f ch half = .ok g) : FGeom ch f g := by
  unfold tailMove at h
  split at h
  · obtain ⟨_, _, h⟩ := bind_ok h
    obtain ⟨_, _, h⟩ := bind_ok h
    obtain ⟨f1, h1, h⟩ := bind_ok h
    have := ok_inj h; rw [← this]
    have := bufMove_geom h1
    exact ⟨this.halfLen, this.inc, this.co, this.bLen, this.out⟩
  · rw [← ok_inj h]; exact FGeom.refl _ _

theorem prepTail_geom {f g : SincFilter} {ch half : ℤ} {d : SrcData} (h : prepTail f ch half d = .ok g) : FGeom ch f g := by
  unfold prepTail at h
  split at h
  · obtain ⟨f1, h1, h⟩ := bind_ok h
    dsimp only at h
    obtain ⟨_, _, h⟩ := bind_ok h
    obtain ⟨_, _, h⟩ := bind_ok h
    obtain ⟨f2, h2, h⟩ := bind_ok h
    have := ok_inj h; rw [← this]
    have a := tailMove_geom h1
    have b := bufZero_geom h2
    have c : FGeom ch f1 f2 := ⟨b.halfLen, b.inc, b.co, b.bLen, b.out⟩
    have e := a.trans c
    exact ⟨e.halfLen, e.inc, e.co, e.bLen, e.out⟩
  · rw [← ok_inj h]; exact FGeom.refl _ _

theorem prepareData_geom {m : Mem} {f : SincFilter} {ch : ℤ} {d : SrcData} {half : ℤ} {r : ℤ × SincFilter}
    (h : prepareData m f ch d half = .ok r) : FGeom ch f r.2 := by
  unfold prepareData at h
  split at h
  · rw [← ok_inj h]; exact FGeom.refl _ _
  split at h
  · rw [← ok_inj h]; exact FGeom.refl _ _
  obtain ⟨⟨f1, n⟩, h1, h⟩ := bind_ok h
  have a := prepRoom_geom h1
  obtain ⟨_, _, h⟩ := bind_ok h
  obtain ⟨_, _, h⟩ := bind_ok h
  split at h
  · rw [← ok_inj h]; exact a
  obtain ⟨f2, h2, h⟩ := bind_ok h
  obtain ⟨f3, h3, h⟩ := bind_ok h
  rw [← ok_inj h]
  have b := bufLoad_geom h2
  have c := prepTail_geom h3
  exact a.trans (b.trans ⟨c.halfLen, c.inc, c.co, c.bLen, c.out⟩)

theorem sincReload_geom {st : SrcState} {d : SrcData} {half : ℤ} {s s' : SincLoop} {b : Bool}
    (h : sincReload st d half s = .ok (b, s')) : FGeom st.channels s.f s'.f := by
  unfold sincReload at h
  obtain ⟨_, _, h⟩ := bind_ok h
  split at h
  · obtain ⟨⟨e, f⟩, he, h⟩ := bind_ok h
    have := prepareData_geom he
    dsimp only at h
    split at h
    · have h := ok_inj h; simp only [Prod.mk.injEq] at h; rw [← h.2]; exact this
    · obtain ⟨_, _, h⟩ := bind_ok h
      have h := ok_inj h; simp only [Prod.mk.injEq] at h; rw [← h.2]; exact this
  · have h := ok_inj h; simp only [Prod.mk.injEq] at h; rw [← h.2]; exact FGeom.refl _ _

theorem sincNorm_geom {f g : SincFilter} {ch : ℤ} {i j : F64} (h : sincNorm ch f i = .ok (g, j)) : FGeom ch f g := by
  unfold sincNorm at h
  obtain ⟨_, _, h⟩ := bind_ok h
  obtain ⟨_, _, h⟩ := bind_ok h
  obtain ⟨_, _, h⟩ := bind_ok h
  have h := ok_inj h; simp only [Prod.mk.injEq] at h; rw [← h.1]
  exact ⟨rfl, rfl, rfl, rfl, fun _ _ => rfl⟩

theorem sincStep_geom {v : SincVariant} {st : SrcState} {d : SrcData} {half : ℤ} {t : F64} {s s' : SincLoop} {b : Bool}
    (h : sincStep v st d half t s = .ok (b, s')) : FGeom st.channels s.f s'.f := by
  unfold sincStep at h
  split at h
  · have h := ok_inj h; simp only [Prod.mk.injEq] at h; rw [← h.2]; exact FGeom.refl _ _
  obtain ⟨⟨brk, s1⟩, h1, h⟩ := bind_ok h
  have := sincReload_geom h1
  dsimp only at h
  split at h
  · have h := ok_inj h; simp only [Prod.mk.injEq] at h; rw [← h.2]; exact this
  split at h
  · have h := ok_inj h; simp only [Prod.mk.injEq] at h; rw [← h.2]; exact this
  obtain ⟨_, _, h⟩ := bind_ok h
  obtain ⟨_, _, h⟩ := bind_ok h
  obtain ⟨⟨f1, i1⟩, h2, h⟩ := bind_ok h
  have h := ok_inj h; simp only [Prod.mk.injEq] at h; rw [← h.2]
  have a := sincNorm_geom h2
  exact this.trans ⟨a.halfLen, a.inc, a.co, a.bLen, a.out⟩

theorem sinc_frame {v : SincVariant} {m : Mem} {st : SrcState} {d : SrcData} {r : ProcRes} {f : SincFilter} (hp : st.priv = .sinc f)
    (h : sincVariProcess v m st d = .ok r) :
    ∃ g, r.st = { st with lastPosition := r.st.lastPosition, lastRatio := r.st.lastRatio, error := r.st.error, priv := .sinc g } ∧
      FGeom st.channels f g := by
  unfold sincVariProcess at h
  rw [hp] at h
  dsimp only at h
  obtain ⟨_, _, h⟩ := bind_ok h
  obtain ⟨_, _, h⟩ := bind_ok h
  split at h
  · rw [← ok_inj h]; exact ⟨_, rfl, ⟨rfl, rfl, rfl, rfl, fun _ _ => rfl⟩⟩
  obtain ⟨_, _, h⟩ := bind_ok h
  obtain ⟨⟨f1, i1⟩, h1, h⟩ := bind_ok h
  obtain ⟨s, hs, h⟩ := bind_ok h
  have a := sincNorm_geom h1
  have b := whileM_inv (fun s : SincLoop => FGeom st.channels f1 s.f) (fun s b s' hI h => hI.trans (sincStep_geom h)) _ _ _
    (FGeom.refl _ _) hs
  have e := a.trans b
  split at h
  · rw [← ok_inj h]; exact ⟨_, rfl, ⟨e.halfLen, e.inc, e.co, e.bLen, e.out⟩⟩
  · obtain ⟨_, _, h⟩ := bind_ok h
    obtain ⟨_, _, h⟩ := bind_ok h
    rw [← ok_inj h]; exact ⟨_, rfl, ⟨e.halfLen, e.inc, e.co, e.bLen, e.out⟩⟩

/-- `p` is private data of the same converter as `p0` with the same parameters. -/
def PrivLike (ch : ℤ) : Priv → Priv → Prop
  | .zoh _, .zoh z => z.lastValue.length = ch.toNat
  | .linear _, .linear z => z.lastValue.length = ch.toNat
  | .sinc f, .sinc g => FGeom ch f g ∧ 0 ≤ f.bLen
  | _, _ => False

/-- Private data of the kind belonging to a virtual table. -/
def PrivKind : Vt → Priv → Prop
  | .zoh, .zoh _ => True
  | .linear, .linear _ => True
  | .sincMono, .sinc _ | .sincStereo, .sinc _ | .sincQuad, .sinc _ | .sincHex, .sinc _ | .sincMulti, .sinc _ => True
  | _, _ => False

/-- `st` has the parameters of the handle `st0`. -/
structure Like (st0 st : SrcState) : Prop where
  vt : st.vt = st0.vt
  channels : st.channels = st0.channels
  mode : st.mode = st0.mode
  cb : st.callbackFunc = st0.callbackFunc
  ud : st.userData = st0.userData
  priv : PrivLike st0.channels st0.priv st.priv
  kind : PrivKind st0.vt st0.priv
  pos : 0 < st0.channels

theorem like_interp {st0 st : SrcState} (L : Like st0 st) {st' : SrcState} (h : st' = { st with lastPosition := st'.lastPosition, lastRatio := st'.lastRatio, error := st'.error, priv := st'.priv })
    (hp : PrivLike st0.channels st0.priv st'.priv) : Like st0 st' := by
  refine ⟨?_, ?_, ?_, ?_, ?_, hp, L.kind, L.pos⟩ <;> rw [h]
  exacts [L.vt, L.channels, L.mode, L.cb, L.ud]

theorem vari_like {st0 st : SrcState} (L : Like st0 st) {m : Mem} {d : SrcData} {r : ProcRes} (h : variProcess m st d = .ok r) :
    Like st0 r.st := by
  have hk := L.kind
  have hp := L.priv
  unfold variProcess at h
  rw [L.vt] at h
  cases hv : st0.vt <;> rw [hv] at h hk <;> cases hp0 : st0.priv <;> rw [hp0] at hk hp <;> simp only [PrivKind] at hk <;>
    cases hp1 : st.priv <;> rw [hp1] at hp <;> simp only [PrivLike] at hp
  case zoh.zoh.zoh z0 z =>
    dsimp only at h
    by_cases hn : d.inputFrames ≤ 0
    · unfold zohVariProcess at h
      rw [if_pos hn] at h
      rw [← ok_inj h]; exact L
    · rw [zoh_eq_body hp1 (by omega)] at h
      obtain ⟨z', e, hl⟩ := skBody_frame h
      refine like_interp L ?_ ?_
      · rw [e]
      · rw [e, hp0]; exact hl.trans hp
  case linear.linear.linear z0 z =>
    dsimp only at h
    by_cases hn : d.inputFrames ≤ 0
    · unfold linearVariProcess at h
      rw [if_pos hn] at h
      rw [← ok_inj h]; exact L
    · rw [linear_eq_body hp1 (by omega)] at h
      obtain ⟨z', e, hl⟩ := skBody_frame h
      refine like_interp L ?_ ?_
      · rw [e]
      · rw [e, hp0]; exact hl.trans hp
  all_goals
    obtain ⟨g, e, hg⟩ := sinc_frame hp1 h
    rw [L.channels] at hg
    refine like_interp L ?_ ?_
    · rw [e]
    · rw [e, hp0]; exact ⟨hp.1.trans hg, hp.2⟩

theorem like_ratio {st0 st : SrcState} (L : Like st0 st) (r : F64) : Like st0 { st with lastRatio := r } :=
  ⟨L.vt, L.channels, L.mode, L.cb, L.ud, L.priv, L.kind, L.pos⟩

theorem processData_like {st0 st : SrcState} (L : Like st0 st) {m : Mem} {d : SrcData} {r : ProcRes}
    (h : srcProcessData m st d = .ok r) : Like st0 r.st := by
  unfold srcProcessData at h
  split at h
  · rw [← ok_inj h]; exact L
  split at h
  · rw [← ok_inj h]; exact L
  dsimp only at h
  obtain ⟨b, _, h⟩ := bind_ok h
  split at h
  · rw [← ok_inj h]; exact L
  split at h
  · split at h <;> exact vari_like (like_ratio L _) h
  · split at h <;> exact vari_like L h

theorem process_like {st0 st : SrcState} (L : Like st0 st) {m m' : Mem} {d d' : Option SrcData} {e : ℤ} {st' : Option SrcState}
    (h : srcProcess m (some st) d = .ok (e, m', st', d')) : ∃ s', st' = some s' ∧ Like st0 s' := by
  unfold srcProcess at h
  dsimp only at h
  split at h
  · have := ok_inj h; simp only [Prod.mk.injEq] at this; exact ⟨st, this.2.2.1.symm, L⟩
  cases d with
  | none => have := ok_inj h; simp only [Prod.mk.injEq] at this; exact ⟨st, this.2.2.1.symm, L⟩
  | some x =>
    obtain ⟨r, hr, h⟩ := bind_ok h
    have := ok_inj h; simp only [Prod.mk.injEq] at this
    exact ⟨r.st, this.2.2.1.symm, processData_like L hr⟩

/-- Changing the mode of the parameters. -/
theorem like_mode {st0 st : SrcState} (L : Like st0 st) (mo : Mode) : Like { st0 with mode := mo } { st with mode := mo } :=
  ⟨L.vt, L.channels, rfl, L.cb, L.ud, L.priv, L.kind, L.pos⟩

theorem cbStep_like {st0 : SrcState} (h0 : st0.mode = .callback) {cb : Callback} {dummy frames : ℤ} {s s' : CbSt} {b : Bool}
    (L : Like st0 s.st) (h : cbStep cb dummy frames s = .ok (b, s')) : Like st0 s'.st := by
  unfold cbStep at h
  split at h
  · have h := ok_inj h; simp only [Prod.mk.injEq] at h; rw [← h.2]; exact L
  dsimp only at h
  obtain ⟨⟨e, mem, st, d⟩, hp, h⟩ := bind_ok h
  have hst : (cbFetch cb dummy s).st = s.st := by unfold cbFetch; split_ifs <;> rfl
  rw [hst] at hp
  obtain ⟨s1, rfl, L1⟩ := process_like (like_mode L .process) hp
  have L2 := like_mode L1 .callback
  have e0 : ({ { st0 with mode := Mode.process } with mode := Mode.callback } : SrcState) = st0 := by
    cases st0; simp_all
  rw [e0] at L2
  dsimp only [Option.getD_some] at h
  split at h
  · have h := ok_inj h; simp only [Prod.mk.injEq] at h; rw [← h.2]; exact L2
  obtain ⟨_, _, h⟩ := bind_ok h
  obtain ⟨_, _, h⟩ := bind_ok h
  have h := ok_inj h; simp only [Prod.mk.injEq] at h; rw [← h.2]; exact L2

theorem read_like {st0 st : SrcState} (L : Like st0 st) {cb : Callback} {dummy : ℤ} {fuel calls : ℕ} {m : Mem} {ratio : F64}
    {frames data : ℤ} {n : ℤ} {m' : Mem} {st' : Option SrcState} {k : ℕ}
    (h : srcCallbackRead cb dummy fuel calls m (some st) ratio frames data = .ok (n, m', st', k)) :
    ∃ s', st' = some s' ∧ Like st0 s' := by
  have key : ∀ e : ℤ, Like st0 { st with error := e } := fun e => ⟨L.vt, L.channels, L.mode, L.cb, L.ud, L.priv, L.kind, L.pos⟩
  unfold srcCallbackRead at h
  dsimp only at h
  split at h
  · have := ok_inj h; simp only [Prod.mk.injEq] at this; exact ⟨st, this.2.2.1.symm, L⟩
  split at h
  · have := ok_inj h; simp only [Prod.mk.injEq] at this; exact ⟨_, this.2.2.1.symm, key _⟩
  rename_i hmode
  split at h
  · have := ok_inj h; simp only [Prod.mk.injEq] at this; exact ⟨_, this.2.2.1.symm, key _⟩
  split at h
  · have := ok_inj h; simp only [Prod.mk.injEq] at this; exact ⟨_, this.2.2.1.symm, key _⟩
  obtain ⟨r, hr, h⟩ := bind_ok h
  have h0 : st0.mode = .callback := by rw [← L.mode]; simpa using hmode
  have Lr := whileM_inv (fun s : CbSt => Like st0 s.st) (fun s b s' hI h => cbStep_like h0 hI h) _ _ _ L hr
  have Lr2 : ∀ a b e, Like st0 { r.st with savedData := a, savedFrames := b, error := e } := fun a b e =>
    ⟨Lr.vt, Lr.channels, Lr.mode, Lr.cb, Lr.ud, Lr.priv, Lr.kind, Lr.pos⟩
  split at h
  · have := ok_inj h; simp only [Prod.mk.injEq] at this; exact ⟨_, this.2.2.1.symm, Lr2 _ _ _⟩
  · have := ok_inj h; simp only [Prod.mk.injEq] at this; exact ⟨_, this.2.2.1.symm, Lr2 _ _ r.st.error⟩

theorem resetPriv_like {st0 st : SrcState} (L : Like st0 st) : PrivLike st0.channels st0.priv (resetPriv st) := by
  have hk := L.kind
  have hp := L.priv
  unfold resetPriv
  rw [L.vt]
  cases hv : st0.vt <;> rw [hv] at hk <;> cases hp0 : st0.priv <;> rw [hp0] at hk hp <;> simp only [PrivKind] at hk <;>
    cases hp1 : st.priv <;> rw [hp1] at hp <;> simp only [PrivLike] at hp ⊢
  case zoh.zoh.zoh => simp [zohReset, L.channels]
  case linear.linear.linear => simp [linearReset, L.channels]
  all_goals
    obtain ⟨hp, hb⟩ := hp
    refine ⟨⟨hp.halfLen, hp.inc, hp.co, hp.bLen, fun i hi => ?_⟩, hb⟩
    have e1 := hp.bLen
    have e2 := L.channels
    have e3 := L.pos
    have := hp.out i hi
    simp only [sincReset]
    rw [if_neg (by omega), if_neg (by omega)]
    exact this

theorem reset_like {st0 st : SrcState} (L : Like st0 st) : Like st0 (srcResetState st) :=
  ⟨L.vt, L.channels, L.mode, L.cb, L.ud, resetPriv_like L, L.kind, L.pos⟩

theorem op_like {st0 st st' : SrcState} (L : Like st0 st) {op : Op} {o : Obs} (h : op.run st = .ok (o, st')) : Like st0 st' := by
  cases op with
  | process m d =>
    obtain ⟨⟨e, m', s1, d'⟩, h1, h⟩ := bind_ok h
    obtain ⟨s', rfl, L'⟩ := process_like L h1
    have h := ok_inj h; simp only [Prod.mk.injEq] at h; rw [← h.2]; exact L'
  | read cb dummy fuel calls m ratio frames data =>
    obtain ⟨⟨n, m', s1, k⟩, h1, h⟩ := bind_ok h
    obtain ⟨s', rfl, L'⟩ := read_like L h1
    have h := ok_inj h; simp only [Prod.mk.injEq] at h; rw [← h.2]; exact L'
  | setRatio r =>
    simp only [Op.run, srcSetRatio] at h
    split at h
    · have h := ok_inj h; simp only [Prod.mk.injEq] at h; rw [← h.2]; exact L
    · have h := ok_inj h; simp only [Prod.mk.injEq] at h; rw [← h.2]; exact like_ratio L _
  | reset =>
    have h := ok_inj h; simp only [Prod.mk.injEq] at h; rw [← h.2]
    exact reset_like L

/-- Histories keep the parameters. -/
theorem run_like {st0 : SrcState} : ∀ (ops : List Op) (st st' : SrcState) (os : List Obs), Like st0 st →
    run ops st = .ok (os, st') → Like st0 st' := by
  intro ops
  induction ops with
  | nil => intro st st' os L h; have h := ok_inj h; simp only [Prod.mk.injEq] at h; rw [← h.2]; exact L
  | cons op ops ih =>
    intro st st' os L h
    obtain ⟨⟨o, s1⟩, h1, h⟩ := bind_ok h
    obtain ⟨⟨os', s2⟩, h2, h⟩ := bind_ok h
    have h := ok_inj h; simp only [Prod.mk.injEq] at h; rw [← h.2]
    exact ih s1 s2 os' (op_like L h1) h2

theorem assert_pos {ch : ℤ} {u : Unit} (h : assertM (decide (ch > 0)) = .ok u) : 0 < ch := by
  simpa using assertM_true h

theorem new_like {cfg : Config} {type channels e : ℤ} {st : SrcState} (h : srcNew cfg type channels = .ok (e, some st)) : Like st st := by
  unfold srcNew at h
  split at h
  · unfold sincStateNew at h
    obtain ⟨_, hc, h⟩ := bind_ok h
    have hc := assert_pos hc
    split at h
    · have h := ok_inj h; simp at h
    obtain ⟨bLen, hb, h⟩ := bind_ok h
    have hb0 : 0 ≤ bLen := by
      unfold sincBLen at hb
      obtain ⟨a, _, hb⟩ := bind_ok hb
      obtain ⟨b, hb1, hb⟩ := bind_ok hb
      rw [chkI32_eq hb, chkI32_eq hb1]
      have : 0 ≤ max a 4096 * channels := mul_nonneg (by omega) hc.le
      omega
    have h := ok_inj h
    simp only [Prod.mk.injEq, Option.some.injEq] at h
    rw [← h.2]
    unfold sincVt
    split_ifs <;>
    exact ⟨rfl, rfl, rfl, rfl, rfl, ⟨FGeom.refl _ _, hb0⟩, trivial, hc⟩
  · split at h
    · obtain ⟨_, hc, h⟩ := bind_ok h
      have hc := assert_pos hc
      have h := ok_inj h
      simp only [Prod.mk.injEq, Option.some.injEq] at h
      rw [← h.2]
      exact ⟨rfl, rfl, rfl, rfl, rfl, by simp [PrivLike, resetPriv, stateInit, zohReset], trivial, hc⟩
    split at h
    · obtain ⟨_, hc, h⟩ := bind_ok h
      have hc := assert_pos hc
      have h := ok_inj h
      simp only [Prod.mk.injEq, Option.some.injEq] at h
      rw [← h.2]
      exact ⟨rfl, rfl, rfl, rfl, rfl, by simp [PrivLike, resetPriv, stateInit, linearReset], trivial, hc⟩
    · have h := ok_inj h; simp at h

/-- Parameters of a new handle. -/
theorem new_params {cfg : Config} {type channels e : ℤ} {st : SrcState} (h : srcNew cfg type channels = .ok (e, some st)) :
    st.mode = .process ∧ st.channels = channels := by
  unfold srcNew at h
  split at h
  · unfold sincStateNew at h
    obtain ⟨_, hc, h⟩ := bind_ok h
    split at h
    · have h := ok_inj h; simp at h
    obtain ⟨bLen, hb, h⟩ := bind_ok h
    have h := ok_inj h
    simp only [Prod.mk.injEq, Option.some.injEq] at h
    rw [← h.2]; exact ⟨rfl, rfl⟩
  · split at h
    · obtain ⟨_, hc, h⟩ := bind_ok h
      have h := ok_inj h
      simp only [Prod.mk.injEq, Option.some.injEq] at h
      rw [← h.2]; exact ⟨rfl, rfl⟩
    split at h
    · obtain ⟨_, hc, h⟩ := bind_ok h
      have h := ok_inj h
      simp only [Prod.mk.injEq, Option.some.injEq] at h
      rw [← h.2]; exact ⟨rfl, rfl⟩
    · have h := ok_inj h; simp at h

theorem like_self_priv {st st' : SrcState} (L : Like st st') : Like st' st' := by
  have hk := L.kind
  have hp := L.priv
  refine ⟨rfl, rfl, rfl, rfl, rfl, ?_, ?_, by rw [L.channels]; exact L.pos⟩
  · rw [L.channels]
    cases hp0 : st.priv <;> cases hp1 : st'.priv <;> rw [hp0, hp1] at hp <;> simp only [PrivLike] at hp ⊢
    · exact hp
    · exact hp
    · exact ⟨FGeom.refl _ _, by rw [hp.1.bLen]; exact hp.2⟩
  · rw [L.vt]
    cases hv : st.vt <;> rw [hv] at hk <;> cases hp0 : st.priv <;> rw [hp0] at hk hp <;> simp only [PrivKind] at hk <;>
      cases hp1 : st'.priv <;> rw [hp1] at hp <;> simp only [PrivLike] at hp <;> trivial

theorem created_like {cfg : Config} {st : SrcState} (h : Created cfg st) : Like st st := by
  cases h with
  | new type channels e _ h => exact new_like h
  | callbackNew func type channels ud e _ h =>
    unfold srcCallbackNew at h
    split at h
    · have h := ok_inj h; simp at h
    obtain ⟨⟨e', s⟩, h1, h⟩ := bind_ok h
    dsimp only at h
    cases s with
    | none => have h := ok_inj h; simp at h
    | some s =>
      have L := like_self_priv (reset_like (new_like h1))
      have h := ok_inj h
      simp only [Prod.mk.injEq, Option.some.injEq] at h
      rw [← h.2]
      exact ⟨rfl, rfl, rfl, rfl, rfl, L.priv, L.kind, L.pos⟩

/-- Every reachable handle has the parameters of the handle it started as. -/
theorem reach_like {cfg : Config} {st st' : SrcState} (h : Created cfg st) (r : Reach st st') : Like st st' := by
  obtain ⟨ops, os, h1⟩ := r
  exact run_like ops st st' os (created_like h) h1

end Verif
