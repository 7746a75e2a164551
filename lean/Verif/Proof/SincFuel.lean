import Verif.Proof.Fuel
import Verif.Proof.SincTables
import Verif.Spec.SincHistory

/-! Termination of the sinc converters: no loop exhausts its fuel, in any reachable state. -/

namespace Verif
open Spec

theorem noFuel_assertM (b : Bool) : NoFuel (assertM b) := by
  unfold assertM
  split_ifs
  · exact .pure _
  · exact .throw (by decide)

theorem noFuel_divM (a b : ℤ) : NoFuel (divM a b) := by
  unfold divM
  split_ifs
  · exact .throw (by decide)
  · exact .pure _

theorem noFuel_modM (a b : ℤ) : NoFuel (modM a b) := by
  unfold modM
  split_ifs
  · exact .throw (by decide)
  · exact .pure _

theorem noFuel_intDivCeil (a b : ℤ) : NoFuel (intDivCeil a b) :=
  (noFuel_assertM _).bind fun _ _ => (noFuel_chkI32 _).bind fun _ _ => noFuel_divM _ _

theorem noFuel_rdCoeff (f : SincFilter) (i : ℤ) : NoFuel (rdCoeff f i) := by
  unfold rdCoeff
  split_ifs
  · exact .pure _
  · exact .throw (by decide)

theorem noFuel_rdBuf (f : SincFilter) (c i : ℤ) : NoFuel (rdBuf f c i) := by
  unfold rdBuf
  split_ifs
  · exact .pure _
  · exact .throw (by decide)

theorem noFuel_icoeff (f : SincFilter) (i : ℤ) : NoFuel (icoeff f i) :=
  (noFuel_rdCoeff _ _).bind fun _ _ => (noFuel_rdCoeff _ _).bind fun _ _ => .pure _

theorem noFuel_accumulate (f : SincFilter) (c w : ℤ) (cap : ℕ) (ic : F64) (di : ℤ) (acc : ℕ → F64) :
    NoFuel (accumulate f c w cap ic di acc) := by
  refine NoFuel.forM' (fun i s => (noFuel_rdBuf _ _ _).bind fun x _ => ?_) _ _
  split_ifs
  · exact .pure _
  · exact .throw (by decide)

theorem noFuel_leftSkip (w inc fi di : ℤ) : NoFuel (leftSkip w inc fi di) := by
  unfold leftSkip
  split_ifs
  · exact (noFuel_intDivCeil _ _).bind fun _ _ => (noFuel_intDivCeil _ _).bind fun _ _ => (noFuel_assertM _).bind fun _ _ =>
      (noFuel_chkI32 _).bind fun _ _ => (noFuel_chkI32 _).bind fun _ _ => (noFuel_chkI32 _).bind fun _ _ =>
      (noFuel_chkI32 _).bind fun _ _ => .pure _
  · exact .pure _

theorem left_noFuel (v : SincVariant) (f : SincFilter) (ch inc : ℤ) (hi : 1 ≤ inc) (s : TapSt) :
    NoFuel (whileM (leftStep v f ch inc) (s.filterIndex.toNat + 2) s) := by
  refine whileM_noFuel (fun _ => True) (fun s => (s.filterIndex + 1).toNat) (fun s _ => ⟨?_, ?_⟩) _ s trivial (by omega)
  · unfold leftStep
    split
    · exact .pure _
    · exact (noFuel_assertM _).bind fun _ _ => (noFuel_icoeff _ _).bind fun _ _ => (noFuel_assertM _).bind fun _ _ =>
        (noFuel_assertM _).bind fun _ _ => (noFuel_accumulate ..).bind fun _ _ => (noFuel_chkI32 _).bind fun _ _ =>
        (noFuel_chkI32 _).bind fun _ _ => .pure _
  · intro s' h
    refine ⟨trivial, ?_⟩
    unfold leftStep at h
    split at h
    · cases ok_inj h
    rename_i hge
    obtain ⟨_, _, h⟩ := bind_ok h
    obtain ⟨_, _, h⟩ := bind_ok h
    obtain ⟨_, _, h⟩ := bind_ok h
    obtain ⟨_, _, h⟩ := bind_ok h
    obtain ⟨_, _, h⟩ := bind_ok h
    obtain ⟨fi, hfi, h⟩ := bind_ok h
    obtain ⟨_, _, h⟩ := bind_ok h
    have h := ok_inj h
    simp only [Prod.mk.injEq, true_and] at h
    rw [← h, chkI32_eq hfi]
    dsimp only
    omega

theorem right_noFuel (v : SincVariant) (f : SincFilter) (ch inc : ℤ) (hi : 1 ≤ inc) (s : TapSt) :
    NoFuel (whileM (rightStep v f ch inc) (s.filterIndex.toNat + 2) s) := by
  refine whileM_noFuel (fun _ => True) (fun s => s.filterIndex.toNat) (fun s _ => ⟨?_, ?_⟩) _ s trivial (by omega)
  · unfold rightStep rightAssert
    refine NoFuel.bind ?_ fun _ _ => (noFuel_icoeff _ _).bind fun _ _ => (noFuel_assertM _).bind fun _ _ =>
        (noFuel_assertM _).bind fun _ _ => (noFuel_accumulate ..).bind fun _ _ => (noFuel_chkI32 _).bind fun _ _ =>
        (noFuel_chkI32 _).bind fun _ _ => .pure _
    split
    · exact noFuel_assertM _
    · exact noFuel_assertM _
  · intro s' h
    refine ⟨trivial, ?_⟩
    unfold rightStep at h
    obtain ⟨_, _, h⟩ := bind_ok h
    obtain ⟨_, _, h⟩ := bind_ok h
    obtain ⟨_, _, h⟩ := bind_ok h
    obtain ⟨_, _, h⟩ := bind_ok h
    obtain ⟨_, _, h⟩ := bind_ok h
    obtain ⟨fi, hfi, h⟩ := bind_ok h
    obtain ⟨_, _, h⟩ := bind_ok h
    have h := ok_inj h
    simp only [Prod.mk.injEq, decide_eq_true_eq] at h
    rw [← h.2]
    have := chkI32_eq hfi
    dsimp only
    omega

theorem noFuel_calcOutput (v : SincVariant) (f : SincFilter) (ch inc start : ℤ) (hi : 1 ≤ inc) : NoFuel (calcOutput v f ch inc start) := by
  unfold calcOutput intToFp
  refine (noFuel_chkI32 _).bind fun _ _ => (noFuel_chkI32 _).bind fun _ _ => (noFuel_divM _ _).bind fun _ _ => (noFuel_chkI32 _).bind fun _ _ =>
    (noFuel_chkI32 _).bind fun _ _ => (noFuel_chkI32 _).bind fun _ _ => (noFuel_chkI32 _).bind fun _ _ => (noFuel_leftSkip ..).bind fun p _ =>
    (left_noFuel v f ch inc hi ⟨p.1, p.2, _⟩).bind fun _ _ => ?_
  exact (noFuel_chkI32 _).bind fun _ _ => (noFuel_chkI32 _).bind fun _ _ => (noFuel_divM _ _).bind fun _ _ => (noFuel_chkI32 _).bind fun _ _ =>
    (noFuel_chkI32 _).bind fun fi _ => (noFuel_chkI32 _).bind fun _ _ => (noFuel_chkI32 _).bind fun di _ =>
    (right_noFuel v f ch inc hi ⟨fi, di, _⟩).bind fun _ _ => .pure _

theorem noFuel_bufMove (f : SincFilter) (ch s l : ℤ) : NoFuel (bufMove f ch s l) := by
  unfold bufMove
  split_ifs
  · exact .throw (by decide)
  · exact .pure _
  · exact .throw (by decide)

theorem noFuel_bufLoad (m : Mem) (d : SrcData) (f : SincFilter) (ch a b l : ℤ) : NoFuel (bufLoad m d f ch a b l) := by
  unfold bufLoad
  split
  · exact .throw (by decide)
  split
  · exact .throw (by decide)
  split
  · exact .throw (by decide)
  · exact .pure _

theorem noFuel_bufZero (f : SincFilter) (ch a l : ℤ) : NoFuel (bufZero f ch a l) := by
  unfold bufZero
  split
  · exact .throw (by decide)
  split
  · exact .pure _
  · exact .throw (by decide)

theorem noFuel_prepRoom (f : SincFilter) (ch half : ℤ) : NoFuel (prepRoom f ch half) := by
  unfold prepRoom
  split
  · exact (noFuel_chkI32 _).bind fun _ _ => .pure _
  · refine (noFuel_chkI32 _).bind fun _ _ => ?_
    split
    · exact (noFuel_chkI32 _).bind fun _ _ => .pure _
    · exact (noFuel_chkI32 _).bind fun _ _ => (noFuel_chkI32 _).bind fun _ _ => (noFuel_bufMove ..).bind fun _ _ =>
        (noFuel_chkI32 _).bind fun _ _ => .pure _

theorem noFuel_prepTail (f : SincFilter) (ch half : ℤ) (d : SrcData) : NoFuel (prepTail f ch half d) := by
  unfold prepTail
  split
  · refine NoFuel.bind ?_ fun _ _ => (noFuel_chkI32 _).bind fun _ _ => (noFuel_chkI32 _).bind fun _ _ => (noFuel_bufZero ..).bind fun _ _ => .pure _
    unfold tailMove
    split
    · exact (noFuel_chkI32 _).bind fun _ _ => (noFuel_chkI32 _).bind fun _ _ => (noFuel_bufMove ..).bind fun _ _ => .pure _
    · exact .pure _
  · exact .pure _

theorem noFuel_prepareData (m : Mem) (f : SincFilter) (ch : ℤ) (d : SrcData) (half : ℤ) : NoFuel (prepareData m f ch d half) := by
  unfold prepareData
  split
  · exact .pure _
  split
  · exact .pure _
  refine (noFuel_prepRoom ..).bind fun _ _ => (noFuel_modM _ _).bind fun _ _ => (noFuel_chkI32 _).bind fun _ _ => ?_
  split
  · exact .pure _
  · exact (noFuel_bufLoad ..).bind fun _ _ => (noFuel_prepTail ..).bind fun _ _ => .pure _

theorem noFuel_samplesInHand (f : SincFilter) : NoFuel (samplesInHand f) :=
  (noFuel_chkI32 _).bind fun _ _ => (noFuel_chkI32 _).bind fun _ _ => noFuel_modM _ _

theorem noFuel_sincNorm (ch : ℤ) (f : SincFilter) (i : F64) : NoFuel (sincNorm ch f i) :=
  (noFuel_chkI32 _).bind fun _ _ => (noFuel_chkI32 _).bind fun _ _ => (noFuel_modM _ _).bind fun _ _ => .pure _

theorem noFuel_sincReload (st : SrcState) (d : SrcData) (half : ℤ) (s : SincLoop) : NoFuel (sincReload st d half s) := by
  unfold sincReload
  refine (noFuel_samplesInHand _).bind fun _ _ => ?_
  split
  · refine (noFuel_prepareData ..).bind fun _ _ => ?_
    dsimp only
    split
    · exact .pure _
    · exact (noFuel_samplesInHand _).bind fun _ _ => .pure _
  · exact .pure _

/-- A ratio as it occurs inside a call: valid, or not a number. -/
def InRatio (r : F64) : Prop := r = .nan ∨ ∃ q, r.val = some q ∧ ValidRatio q

theorem lt_nan {f : Fmt} (x : Fl f) : Fl.lt x .nan = false := by cases x <;> rfl

theorem good_val {r : F64} (hn : r ≠ .nan) (h : isBadSrcRatio r = false) : ∃ q, r.val = some q ∧ ValidRatio q := by
  cases r with
  | nan => exact absurd rfl hn
  | fin q hq => exact ⟨q, rfl, (isBad_false_iff rfl).1 h⟩
  | inf s =>
    obtain ⟨_, h1⟩ := Fl.eq_fin_of_val min_ratio_val
    obtain ⟨_, h2⟩ := Fl.eq_fin_of_val max_ratio_val
    rw [isBadSrcRatio, h1, h2] at h
    cases s <;> simp [Fl.lt, Fl.gt] at h

theorem inRatio_of_good {r : F64} (h : isBadSrcRatio r = false) : InRatio r := by
  by_cases hn : r = .nan
  · exact Or.inl hn
  · obtain ⟨q, hq, hv⟩ := good_val hn h
    exact Or.inr ⟨q, hq, hv⟩

theorem sincRatio_in {last target cur : F64} {g n : ℤ} (hl : InRatio last) (ht : InRatio target) (hc : InRatio cur) (hg : 0 ≤ g) (hgn : g < n)
    (hn : n ≤ 2 ^ 53) : InRatio (sincRatio last target g n cur) := by
  unfold sincRatio
  split_ifs with h
  · rcases hl with rfl | ⟨l, hl, vl⟩
    · simp [Fl.sub, Fl.add, Fl.abs, Fl.gt, lt_nan] at h
    rcases ht with rfl | ⟨t, ht, vt⟩
    · cases last <;> simp [Fl.sub, Fl.add, Fl.abs, Fl.gt, lt_nan, Fl.neg] at h
    exact Or.inr ⟨_, interp_val hl ht vl vt hg hgn hn, interpQ_valid (rep64_val hl) (rep64_val ht) vl vt hg hgn hn⟩
  · exact hc

theorem Geom.incr_pos {N inc B : ℤ} (G : Geom N inc B) {ratio : F64} (h : InRatio ratio) :
    1 ≤ doubleToFp (Fl.mul (dbl inc) (if Fl.lt ratio one64 then ratio else one64)) := by
  have h1 := G.inc1
  rcases h with rfl | ⟨q, hq, vq⟩
  · have e : (if Fl.lt (Fl.nan : F64) one64 then (Fl.nan : F64) else one64) = if Fl.lt one64 one64 then one64 else one64 := by
      simp
      intro h; cases h
    rw [e, (G.step_vals (ratio := one64) (idx := zero64) (ρ := 1) (i := 0) one64_val (by norm_num) zero64_val (by norm_num) (by norm_num)).1]
    have := (G.incr_bounds (ρ := 1) (by norm_num)).1
    omega
  · rw [(G.step_vals (idx := zero64) (i := 0) hq vq.1 zero64_val (by norm_num) (by norm_num)).1]
    have := (G.incr_bounds vq.1).1
    omega

theorem prepareData_counts {m : Mem} {f : SincFilter} {ch : ℤ} {d : SrcData} {half : ℤ} {r : ℤ × SincFilter}
    (h : prepareData m f ch d half = .ok r) : r.2.outGen = f.outGen ∧ r.2.outCount = f.outCount := by
  have mv : ∀ {f g : SincFilter} {c a l : ℤ}, bufMove f c a l = .ok g → g.outGen = f.outGen ∧ g.outCount = f.outCount := by
    intro f g c a l h
    unfold bufMove at h
    split_ifs at h
    have := ok_inj h; rw [← this]; exact ⟨rfl, rfl⟩
  unfold prepareData at h
  split at h
  · rw [← ok_inj h]; exact ⟨rfl, rfl⟩
  split at h
  · rw [← ok_inj h]; exact ⟨rfl, rfl⟩
  obtain ⟨⟨f1, n⟩, h1, h⟩ := bind_ok h
  have a : f1.outGen = f.outGen ∧ f1.outCount = f.outCount := by
    unfold prepRoom at h1
    split at h1
    · obtain ⟨_, _, h1⟩ := bind_ok h1
      have h1 := ok_inj h1; simp only [Prod.mk.injEq] at h1; rw [← h1.1]; exact ⟨rfl, rfl⟩
    obtain ⟨_, _, h1⟩ := bind_ok h1
    split at h1
    · obtain ⟨_, _, h1⟩ := bind_ok h1
      have h1 := ok_inj h1; simp only [Prod.mk.injEq] at h1; rw [← h1.1]; exact ⟨rfl, rfl⟩
    obtain ⟨_, _, h1⟩ := bind_ok h1
    obtain ⟨_, _, h1⟩ := bind_ok h1
    obtain ⟨g, hg, h1⟩ := bind_ok h1
    obtain ⟨_, _, h1⟩ := bind_ok h1
    have h1 := ok_inj h1; simp only [Prod.mk.injEq] at h1; rw [← h1.1]
    have := mv hg
    exact ⟨this.1, this.2⟩
  obtain ⟨_, _, h⟩ := bind_ok h
  obtain ⟨_, _, h⟩ := bind_ok h
  split at h
  · rw [← ok_inj h]; exact a
  obtain ⟨f2, h2, h⟩ := bind_ok h
  obtain ⟨f3, h3, h⟩ := bind_ok h
  rw [← ok_inj h]
  have b : f2.outGen = f1.outGen ∧ f2.outCount = f1.outCount := by
    unfold bufLoad at h2
    split_ifs at h2
    have := ok_inj h2; rw [← this]; exact ⟨rfl, rfl⟩
  have c : f3.outGen = f2.outGen ∧ f3.outCount = f2.outCount := by
    unfold prepTail at h3
    split at h3
    · obtain ⟨f4, h4, h3⟩ := bind_ok h3
      obtain ⟨_, _, h3⟩ := bind_ok h3
      obtain ⟨_, _, h3⟩ := bind_ok h3
      obtain ⟨f5, h5, h3⟩ := bind_ok h3
      have e4 : f4.outGen = f2.outGen ∧ f4.outCount = f2.outCount := by
        unfold tailMove at h4
        split at h4
        · obtain ⟨_, _, h4⟩ := bind_ok h4
          obtain ⟨_, _, h4⟩ := bind_ok h4
          obtain ⟨g, hg, h4⟩ := bind_ok h4
          have := ok_inj h4; rw [← this]
          have := mv hg
          exact ⟨this.1, this.2⟩
        · have := ok_inj h4; rw [← this]; exact ⟨rfl, rfl⟩
      have e5 : f5.outGen = f4.outGen ∧ f5.outCount = f4.outCount := by
        unfold bufZero at h5
        split_ifs at h5 <;> (have := ok_inj h5; rw [← this]; exact ⟨rfl, rfl⟩)
      have := ok_inj h3; rw [← this]
      exact ⟨e5.1.trans e4.1, e5.2.trans e4.2⟩
    · have := ok_inj h3; rw [← this]; exact ⟨rfl, rfl⟩
  exact ⟨c.1.trans (b.1.trans a.1), c.2.trans (b.2.trans a.2)⟩

theorem sincReload_counts {st : SrcState} {d : SrcData} {half : ℤ} {s s' : SincLoop} {b : Bool}
    (h : sincReload st d half s = .ok (b, s')) : s'.f.outGen = s.f.outGen ∧ s'.f.outCount = s.f.outCount ∧ s'.ratio = s.ratio := by
  unfold sincReload at h
  obtain ⟨_, _, h⟩ := bind_ok h
  split at h
  · obtain ⟨⟨e, f⟩, he, h⟩ := bind_ok h
    have := prepareData_counts he
    dsimp only at h
    split at h
    · have h := ok_inj h; simp only [Prod.mk.injEq] at h; rw [← h.2]; exact ⟨this.1, this.2, rfl⟩
    · obtain ⟨_, _, h⟩ := bind_ok h
      have h := ok_inj h; simp only [Prod.mk.injEq] at h; rw [← h.2]; exact ⟨this.1, this.2, rfl⟩
  · have h := ok_inj h; simp only [Prod.mk.injEq] at h; rw [← h.2]; exact ⟨rfl, rfl, rfl⟩

/-- What holds at the head of the main loop. -/
structure SincWhole (inc : ℤ) (ch o : ℕ) (s : SincLoop) : Prop where
  inc : s.f.indexInc = inc
  cnt : s.f.outCount = ((ch * o : ℕ) : ℤ)
  gen : ∃ i : ℕ, s.f.outGen = ch * i
  ratio : InRatio s.ratio

theorem sincMain_noFuel {N inc B : ℤ} (G : Geom N inc B) {v : SincVariant} {st : SrcState} {d : SrcData} {ch o : ℕ} (hch : st.channels = ch)
    (h1 : 1 ≤ ch) (hw : v.w st.channels = ch) (hl : InRatio st.lastRatio) (ht : InRatio d.srcRatio) (hb : ch * o ≤ 2 ^ 53) (half : ℤ) (t : F64)
    (s : SincLoop) (hs : SincWhole inc ch o s) : NoFuel (whileM (sincStep v st d half t) (o + 1) s) := by
  refine whileM_noFuel (SincWhole inc ch o) (fun s => o - (s.f.outGen / ch).toNat) (fun s hs => ⟨?_, ?_⟩) _ s hs (by omega)
  · unfold sincStep
    split
    · exact .pure _
    rename_i hlt
    refine (noFuel_sincReload ..).bind fun ⟨b, s1⟩ hr => ?_
    dsimp only
    split
    · exact .pure _
    split
    · exact .pure _
    obtain ⟨c1, c2, c3⟩ := sincReload_counts hr
    have c4 := (sincReload_geom hr).inc
    refine (noFuel_calcOutput _ _ _ _ _ ?_).bind fun _ _ => (NoFuel.forM' (fun _ _ => noFuel_wrOut ..) _ _).bind fun _ _ =>
      (noFuel_sincNorm ..).bind fun _ _ => .pure _
    rw [c4, hs.inc]
    obtain ⟨i, hi⟩ := hs.gen
    refine G.incr_pos (sincRatio_in hl ht (by rw [c3]; exact hs.ratio) ?_ ?_ ?_)
    · rw [c1, hi]; positivity
    · rw [c1, c2]; exact not_not.1 hlt
    · rw [c2, hs.cnt]; exact_mod_cast hb
  · intro s' h
    unfold sincStep at h
    split at h
    · cases ok_inj h
    rename_i hlt
    obtain ⟨⟨b, s1⟩, hr, h⟩ := bind_ok h
    dsimp only at h
    split at h
    · cases ok_inj h
    split at h
    · cases ok_inj h
    obtain ⟨c1, c2, c3⟩ := sincReload_counts hr
    have c4 := (sincReload_geom hr).inc
    obtain ⟨_, _, h⟩ := bind_ok h
    obtain ⟨_, _, h⟩ := bind_ok h
    obtain ⟨⟨f1, i1⟩, hn, h⟩ := bind_ok h
    have h := ok_inj h
    simp only [Prod.mk.injEq, true_and] at h
    have hf1 : f1.outGen = s1.f.outGen + v.w st.channels ∧ f1.outCount = s1.f.outCount ∧ f1.indexInc = s1.f.indexInc := by
      unfold sincNorm at hn
      obtain ⟨_, _, hn⟩ := bind_ok hn
      obtain ⟨_, _, hn⟩ := bind_ok hn
      obtain ⟨_, _, hn⟩ := bind_ok hn
      have hn := ok_inj hn; simp only [Prod.mk.injEq] at hn; rw [← hn.1]; exact ⟨rfl, rfl, rfl⟩
    obtain ⟨i, hi⟩ := hs.gen
    have hlt' : s.f.outGen < s.f.outCount := not_not.1 hlt
    have hp : (0 : ℤ) < ch := by omega
    have hio : i < o := by
      rw [hi, hs.cnt] at hlt'
      have : ch * i < ch * o := by exact_mod_cast hlt'
      exact Nat.lt_of_mul_lt_mul_left this
    have e : s'.f.outGen = ch * ((i + 1 : ℕ) : ℤ) := by
      rw [← h]; dsimp only; rw [hf1.1, c1, hi, hw]; push_cast; ring
    refine ⟨⟨?_, ?_, ⟨i + 1, e⟩, ?_⟩, ?_⟩
    · rw [← h]; dsimp only; rw [hf1.2.2, c4, hs.inc]
    · rw [← h]; dsimp only; rw [hf1.2.1, c2, hs.cnt]
    · rw [← h]
      refine sincRatio_in hl ht (by rw [c3]; exact hs.ratio) ?_ ?_ ?_
      · rw [c1, hi]; positivity
      · rw [c1, c2]; exact hlt'
      · rw [c2, hs.cnt]; exact_mod_cast hb
    · rw [e, hi, Int.mul_ediv_cancel_left _ hp.ne', Int.mul_ediv_cancel_left _ hp.ne']
      omega

theorem sinc_noFuel {N inc B : ℤ} (G : Geom N inc B) {v : SincVariant} {m : Mem} {st : SrcState} {d : SrcData} {ch : ℕ} {f : SincFilter}
    (hch : st.channels = ch) (h1 : 1 ≤ ch) (hw : v.w st.channels = ch) (hp : st.priv = .sinc f) (hi : f.indexInc = inc)
    (ht : isBadSrcRatio d.srcRatio = false) (ho : 0 ≤ d.outputFrames) (hb : d.outputFrames * ch ≤ 2 ^ 53) :
    NoFuel (sincVariProcess v m st d) := by
  unfold sincVariProcess
  rw [hp]
  dsimp only
  refine (noFuel_chkI64 _).bind fun ic _ => (noFuel_chkI64 _).bind fun oc hoc => ?_
  split
  · exact .pure _
  rename_i hgood
  unfold halfFilterChanLen
  refine NoFuel.bind ((noFuel_chkI32 _).bind fun _ _ => noFuel_chkI32 _) fun half _ => (noFuel_sincNorm ..).bind fun ⟨f1, i1⟩ hn => ?_
  have hoc : oc = ((ch * d.outputFrames.toNat : ℕ) : ℤ) := by
    unfold chkI64 at hoc
    split_ifs at hoc
    have := ok_inj hoc
    rw [← this, hch]; push_cast; rw [Int.toNat_of_nonneg ho]; ring
  have hf1 : f1.outGen = 0 ∧ f1.outCount = oc ∧ f1.indexInc = f.indexInc := by
    unfold sincNorm at hn
    obtain ⟨_, _, hn⟩ := bind_ok hn
    obtain ⟨_, _, hn⟩ := bind_ok hn
    obtain ⟨_, _, hn⟩ := bind_ok hn
    have hn := ok_inj hn; simp only [Prod.mk.injEq] at hn; rw [← hn.1]; exact ⟨rfl, rfl, rfl⟩
  have hl := inRatio_of_good (by simpa using hgood)
  refine (sincMain_noFuel G hch h1 hw hl (inRatio_of_good ht) ?_ half _ _ ⟨?_, ?_, ⟨0, ?_⟩, hl⟩).bind fun s _ => ?_
  · zify; rw [Int.toNat_of_nonneg ho]; linarith
  · dsimp only; rw [hf1.2.2, hi]
  · dsimp only; rw [hf1.2.1, hoc]
  · dsimp only; rw [hf1.1]; simp
  · skip
    split
    · exact .pure _
    · exact (noFuel_divM _ _).bind fun _ _ => (noFuel_divM _ _).bind fun _ _ => .pure _

/-- A handle of a sinc converter: the function table belongs to the channel count and the geometry is that of a table of the library. -/
def SincHandle (st : SrcState) : Prop :=
  st.vt = sincVt st.channels ∧ st.channels ≤ 128 ∧ ∃ f N B, st.priv = .sinc f ∧ Geom N f.indexInc B

theorem new_handle {cfg : Config} (hT : LibraryTables cfg) {type channels e : ℤ} {st : SrcState}
    (h : srcNew cfg type channels = .ok (e, some st)) : st.vt = .zoh ∨ st.vt = .linear ∨ SincHandle st := by
  unfold srcNew at h
  split at h
  · rename_i t ht
    unfold sincStateNew at h
    obtain ⟨_, hc, h⟩ := bind_ok h
    split at h
    · have h := ok_inj h; simp at h
    rename_i hle
    obtain ⟨bLen, hb, h⟩ := bind_ok h
    have h := ok_inj h
    simp only [Prod.mk.injEq, Option.some.injEq] at h
    obtain ⟨B, G, _⟩ := table_geom (by
      unfold Config.table at ht
      split_ifs at ht
      · exact Or.inr (Or.inr (hT.best _ ht))
      · exact Or.inr (Or.inl (hT.mid _ ht))
      · exact Or.inl (hT.fast _ ht))
    refine Or.inr (Or.inr ?_)
    rw [← h.2]
    refine ⟨rfl, by simpa [stateInit] using hle, ⟨_, t.count - 2, B, resetPriv_sinc (ch := channels) rfl rfl, ?_⟩⟩
    exact G
  · split at h
    · obtain ⟨_, hc, h⟩ := bind_ok h
      have h := ok_inj h
      simp only [Prod.mk.injEq, Option.some.injEq] at h
      exact Or.inl (by rw [← h.2]; rfl)
    split at h
    · obtain ⟨_, hc, h⟩ := bind_ok h
      have h := ok_inj h
      simp only [Prod.mk.injEq, Option.some.injEq] at h
      exact Or.inr (Or.inl (by rw [← h.2]; rfl))
    · have h := ok_inj h; simp at h

theorem created_handle {cfg : Config} (hT : LibraryTables cfg) {st : SrcState} (h : Created cfg st) :
    st.vt = .zoh ∨ st.vt = .linear ∨ SincHandle st := by
  cases h with
  | new type channels e _ h => exact new_handle hT h
  | callbackNew func type channels ud e _ h =>
    unfold srcCallbackNew at h
    split at h
    · have h := ok_inj h; simp at h
    obtain ⟨⟨e', s⟩, h1, h⟩ := bind_ok h
    dsimp only at h
    cases s with
    | none => have h := ok_inj h; simp at h
    | some s =>
      have H := new_handle hT h1
      have h := ok_inj h
      simp only [Prod.mk.injEq, Option.some.injEq] at h
      rw [← h.2]
      rcases H with H | H | ⟨h1, h2, f, N, B, h3, h4⟩
      · exact Or.inl H
      · exact Or.inr (Or.inl H)
      · refine Or.inr (Or.inr ⟨h1, h2, _, N, B, resetPriv_sinc (st := s) h1 h3, ?_⟩)
        exact h4

theorem reach_handle {cfg : Config} (hT : LibraryTables cfg) {st st' : SrcState} (h : Created cfg st) (r : Reach st st') :
    st'.vt = .zoh ∨ st'.vt = .linear ∨ SincHandle st' := by
  have L := reach_like h r
  rcases created_handle hT h with H | H | ⟨h1, h2, f, N, B, h3, h4⟩
  · exact Or.inl (by rw [L.vt, H])
  · exact Or.inr (Or.inl (by rw [L.vt, H]))
  · have hp := L.priv
    rw [h3] at hp
    cases hp1 : st'.priv <;> rw [hp1] at hp <;> simp only [PrivLike] at hp
    refine Or.inr (Or.inr ⟨by rw [L.vt, L.channels, h1], by rw [L.channels]; exact h2, _, N, B, hp1, ?_⟩)
    rw [hp.1.inc]; exact h4

/-- `src_process` never runs out of fuel on a handle of the library. -/
theorem process_noFuel_of {st : SrcState} (hpos : 0 < st.channels) (H : st.vt = .zoh ∨ st.vt = .linear ∨ SincHandle st) (m : Mem)
    (d : Option SrcData) (hd : ∀ d', d = some d' → d'.outputFrames * st.channels ≤ 2 ^ 53) : NoFuel (srcProcess m (some st) d) := by
  rcases H with H | H | ⟨h1, h2, f, N, B, h3, h4⟩
  · exact process_noFuel (Or.inl H) hpos
  · exact process_noFuel (Or.inr H) hpos
  obtain ⟨ch, hc⟩ := Int.eq_ofNat_of_zero_le hpos.le
  have key : ∀ (l : F64) (d : SrcData), isBadSrcRatio d.srcRatio = false → 0 ≤ d.outputFrames → d.outputFrames * ch ≤ 2 ^ 53 →
      NoFuel (variProcess m { st with lastRatio := l } d) := by
    intro l d hb ho hs
    have go : ∀ v : SincVariant, v.w st.channels = ch → NoFuel (sincVariProcess v m { st with lastRatio := l } d) := fun v hv =>
      sinc_noFuel h4 (st := { st with lastRatio := l }) hc (by omega) hv h3 rfl hb ho hs
    unfold variProcess
    rw [sincVt] at h1
    by_cases e1 : st.channels = 1
    · rw [if_pos e1] at h1
      have := go vMono (by simp [vMono, SincVariant.w]; omega)
      simp only [h1] at this ⊢; exact this
    rw [if_neg e1] at h1
    by_cases e2 : st.channels = 2
    · rw [if_pos e2] at h1
      have := go vStereo (by simp [vStereo, SincVariant.w]; omega)
      simp only [h1] at this ⊢; exact this
    rw [if_neg e2] at h1
    by_cases e4 : st.channels = 4
    · rw [if_pos e4] at h1
      have := go vQuad (by simp [vQuad, SincVariant.w]; omega)
      simp only [h1] at this ⊢; exact this
    rw [if_neg e4] at h1
    by_cases e6 : st.channels = 6
    · rw [if_pos e6] at h1
      have := go vHex (by simp [vHex, SincVariant.w]; omega)
      simp only [h1] at this ⊢; exact this
    rw [if_neg e6] at h1
    have := go vMulti (by simp [vMulti, SincVariant.w]; exact hc)
    simp only [h1] at this ⊢; exact this
  unfold srcProcess
  dsimp only
  split
  · exact .pure _
  cases d with
  | none => exact .pure _
  | some d =>
    have hd := hd d rfl
    refine NoFuel.bind ?_ fun _ _ => .pure _
    unfold srcProcessData
    split
    · exact .pure _
    split
    · exact .pure _
    rename_i hbad
    refine (noFuel_overlapTest ..).bind fun b _ => ?_
    cases b with
    | true => exact .pure _
    | false =>
      simp only [Bool.false_eq_true, if_false, constProcess, ite_self]
      have hb : isBadSrcRatio (clampFrames d).srcRatio = false := by
        have : (clampFrames d).srcRatio = d.srcRatio := rfl
        rw [this]; simpa using hbad
      have ho : 0 ≤ (clampFrames d).outputFrames := by
        simp only [clampFrames]; split_ifs <;> omega
      have hs : (clampFrames d).outputFrames * ch ≤ 2 ^ 53 := by
        simp only [clampFrames]; split_ifs
        · norm_num
        · rw [← hc]; exact hd
      split
      · exact key _ _ hb ho hs
      · exact key st.lastRatio _ hb ho hs

/-- `src_process` never runs out of fuel. -/
theorem process_noFuel_all {cfg : Config} (hT : LibraryTables cfg) {st0 st : SrcState} (h : Created cfg st0) (r : Reach st0 st) (m : Mem)
    (d : Option SrcData) (hd : ∀ d', d = some d' → d'.outputFrames * st.channels ≤ 2 ^ 53) : NoFuel (srcProcess m (some st) d) := by
  have L := reach_like h r
  exact process_noFuel_of (by rw [L.channels]; exact L.pos) (reach_handle hT h r) m d hd

end Verif
