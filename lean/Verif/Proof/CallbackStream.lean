import Verif.Proof.CallbackCount

/-! `src_callback_read` as a session of `src_process` calls (C37, C38). -/

namespace Verif
open Spec

section
variable {x : ℕ → ℕ → F32} {ch : ℕ} {cnt addr : ℕ → ℤ} {cb : Callback} {ud : ℕ}

theorem session_trans {U c V c' W c'' : ℕ} {m m' m'' : Mem} {ps ps' : List Op} {qs qs' : List Obs}
    (h : Session x ch cnt cb ud U c m ps qs V c' m') (h' : Session x ch cnt cb ud V c' m' ps' qs' W c'' m'') :
    Session x ch cnt cb ud U c m (ps ++ ps') (qs ++ qs') W c'' m'' := by
  induction h with
  | done => exact h'
  | fetch U c m ops os V c1 m1 e _ ih => exact .fetch _ _ _ _ _ _ _ _ e (ih h')
  | call U c m d d' o m1 ops os V c1 m2 e1 e2 e3 e4 e5 e6 _ ih => exact .call _ _ _ _ _ _ _ _ _ _ _ _ e1 e2 e3 e4 e5 e6 (ih h')

theorem offered_mono (cnt : ℕ → ℤ) {a b : ℕ} (h : a ≤ b) : offered cnt a ≤ offered cnt b := by
  induction h with
  | refl => exact le_rfl
  | step _ ih => exact le_trans ih (Nat.le_add_right _ _)

/-- A `src_process` call on not more than `bi` samples of input and `bo` samples of output, at the ratio `r`. -/
def CallWithin (ch : ℕ) (bi bo : ℤ) (r : F64) (op : Op) : Prop :=
  ∃ m d, op = .process m (some d) ∧ d.srcRatio = r ∧ samples ch d.inputFrames ≤ bi ∧ samples ch d.outputFrames ≤ bo

/-- Where the rest of the last buffer is. -/
structure Rest (ch : ℕ) (cnt addr : ℕ → ℤ) (U c : ℕ) (n a : ℤ) : Prop where
  nonneg : 0 ≤ n
  total : U + n.toNat = offered cnt c
  place : 0 < n → ∃ i, c = i + 1 ∧ offered cnt i ≤ U ∧ a = addr i + ch * ((U : ℤ) - offered cnt i)

/-- The rest of the last buffer holds the stream if the buffer is intact. -/
theorem Rest.holds {U c : ℕ} {n a : ℤ} (R : Rest ch cnt addr U c n a) {m : Mem}
    (h : ∀ i, c = i + 1 → Holds x ch m (addr i) (offered cnt i) (cnt i).toNat) : Holds x ch m a U n.toNat := by
  intro k j hk hj
  obtain ⟨i, rfl, h1, h2⟩ := R.place (by omega)
  have ht := R.total
  have h3 : offered cnt (i + 1) = offered cnt i + (cnt i).toNat := rfl
  rw [h3] at ht
  have := h i rfl (U - offered cnt i + k) j (by omega) hj
  rw [show offered cnt i + (U - offered cnt i + k) = U + k by omega] at this
  rw [← this, h2]
  congr 1
  push_cast [Nat.cast_sub h1]
  ring

theorem Rest.size {U c : ℕ} {n a bi : ℤ} (R : Rest ch cnt addr U c n a) (hbi : 0 ≤ bi) (hb : ∀ i, samples ch (cnt i) ≤ bi) : samples ch n ≤ bi := by
  rcases lt_or_ge 0 n with hn | hn
  · obtain ⟨i, rfl, h1, _⟩ := R.place hn
    have ht := R.total
    have h3 : offered cnt (i + 1) = offered cnt i + (cnt i).toNat := rfl
    rw [h3] at ht
    exact le_trans (samples_mono (by omega)) (hb i)
  · unfold samples
    rw [max_eq_right hn]; simpa using hbi

/-- Invariant of the loop of `src_callback_read`, see `Session`. -/
structure PullLoop (x : ℕ → ℕ → F32) (ch : ℕ) (cnt addr : ℕ → ℤ) (cb : Callback) (ud : ℕ) (bi bo : ℤ) (st0 : SrcState) (ps0 : List Op) (qs0 : List Obs)
    (U0 c0 : ℕ) (m0 : Mem) (ratio : F64) (frames data : ℤ) (s : CbSt) (ps : List Op) (qs : List Obs) (p : SrcState) (U : ℕ) : Prop where
  back : Backed ch st0 (ps0 ++ ps) (qs0 ++ qs) s.st p
  sess : Session x ch cnt cb ud U0 c0 m0 ps qs U s.calls s.mem
  within : ∀ q ∈ ps, CallWithin ch bi bo ratio q
  rest : Rest ch cnt addr U s.calls s.d.inputFrames s.d.dataIn
  holds : Holds x ch s.mem s.d.dataIn U s.d.inputFrames.toNat
  eof : s.d.endOfInput ≠ 0 → ∃ i < s.calls, cnt i = 0
  outAt : s.d.dataOut = data + ch * s.gen
  room : s.d.outputFrames = frames - s.gen
  gen0 : 0 ≤ s.gen
  gen1 : s.gen ≤ frames
  outs : outputs ch qs = (List.range s.gen.toNat).map fun j => frameOf ch fun c => s.mem (data + ((ch * j + c : ℕ) : ℤ))
  hud : s.st.userData = ud
  hrat : s.d.srcRatio = ratio
  err : s.err = 0

/-- The same between the fetch and the call: the count may be negative. -/
structure PullMid (x : ℕ → ℕ → F32) (ch : ℕ) (cnt addr : ℕ → ℤ) (cb : Callback) (ud : ℕ) (bi bo : ℤ) (st0 : SrcState) (ps0 : List Op) (qs0 : List Obs)
    (U0 c0 : ℕ) (m0 : Mem) (ratio : F64) (frames data : ℤ) (s : CbSt) (ps : List Op) (qs : List Obs) (p : SrcState) (U : ℕ) : Prop where
  back : Backed ch st0 (ps0 ++ ps) (qs0 ++ qs) s.st p
  sess : Session x ch cnt cb ud U0 c0 m0 ps qs U s.calls s.mem
  within : ∀ q ∈ ps, CallWithin ch bi bo ratio q
  total : U + s.d.inputFrames.toNat = offered cnt s.calls
  place : 0 < s.d.inputFrames → ∃ i, s.calls = i + 1 ∧ offered cnt i ≤ U ∧ s.d.dataIn = addr i + ch * ((U : ℤ) - offered cnt i)
  insize : samples ch s.d.inputFrames ≤ bi
  holds : Holds x ch s.mem s.d.dataIn U s.d.inputFrames.toNat
  eof : s.d.endOfInput ≠ 0 → ∃ i < s.calls, cnt i = 0
  outAt : s.d.dataOut = data + ch * s.gen
  room : s.d.outputFrames = frames - s.gen
  gen0 : 0 ≤ s.gen
  gen1 : s.gen ≤ frames
  outs : outputs ch qs = (List.range s.gen.toNat).map fun j => frameOf ch fun c => s.mem (data + ((ch * j + c : ℕ) : ℤ))
  hud : s.st.userData = ud
  hrat : s.d.srcRatio = ratio
  err : s.err = 0

variable {cfg : Config} {type e0 bi bo : ℤ} {st0 : SrcState} {ps0 : List Op} {qs0 : List Obs} {U0 c0 : ℕ} {m0 : Mem} {ratio : F64} {frames data dummy : ℤ}

theorem frames_congr {f g : ℕ → ℕ → F32} {n : ℕ} (h : ∀ j c, j < n → c < ch → f j c = g j c) :
    ((List.range n).map fun j => frameOf ch (f j)) = (List.range n).map fun j => frameOf ch (g j) := by
  refine List.map_congr_left fun j hj => ?_
  unfold frameOf
  refine List.map_congr_left fun c hc => ?_
  exact h j c (List.mem_range.1 hj) (List.mem_range.1 hc)

theorem frame_index {j c n : ℕ} (hj : j < n) (hc : c < ch) : ch * j + c < n * ch := by
  calc ch * j + c < ch * j + ch := by omega
    _ = (j + 1) * ch := by ring
    _ ≤ n * ch := Nat.mul_le_mul_right _ hj

theorem cbFetch_pull (hH : HandsOut x ch cnt addr cb) (hS : SparesOutput ch cb frames data) (hbi : 0 ≤ bi) (hb : ∀ i, samples ch (cnt i) ≤ bi) {s : CbSt} {ps : List Op}
    {qs : List Obs} {p : SrcState} {U : ℕ} (I : PullLoop x ch cnt addr cb ud bi bo st0 ps0 qs0 U0 c0 m0 ratio frames data s ps qs p U) :
    PullMid x ch cnt addr cb ud bi bo st0 ps0 qs0 U0 c0 m0 ratio frames data (cbFetch cb dummy s) ps qs p U := by
  unfold cbFetch
  split_ifs with h0
  · obtain ⟨hc, hp⟩ := hH s.st.userData s.calls s.mem
    have hU : U = offered cnt s.calls := by
      have := I.rest.total
      rw [h0] at this
      simpa using this
    have hoff : offered cnt (s.calls + 1) = offered cnt s.calls + (cnt s.calls).toNat := rfl
    refine ⟨I.back, ?_, I.within, ?_, ?_, ?_, ?_, ?_, I.outAt, I.room, I.gen0, I.gen1, ?_, I.hud, I.hrat, I.err⟩
    · have hf : Session x ch cnt cb ud U s.calls s.mem [] [] U (s.calls + 1) (cb ud s.calls s.mem).2.2 :=
        .fetch _ _ _ _ _ _ _ _ hU (.done _ _ _)
      have := session_trans I.sess hf
      simp only [List.append_nil] at this
      dsimp only
      rw [I.hud]
      exact this
    · dsimp only
      rw [hc, hoff, hU]
    · dsimp only
      rw [hc]
      intro h
      refine ⟨s.calls, rfl, hU.ge, ?_⟩
      rw [(hp h).1, Option.getD_some, hU]; ring
    · dsimp only
      rw [hc]; exact hb _
    · dsimp only
      intro k j hk hj
      rw [hc] at hk
      have h1 : 0 < cnt s.calls := by omega
      rw [(hp h1).1, hU]
      exact (hp h1).2 k j hk hj
    · dsimp only
      rw [hc]
      intro h
      split_ifs at h with h1
      · exact ⟨s.calls, Nat.lt_succ_self _, h1⟩
      · obtain ⟨i, hi, h2⟩ := I.eof h
        exact ⟨i, Nat.lt_succ_of_lt hi, h2⟩
    · dsimp only
      rw [I.outs]
      refine frames_congr fun j c hj hc' => ?_
      refine (hS _ _ _ _ (by omega) ?_).symm
      have h1 : ch * j + c < s.gen.toNat * ch := frame_index hj hc'
      have h2 : s.gen * ch ≤ frames * ch := mul_le_mul_of_nonneg_right I.gen1 (by positivity)
      have h3 : ((s.gen.toNat * ch : ℕ) : ℤ) = s.gen * ch := by push_cast; rw [Int.toNat_of_nonneg I.gen0]
      have h4 : ((ch * j + c : ℕ) : ℤ) < ((s.gen.toNat * ch : ℕ) : ℤ) := by exact_mod_cast h1
      omega
  · exact ⟨I.back, I.sess, I.within, I.rest.total, I.rest.place, I.rest.size hbi hb, I.holds, I.eof, I.outAt, I.room, I.gen0, I.gen1, I.outs, I.hud,
      I.hrat, I.err⟩

theorem outOf_eq {o : Obs} {m : Mem} {d : SrcData} (h1 : o.mem = some m) (h2 : o.data = some d) :
    outOf ch o = (List.range d.outputFramesGen.toNat).map fun j => frameOf ch fun c => m (d.dataOut + ((ch * j + c : ℕ) : ℤ)) := by
  simp only [outOf, h1, h2]

theorem outputs_append (a b : List Obs) : outputs ch (a ++ b) = outputs ch a ++ outputs ch b := by
  simp [outputs]

theorem cbStep_pull (hL : LibraryTables cfg) (hc : ch ≤ 8355967) (h0 : srcNew cfg type ch = .ok (e0, some st0))
    (hH : HandsOut x ch cnt addr cb) (hS : SparesOutput ch cb frames data) (hbi : 0 ≤ bi) (hbi' : bi ≤ 2 ^ 52) (hb : ∀ i, samples ch (cnt i) ≤ bi)
    (hr : ratio ≠ .nan) (hf : samples ch frames ≤ bo) (hbo : bo ≤ 2 ^ 52) {s s' : CbSt} {b : Bool}
    (H : ∃ ps qs p U, PullLoop x ch cnt addr cb ud bi bo st0 ps0 qs0 U0 c0 m0 ratio frames data s ps qs p U) (h : cbStep cb dummy frames s = .ok (b, s')) :
    (s'.err ≠ 0 ∧ b = false) ∨ ∃ ps qs p U, PullLoop x ch cnt addr cb ud bi bo st0 ps0 qs0 U0 c0 m0 ratio frames data s' ps qs p U := by
  obtain ⟨ps, qs, p, U, I⟩ := H
  rcases cbStep_inv h with ⟨hg, rfl, rfl⟩ | ⟨hg, e, mem, st, d, hp, hcase⟩
  · exact Or.inr ⟨_, _, _, _, I⟩
  have F := cbFetch_pull (dummy := dummy) hH hS hbi hb I
  have hst : (cbFetch cb dummy s).st = s.st := by unfold cbFetch; split_ifs <;> rfl
  have hgen : (cbFetch cb dummy s).gen = s.gen := by unfold cbFetch; split_ifs <;> rfl
  generalize cbFetch cb dummy s = f at hp hcase F hst hgen
  rcases hcase with ⟨he, hb', c1, _⟩ | ⟨he, hb', c1, c2, c3, c4, c5, c6⟩
  · exact Or.inl ⟨by rw [c1]; exact he, hb'⟩
  right
  have hsz : samples ch f.d.outputFrames ≤ bo := le_trans (samples_mono (by rw [F.room]; have := F.gen0; omega)) hf
  have hO : Ordinary 1 ch f.d := ordinary_of (by rw [F.hrat]; exact hr) (le_trans F.insize hbi') (le_trans hsz hbo)
  have hud : st.userData = ud := by
    have L : Like { s.st with mode := .process } { s.st with mode := .process } := by
      have Lp := like_self_priv (reach_like (.new _ _ _ _ h0) ⟨_, _, I.back.run⟩)
      obtain ⟨a1, a2, a3, a4, a5⟩ := alike_iff.1 I.back.alike
      exact ⟨rfl, rfl, rfl, rfl, rfl, by dsimp only; rw [a4, a5]; exact Lp.priv, by dsimp only; rw [a1, a5]; exact Lp.kind, by dsimp only; rw [a4]; exact Lp.pos⟩
    obtain ⟨s1, h1, L1⟩ := process_like L hp
    cases h1
    rw [L1.ud]; exact I.hud
  have B := F.back
  rw [hst] at B
  obtain ⟨o, p', B', _, ho1, ho2, ho3, hok⟩ := B.step hL hc h0 hO hp
  have hch : st.channels = ch := by
    rw [(alike_iff.1 B'.alike).2.2.2.1, (reach_like (.new _ _ _ _ h0) ⟨_, _, B'.run⟩).channels]
    exact (new_params h0).2
  obtain ⟨hA, hF, hK, hCl⟩ := hok he
  have hroom := F.room
  rw [hgen] at hroom
  have hu0 := hA.used0
  have hu1 := hA.used1
  have hg0 := hA.gen0
  have hg1 := hA.gen1
  rw [hroom, max_eq_left (by omega)] at hg1
  have hsg := I.gen0
  have hgch : d.outputFramesGen * (ch : ℤ) ≤ samples ch f.d.outputFrames := by
    unfold samples
    exact mul_le_mul_of_nonneg_right hA.gen1 (by positivity)
  refine ⟨ps ++ [.process f.mem (some f.d)], qs ++ [o], p', U + d.inputFramesUsed.toNat, ?_⟩
  have hnn : 0 ≤ d.inputFrames - d.inputFramesUsed := by rw [hK.inputFrames]; omega
  refine ⟨?_, ?_, ?_, ⟨?_, ?_, ?_⟩, ?_, ?_, ?_, ?_, ?_, ?_, ?_, ?_, ?_, ?_⟩
  · rw [c3, ← List.append_assoc, ← List.append_assoc]
    exact backed_callback B'
  · rw [c2, c6]
    refine session_trans F.sess (.call _ _ _ _ d o mem _ _ _ _ _ ?_ F.total F.eof ?_ ho3 ho2 (.done _ _ _))
    · intro k c hk hc'
      exact F.holds k c (by omega) hc'
    · rw [ho1, he]
  · intro q hq
    rcases List.mem_append.1 hq with hq | hq
    · exact F.within q hq
    · exact ⟨_, _, List.mem_singleton.1 hq, F.hrat, F.insize, hsz⟩
  · rw [c4]; exact hnn
  · rw [c4, c6, ← F.total]
    dsimp only
    rw [hK.inputFrames]
    omega
  · rw [c4, c6]
    dsimp only
    rw [hK.inputFrames, hK.dataIn, hch]
    intro h1
    obtain ⟨i, h2, h3, h4⟩ := F.place (by omega)
    refine ⟨i, h2, by omega, ?_⟩
    rw [h4]
    push_cast
    rw [Int.toNat_of_nonneg hu0]; ring
  · rw [c2, c4]
    dsimp only
    rw [hK.inputFrames, hK.dataIn, hch]
    intro k c hk hc'
    have hk1 : d.inputFramesUsed.toNat + k < f.d.inputFrames.toNat := by omega
    have e1 : f.d.dataIn + d.inputFramesUsed * (ch : ℤ) + ((ch * k + c : ℕ) : ℤ) = f.d.dataIn + ((ch * (d.inputFramesUsed.toNat + k) + c : ℕ) : ℤ) := by
      push_cast
      rw [Int.toNat_of_nonneg hu0]; ring
    rw [e1, hF, F.holds _ _ hk1 hc', add_assoc]
    have h1 : ch * (d.inputFramesUsed.toNat + k) + c < f.d.inputFrames.toNat * ch := frame_index hk1 hc'
    have h2 : ((f.d.inputFrames.toNat * ch : ℕ) : ℤ) = samples ch f.d.inputFrames := by
      unfold samples
      push_cast
      rw [Int.toNat_eq_max]
    have h3 : ((ch * (d.inputFramesUsed.toNat + k) + c : ℕ) : ℤ) < samples ch f.d.inputFrames := by
      rw [← h2]; exact_mod_cast h1
    rintro ⟨h4, h5⟩
    apply hCl
    unfold Clash
    omega
  · rw [c4, c6]
    dsimp only
    rw [hK.endOfInput]
    exact F.eof
  · rw [c4, c5]
    dsimp only
    rw [hK.dataOut, hch, F.outAt, hgen]; ring
  · rw [c4, c5]
    dsimp only
    rw [hK.outputFrames, hroom, max_eq_left (by omega)]; ring
  · rw [c5]; omega
  · rw [c5]; omega
  · rw [c2, c5, outputs_append, F.outs, hgen]
    have e1 : outputs ch [o] = outOf ch o := by simp [outputs]
    rw [e1, outOf_eq ho2 ho3, Int.toNat_add hsg hg0, List.range_add, List.map_append, List.map_map]
    have hda := F.outAt
    rw [hgen] at hda
    congr 1
    · refine frames_congr fun j c hj hc' => ?_
      rw [hF]
      rintro ⟨h4, _⟩
      have h1 : ch * j + c < s.gen.toNat * ch := frame_index hj hc'
      have h3 : ((s.gen.toNat * ch : ℕ) : ℤ) = ch * s.gen := by push_cast; rw [Int.toNat_of_nonneg hsg]; ring
      have h5 : ((ch * j + c : ℕ) : ℤ) < ((s.gen.toNat * ch : ℕ) : ℤ) := by exact_mod_cast h1
      omega
    · refine List.map_congr_left fun j _ => ?_
      rw [Function.comp_apply]
      unfold frameOf
      refine List.map_congr_left fun c _ => ?_
      rw [hK.dataOut, hda]
      congr 1
      push_cast
      rw [Int.toNat_of_nonneg hsg]; ring
  · rw [c3]; exact hud
  · rw [c4]; exact hK.srcRatio.trans F.hrat
  · rw [c1]; exact I.err

/-- State of the handle between two reads. -/
structure Pulled (ch : ℕ) (cnt addr : ℕ → ℤ) (st0 : SrcState) (ud : ℕ) (ps : List Op) (qs : List Obs) (st p : SrcState) (U c : ℕ) : Prop where
  back : Backed ch st0 ps qs st p
  rest : Rest ch cnt addr U c st.savedFrames st.savedData
  hud : st.userData = ud

theorem Backed.error {ps : List Op} {qs : List Obs} {st p : SrcState} (B : Backed ch st0 ps qs st p) (e : ℤ) (a b : ℤ) :
    Backed ch st0 ps qs { st with savedData := a, savedFrames := b, error := e } p :=
  ⟨B.ord, B.run, B.mode, by have := alike_iff.1 B.alike; exact alike_iff.2 this⟩

/-- One `src_callback_read` call without error is a session. -/
theorem read_pull (hL : LibraryTables cfg) (hc : ch ≤ 8355967) (h0 : srcNew cfg type ch = .ok (e0, some st0))
    (hH : HandsOut x ch cnt addr cb) (hS : SparesOutput ch cb frames data) (hbi : 0 ≤ bi) (hbi' : bi ≤ 2 ^ 52) (hb : ∀ i, samples ch (cnt i) ≤ bi)
    (hr : ratio ≠ .nan) (hf : samples ch frames ≤ bo) (hbo : bo ≤ 2 ^ 52) {st p : SrcState} (P : Pulled ch cnt addr st0 ud ps0 qs0 st p U0 c0)
    (hI : ∀ i, c0 = i + 1 → Holds x ch m0 (addr i) (offered cnt i) (cnt i).toNat)
    {fuel : ℕ} {m' : Mem} {n : ℤ} {st' : Option SrcState} {k : ℕ}
    (h : srcCallbackRead cb dummy fuel c0 m0 (some st) ratio frames data = .ok (n, m', st', k)) (he : srcError st' = 0) :
    ∃ s' ps qs p' U, st' = some s' ∧ Pulled ch cnt addr st0 ud (ps0 ++ ps) (qs0 ++ qs) s' p' U k ∧ Session x ch cnt cb ud U0 c0 m0 ps qs U k m' ∧
      (∀ q ∈ ps, CallWithin ch bi bo ratio q) ∧
      ((List.range n.toNat).map fun j => frameOf ch fun c => m' (data + ((ch * j + c : ℕ) : ℤ))) = outputs ch qs := by
  unfold srcCallbackRead at h
  dsimp only at h
  split at h
  · have h := ok_inj h; simp only [Prod.mk.injEq] at h
    obtain ⟨rfl, rfl, rfl, rfl⟩ := h
    exact ⟨st, [], [], p, U0, rfl, by simpa using P, .done _ _ _, by simp, by simp [outputs]⟩
  rename_i hfr
  split at h
  · have h := ok_inj h; simp only [Prod.mk.injEq] at h
    obtain ⟨rfl, rfl, rfl, rfl⟩ := h
    simp [srcError, Err.BAD_MODE] at he
  split at h
  · have h := ok_inj h; simp only [Prod.mk.injEq] at h
    obtain ⟨rfl, rfl, rfl, rfl⟩ := h
    simp [srcError, Err.NULL_CALLBACK] at he
  split at h
  · have h := ok_inj h; simp only [Prod.mk.injEq] at h
    obtain ⟨rfl, rfl, rfl, rfl⟩ := h
    simp [srcError, Err.BAD_SRC_RATIO] at he
  obtain ⟨r, hw, h⟩ := bind_ok h
  have I0 : PullLoop x ch cnt addr cb ud bi bo st0 ps0 qs0 U0 c0 m0 ratio frames data
      { st := st, mem := m0, d := cbData st ratio frames data, gen := 0, calls := c0, err := 0 } [] [] p U0 :=
    ⟨by simpa using P.back, .done _ _ _, by simp, P.rest, P.rest.holds hI, fun h => absurd rfl h, by simp [cbData], by simp [cbData], le_rfl,
      by dsimp only; omega, by simp [outputs], P.hud, rfl, rfl⟩
  have hend := whileM_partial (fun s => ∃ ps qs p U, PullLoop x ch cnt addr cb ud bi bo st0 ps0 qs0 U0 c0 m0 ratio frames data s ps qs p U)
    (fun s => s.err ≠ 0 ∨ ∃ ps qs p U, PullLoop x ch cnt addr cb ud bi bo st0 ps0 qs0 U0 c0 m0 ratio frames data s ps qs p U)
    (fun s hI b s' hs => by
      rcases cbStep_pull hL hc h0 hH hS hbi hbi' hb hr hf hbo hI hs with ⟨h1, h2⟩ | h1
      · exact ⟨fun h => (by rw [h2] at h; cases h), fun _ => Or.inl h1⟩
      · exact ⟨fun _ => h1, fun _ => Or.inr h1⟩) _ _ _ ⟨_, _, _, _, I0⟩ hw
  split at h
  · rename_i he'
    have h := ok_inj h; simp only [Prod.mk.injEq] at h
    obtain ⟨rfl, rfl, rfl, rfl⟩ := h
    exact absurd he he'
  · rename_i he'
    have h := ok_inj h; simp only [Prod.mk.injEq] at h
    obtain ⟨rfl, rfl, rfl, rfl⟩ := h
    rcases hend with hend | ⟨ps, qs, p', U, I⟩
    · exact absurd hend he'
    · exact ⟨_, ps, qs, p', U, rfl, ⟨I.back.error _ _ _, I.rest, I.hud⟩, I.sess, I.within, I.outs.symm⟩

theorem setRatio_data {st st' : SrcState} {r : F64} {o : Obs} (h : (Op.setRatio r).run st = .ok (o, st')) : o.data = none := by
  simp only [Op.run, srcSetRatio] at h
  split at h
  · have h := ok_inj h; simp only [Option.getD_some, Prod.mk.injEq] at h
    obtain ⟨rfl, rfl⟩ := h
    rfl
  · have h := ok_inj h; simp only [Option.getD_some, Prod.mk.injEq] at h
    obtain ⟨rfl, rfl⟩ := h
    rfl

/-- Every history of reads without error is explained by a history of `src_process` calls. -/
theorem history_pull (hL : LibraryTables cfg) (hc : ch ≤ 8355967) (h0 : srcNew cfg type ch = .ok (e0, some st0))
    (hbi : 0 ≤ bi) (hbi' : bi ≤ 2 ^ 52) (hb : ∀ i, samples ch (cnt i) ≤ bi) (hbo : bo ≤ 2 ^ 52) {c : ℕ} {ops : List Op} {os : List Obs}
    (hP : Pulls x ch cnt addr c ops os) : ∀ {st st1 p : SrcState} {ps0 : List Op} {qs0 : List Obs} {U : ℕ},
      Pulled ch cnt addr st0 ud ps0 qs0 st p U c → (∀ op ∈ ops, SizedRead ch bo op) → run ops st = .ok (os, st1) →
      ∃ ps qs p' V c', Pulled ch cnt addr st0 ud (ps0 ++ ps) (qs0 ++ qs) st1 p' V c' ∧ Explained x ch cnt ud U c ops os ps qs V c' ∧
        ∀ q ∈ ps, (∃ r, CallWithin ch bi bo r q) ∨ ∃ r, q = .setRatio r := by
  induction hP with
  | nil c =>
    intro st st1 p ps0 qs0 U P _ h
    have h := ok_inj h; simp only [Prod.mk.injEq] at h
    obtain ⟨_, rfl⟩ := h
    exact ⟨[], [], p, U, c, by simpa using P, .nil _ _, by simp⟩
  | read c cb dummy fuel m ratio frames data o ops os hH hS hI he _ ih =>
    intro st st1 p ps0 qs0 U P hO h
    obtain ⟨⟨o1, s1⟩, h1, h⟩ := bind_ok h
    obtain ⟨⟨os', s2⟩, h2, h⟩ := bind_ok h
    have h := ok_inj h; simp only [Prod.mk.injEq, List.cons.injEq] at h
    obtain ⟨⟨rfl, rfl⟩, rfl⟩ := h
    obtain ⟨⟨n, m', s3, k⟩, h3, h1⟩ := bind_ok h1
    have h1 := ok_inj h1; simp only [Prod.mk.injEq] at h1
    obtain ⟨rfl, rfl⟩ := h1
    have hsz := hO _ (List.mem_cons_self)
    obtain ⟨s', ps, qs, p', U', rfl, P', S, hw, hout⟩ := read_pull hL hc h0 hH hS hbi hbi' hb hsz.1 hsz.2 hbo P hI h3 he
    obtain ⟨ps', qs', p'', V, c', P'', E, hw'⟩ := ih P' (fun op h => hO op (by simp [h])) h2
    refine ⟨ps ++ ps', qs ++ qs', p'', V, c', by rw [← List.append_assoc, ← List.append_assoc]; exact P'', ?_, ?_⟩
    · refine .read U c cb dummy fuel m m' ratio frames data _ ops _ ps qs U' ps' qs' V c' S rfl hout ?_ E
      rintro q hq m d rfl
      obtain ⟨m1, d1, e1, e2, _⟩ := hw _ hq
      cases e1
      exact e2
    · intro q hq
      rcases List.mem_append.1 hq with hq | hq
      · exact Or.inl ⟨_, hw q hq⟩
      · exact hw' q hq
  | setRatio c r o ops os _ ih =>
    intro st st1 p ps0 qs0 U P hO h
    obtain ⟨⟨o1, s1⟩, h1, h⟩ := bind_ok h
    obtain ⟨⟨os', s2⟩, h2, h⟩ := bind_ok h
    have h := ok_inj h; simp only [Prod.mk.injEq, List.cons.injEq] at h
    obtain ⟨⟨rfl, rfl⟩, rfl⟩ := h
    obtain ⟨o', p1, hp1, B', e1, e2⟩ := P.back.setRatio h0 (hO _ (List.mem_cons_self)) h1
    have hud : s1.userData = ud := by
      rw [← P.hud]
      simp only [Op.run, srcSetRatio] at h1
      split at h1
      · have h1 := ok_inj h1; simp only [Option.getD_some, Prod.mk.injEq] at h1
        rw [← h1.2]
      · have h1 := ok_inj h1; simp only [Option.getD_some, Prod.mk.injEq] at h1
        rw [← h1.2]
    obtain ⟨ps', qs', p'', V, c', P'', E, hw'⟩ := ih ⟨B', by rw [e1, e2]; exact P.rest, hud⟩ (fun op h => hO op (by simp [h])) h2
    refine ⟨.setRatio r :: ps', o' :: qs', p'', V, c', ?_, .setRatio _ _ _ _ _ _ _ _ _ _ _ (setRatio_data hp1) E, ?_⟩
    · simpa [List.append_assoc] using P''
    · intro q hq
      rcases List.mem_cons.1 hq with rfl | hq
      · exact Or.inr ⟨_, rfl⟩
      · exact hw' q hq

theorem callback_pulled (h0 : srcNew cfg type ch = .ok (e0, some st0)) (func : Option ℕ) (ud : ℕ) :
    Pulled ch cnt addr st0 ud [] [] { st0 with mode := .callback, callbackFunc := func, userData := ud } st0 0 0 := by
  refine ⟨callback_backed h0 func ud, ?_, rfl⟩
  have : st0.savedFrames = 0 := by rw [← new_reset h0]; rfl
  dsimp only
  rw [this]
  exact ⟨le_rfl, rfl, fun h => absurd h (lt_irrefl _)⟩

/-- An explanation delivers the same frames. -/
theorem explained_outputs {U c V c' : ℕ} {ops ps : List Op} {os qs : List Obs} (hE : Explained x ch cnt ud U c ops os ps qs V c') :
    pulled ch ops os = outputs ch qs := by
  induction hE with
  | nil => rfl
  | read U c cb dummy fuel m m' ratio frames data o ops os ps qs U' ps' qs' V c' S e1 e2 _ _ ih =>
    rw [outputs_append, ← ih, ← e2]; rfl
  | setRatio U c r o o' ops os ps qs V c' e _ ih =>
    show pulled ch ops os = outputs ch ([o'] ++ qs)
    rw [outputs_append, ← ih]
    simp [outputs, outOf, e]

/-- The calls of a session feed the stream. -/
theorem session_fed {U c V c' W : ℕ} {m m' : Mem} {ps ps' : List Op} {qs qs' : List Obs} (h : Session x ch cnt cb ud U c m ps qs V c' m')
    (h' : Fed x ch V ps' qs' W) : Fed x ch U (ps ++ ps') (qs ++ qs') W := by
  induction h with
  | done => exact h'
  | fetch _ _ _ _ _ _ _ _ _ _ ih => exact ih h'
  | call U c m d d' o m1 ops os V c1 m2 e1 e2 e3 e4 e5 e6 _ ih => exact .call _ _ _ _ _ _ _ _ e1 e4 e5 (ih h')

theorem session_fedTo {len : Option ℕ} (hE : EndsFor cnt len) {U c V c' W : ℕ} {m m' : Mem} {ps ps' : List Op} {qs qs' : List Obs}
    (h : Session x ch cnt cb ud U c m ps qs V c' m') (h' : FedTo x ch len V ps' qs' W) : FedTo x ch len U (ps ++ ps') (qs ++ qs') W := by
  induction h with
  | done => exact h'
  | fetch _ _ _ _ _ _ _ _ _ _ ih => exact ih h'
  | call U c m d d' o m1 ops os V c1 m2 e1 e2 e3 e4 e5 e6 _ ih =>
    refine .call _ _ _ _ _ _ _ _ e1 (fun h => ?_) e4 e5 (ih h')
    obtain ⟨i, hi, hz⟩ := e3 h
    rw [e2]
    exact hE i hz c hi.le

theorem explained_fed {U c V c' : ℕ} {ops ps : List Op} {os qs : List Obs} (hE : Explained x ch cnt ud U c ops os ps qs V c') :
    Fed x ch U ps qs V := by
  induction hE with
  | nil => exact .nil _
  | read U c cb dummy fuel m m' ratio frames data o ops os ps qs U' ps' qs' V c' S e1 e2 _ _ ih => exact session_fed S ih
  | setRatio U c r o o' ops os ps qs V c' e _ ih => exact .setRatio _ _ _ _ _ _ ih

theorem explained_fedTo {len : Option ℕ} (hlen : EndsFor cnt len) {U c V c' : ℕ} {ops ps : List Op} {os qs : List Obs}
    (hE : Explained x ch cnt ud U c ops os ps qs V c') : FedTo x ch len U ps qs V := by
  induction hE with
  | nil => exact .nil _
  | read U c cb dummy fuel m m' ratio frames data o ops os ps qs U' ps' qs' V c' S e1 e2 _ _ ih => exact session_fedTo hlen S ih
  | setRatio U c r o o' ops os ps qs V c' e _ ih => exact .setRatio _ _ _ _ _ _ ih

theorem session_calls {U c V c' : ℕ} {m m' : Mem} {ps : List Op} {qs : List Obs} (h : Session x ch cnt cb ud U c m ps qs V c' m') :
    ∀ p ∈ ps, ∃ m d, p = .process m (some d) := by
  induction h with
  | done => simp
  | fetch _ _ _ _ _ _ _ _ _ _ ih => exact ih
  | call U c m d d' o m1 ops os V c1 m2 e1 e2 e3 e4 e5 e6 _ ih =>
    intro p hp
    rcases List.mem_cons.1 hp with rfl | hp
    · exact ⟨_, _, rfl⟩
    · exact ih p hp

theorem explained_ratio {r : ℚ} {U c V c' : ℕ} {ops ps : List Op} {os qs : List Obs} (hE : Explained x ch cnt ud U c ops os ps qs V c')
    (hR : ∀ op ∈ ops, ReadsAt r op) : ∀ p ∈ ps, AtRatio r p := by
  induction hE with
  | nil => simp
  | read U c cb dummy fuel m m' ratio frames data o ops os ps qs U' ps' qs' V c' S e1 e2 e3 _ ih =>
    intro p hp
    rcases List.mem_append.1 hp with hp | hp
    · obtain ⟨m, d, rfl⟩ := session_calls S p hp
      show d.srcRatio.val = some r
      rw [e3 _ hp m d rfl]
      exact hR _ List.mem_cons_self
    · exact ih (fun op h => hR op (by simp [h])) p hp
  | setRatio U c r' o o' ops os ps qs V c' e _ ih =>
    intro p hp
    rcases List.mem_cons.1 hp with rfl | hp
    · exact hR _ List.mem_cons_self
    · exact ih (fun op h => hR op (by simp [h])) p hp

end

end Verif
