import Verif.Proof.CallbackCount
import Verif.Proof.SincFuel

/-! `src_callback_read` returns (C39). -/

namespace Verif
open Spec

theorem cbStep_noFuel {cb : Callback} {dummy frames : ℤ} {s : CbSt}
    (h : NoFuel (srcProcess (cbFetch cb dummy s).mem (some { s.st with mode := .process }) (some (cbFetch cb dummy s).d))) :
    NoFuel (cbStep cb dummy frames s) := by
  have hst : (cbFetch cb dummy s).st = s.st := by unfold cbFetch; split_ifs <;> rfl
  unfold cbStep
  split
  · exact .pure _
  dsimp only
  rw [hst]
  refine h.bind fun ⟨e, mem, st, d⟩ _ => ?_
  dsimp only
  split
  · exact .pure _
  exact (noFuel_chkI64 _).bind fun _ _ => (noFuel_chkI64 _).bind fun _ _ => .pure _

/-- A loop that generates a frame or decreases `V` in every iteration ends. -/
theorem cbLoop_noFuel {cb : Callback} {dummy frames : ℤ} (I : CbSt → Prop) (V : CbSt → ℕ) (C : ℕ) (hV : ∀ s, V s ≤ C)
    (hstep : ∀ s, I s → NoFuel (cbStep cb dummy frames s) ∧ ∀ s', cbStep cb dummy frames s = .ok (true, s') →
      I s' ∧ s'.gen ≤ frames ∧ (s.gen < s'.gen ∨ (s'.gen = s.gen ∧ V s' < V s)))
    (s : CbSt) (hI : I s) (h0 : 0 ≤ s.gen) {fuel : ℕ} (hf : (frames.toNat + 1) * (C + 1) ≤ fuel) :
    NoFuel (whileM (cbStep cb dummy frames) fuel s) := by
  refine whileM_noFuel I (fun s => (frames - s.gen).toNat * (C + 1) + V s) (fun s hs => ⟨(hstep s hs).1, fun s' h' => ?_⟩) _ _ hI ?_
  · obtain ⟨h1, h2, h3⟩ := (hstep s hs).2 s' h'
    refine ⟨h1, ?_⟩
    rcases h3 with h3 | ⟨h3, h4⟩
    · have e : (frames - s'.gen).toNat + 1 ≤ (frames - s.gen).toNat := by omega
      have := Nat.mul_le_mul_right (C + 1) e
      have := hV s'
      have e2 : ((frames - s'.gen).toNat + 1) * (C + 1) = (frames - s'.gen).toNat * (C + 1) + (C + 1) := by ring
      omega
    · rw [h3]; omega
  · have := hV s
    have e : (frames - s.gen).toNat ≤ frames.toNat := by omega
    have := Nat.mul_le_mul_right (C + 1) e
    have e2 : (frames.toNat + 1) * (C + 1) = frames.toNat * (C + 1) + (C + 1) := by ring
    omega

/-- The whole call, if its loop ends. -/
theorem read_noFuel {cb : Callback} {dummy frames data : ℤ} {fuel calls : ℕ} {m : Mem} {st : SrcState} {ratio : F64}
    (h : 0 < frames → st.mode = .callback → isBadSrcRatio ratio = false → NoFuel (whileM (cbStep cb dummy frames) fuel
      { st := st, mem := m, d := cbData st ratio frames data, gen := 0, calls, err := 0 })) :
    NoFuel (srcCallbackRead cb dummy fuel calls m (some st) ratio frames data) := by
  unfold srcCallbackRead
  dsimp only
  split
  · exact .pure _
  rename_i hf
  split
  · exact .pure _
  rename_i hm
  split
  · exact .pure _
  split
  · exact .pure _
  rename_i hb
  refine (h (by omega) (not_not.1 hm) (by simpa using hb)).bind fun r _ => ?_
  split <;> exact .pure _

/-! ### zero order hold and linear -/

section
variable {K : Kind} {st st' : SrcState} {d d' : SrcData} {ch : ℕ} {p l : ℚ} {before : Option (List F32)} {m m' : Mem}

theorem View.alike (V : View K st ch p l before) (h : Alike st st') : View K st' ch p l before := by
  obtain ⟨h1, h2, h3, h4, h5⟩ := alike_iff.1 h
  exact ⟨h1.trans V.hvt, h4.trans V.hch, V.hch1, V.hchM, by rw [h3]; exact V.hpos, V.hp0, V.hp1, by rw [h2]; exact V.hl, V.vl,
    by rw [h5]; exact V.hpriv⟩

/-- A call that has input and room for output makes output, or moves the read position down. -/
theorem interp_progress (V : View K st ch p l before) (hmode : st.mode = .process) (hO : Ordinary 1 ch d)
    (h : srcProcess m (some st) (some d) = .ok (0, m', some st', some d')) (hin : 0 < d.inputFrames) (hout : 0 < d.outputFrames) :
    0 < d'.outputFramesGen ∨ (d'.outputFramesGen = 0 ∧ ∃ p', st'.lastPosition.val = some p' ∧ ⌊p'⌋.toNat < ⌊p⌋.toNat) := by
  rcases ordinary_cases V.hch hmode hO with ⟨e, hf⟩ | ⟨_, _, _, t, g⟩
  · exfalso
    have b1 := hO.inSize
    have b2 := hO.outSize
    obtain ⟨x, hx⟩ := process_rejects (m := m) hf (by
        rintro s y h1 h2; cases h1; cases h2
        rw [V.hch]
        exact ⟨by positivity, by omega, by omega⟩)
    rw [h] at hx
    have hx := ok_inj hx
    simp only [Prod.mk.injEq] at hx
    have ha := firstFailing_arg hf
    rw [← hx.1] at ha
    unfold ArgError at ha
    omega
  obtain ⟨gen, s, h1, h2, h3, h4, h5, h6⟩ := call_spec (m := m) V hmode g (by omega) (Or.inr ⟨_, h⟩)
  rw [h] at h1
  have h1 := ok_inj h1
  simp only [Prod.mk.injEq, Option.some.injEq, true_and] at h1
  obtain ⟨-, _, rfl, rfl⟩ := h1
  rcases Nat.eq_zero_or_pos gen with h0 | h0
  swap
  · exact Or.inl (by simp only [callData]; omega)
  subst h0
  right
  refine ⟨rfl, _, h5.hpos, ?_⟩
  have hc := h4 (by omega)
  have e0 : callPos ch d.outputFrames.toNat p l t 0 = Pos.ofQ p := rfl
  rw [e0] at hc ⊢
  have hfr := ofQ_frac p
  have hk : (Pos.ofQ p).k = ⌊p⌋.toNat := rfl
  have hk1 : 1 ≤ (Pos.ofQ p).k := by
    by_contra hh
    exact hc (Or.inl (by omega))
  rw [Int.floor_add_natCast, Int.floor_eq_zero_iff.2 ⟨hfr.1, hfr.2⟩, zero_add, Int.toNat_natCast, ← hk]
  omega

end

/-- Whole part of the read position, at most 257. -/
def posWhole (s : CbSt) : ℕ :=
  match s.st.lastPosition.val with
  | some q => min ⌊q⌋.toNat 257
  | none => 0

section
variable {cfg : Config} {type e0 : ℤ} {ch : ℕ} {st0 : SrcState} {cb : Callback} {ud calls : ℕ} {ratio : F64} {frames dummy : ℤ}

theorem backed_view {K : Kind} {st p : SrcState} {ps : List Op} {qs : List Obs} (hk : type = K.type) (hc : ch ≤ 8355967)
    (h0 : srcNew cfg type ch = .ok (e0, some st0)) (B : Backed ch st0 ps qs st p) : ∃ p l before, View K st ch p l before := by
  obtain ⟨V0, hm, _⟩ := new_view (K := K) h0 (by rw [hk]; cases K <;> rfl) (by exact_mod_cast hc)
  rw [Int.toNat_natCast] at V0
  obtain ⟨os, s, hr, _, ⟨q, l, b, V⟩, _⟩ := history_core ps ⟨_, _, _, V0⟩ hm B.ord (Or.inr ⟨_, B.run⟩)
  rw [B.run] at hr
  have hr := ok_inj hr
  simp only [Prod.mk.injEq] at hr
  obtain ⟨_, rfl⟩ := hr
  exact ⟨q, l, b, V.alike B.alike⟩

theorem cbStep_interp {K : Kind} (hk : type = K.type) (hL : LibraryTables cfg) (hc : ch ≤ 8355967) (h0 : srcNew cfg type ch = .ok (e0, some st0))
    (hcb : ∀ ud c m, samples ch (cb ud c m).1 ≤ 2 ^ 52) (hcb0 : ∀ ud c m, 0 ≤ (cb ud c m).1) (hr : ratio ≠ .nan)
    (hf : samples ch frames ≤ 2 ^ 52) {s : CbSt} (H : HeldLoop ch st0 cb ud calls ratio frames s) (hin : 0 ≤ s.d.inputFrames) :
    NoFuel (cbStep cb dummy frames s) ∧ ∀ s', cbStep cb dummy frames s = .ok (true, s') →
      (HeldLoop ch st0 cb ud calls ratio frames s' ∧ 0 ≤ s'.d.inputFrames) ∧ s'.gen ≤ frames ∧
      (s.gen < s'.gen ∨ (s'.gen = s.gen ∧ posWhole s' < posWhole s)) := by
  obtain ⟨ps, qs, p, B⟩ := H.back
  obtain ⟨q, l, bf, V⟩ := backed_view hk hc h0 B
  have V' : View K { s.st with mode := .process } ch q l bf := V.alike (alike_iff.2 ⟨rfl, rfl, rfl, rfl, rfl⟩)
  refine ⟨cbStep_noFuel (process_noFuel ?_ ?_), fun s' h => ?_⟩
  · have := V'.hvt
    cases K
    · exact Or.inl this
    · exact Or.inr this
  · rw [V'.hch]; exact_mod_cast V.hch1
  have H' := (cbStep_held hL hc h0 hcb hr hf H h).1 rfl
  have F := cbFetch_held (dummy := dummy) hcb H
  have hsz : samples ch (cbFetch cb dummy s).d.outputFrames ≤ 2 ^ 52 :=
    le_trans (samples_mono (by rw [F.room]; have := F.gen0; omega)) hf
  have hO : Ordinary 1 ch (cbFetch cb dummy s).d := ordinary_of (by rw [F.hrat]; exact hr) F.insize hsz
  have hgenf : (cbFetch cb dummy s).gen = s.gen := by unfold cbFetch; split_ifs <;> rfl
  have hin0 : 0 ≤ (cbFetch cb dummy s).d.inputFrames ∧ ((cbFetch cb dummy s).d.inputFrames = 0 → (cbFetch cb dummy s).d.endOfInput = 1) := by
    unfold cbFetch
    split_ifs with h1
    · refine ⟨hcb0 _ _ _, fun h => ?_⟩
      dsimp only at h ⊢
      rw [if_pos h]
    · exact ⟨hin, fun h => absurd h h1⟩
  rcases cbStep_inv h with ⟨_, hb, _⟩ | ⟨hg, e, mem, st, d, hp, hcase⟩
  · cases hb
  rcases hcase with ⟨_, hb, _⟩ | ⟨rfl, hb, c1, c2, c3, c4, c5, c6⟩
  · cases hb
  obtain ⟨o, p', B', _, _, _, _, hok⟩ := B.step hL hc h0 hO hp
  obtain ⟨hA, _, hK, _⟩ := hok rfl
  refine ⟨⟨H', ?_⟩, H'.gen1, ?_⟩
  · rw [c4]
    dsimp only
    have := hA.used1
    rw [hK.inputFrames]; omega
  by_cases hz : d.outputFramesGen = 0
  swap
  · left; rw [c5]; have := hA.gen0; omega
  have hne : ¬ d.endOfInput = 1 := fun h => (of_decide_eq_true hb.symm) ⟨h, hz⟩
  rw [hK.endOfInput] at hne
  have hpos : 0 < (cbFetch cb dummy s).d.inputFrames := by
    by_contra hh
    exact hne (hin0.2 (by omega))
  have hroom : 0 < (cbFetch cb dummy s).d.outputFrames := by rw [F.room, hgenf]; omega
  right
  refine ⟨by rw [c5, hz, add_zero], ?_⟩
  rcases interp_progress V' rfl hO hp hpos hroom with h1 | ⟨_, p1, h2, h3⟩
  · omega
  · have a1 : posWhole s' = min ⌊p1⌋.toNat 257 := by
      unfold posWhole
      rw [c3]
      dsimp only
      rw [h2]
    have a2 : posWhole s = ⌊q⌋.toNat := by
      unfold posWhole
      rw [V.hpos]
      dsimp only
      have : ⌊q⌋ ≤ 257 := Int.floor_le_iff.2 (by have := V.hp1; push_cast; linarith)
      omega
    omega

/-- `src_callback_read` on a zero order hold or linear handle. -/
theorem read_interp {K : Kind} (hk : type = K.type) (hL : LibraryTables cfg) (hc : ch ≤ 8355967) (h0 : srcNew cfg type ch = .ok (e0, some st0))
    (hcb : ∀ ud c m, samples ch (cb ud c m).1 ≤ 2 ^ 52) (hcb0 : ∀ ud c m, 0 ≤ (cb ud c m).1) (hr : ratio ≠ .nan)
    (hf : samples ch frames ≤ 2 ^ 52) {st : SrcState} (H : Held ch st0 st) (hs : 0 ≤ st.savedFrames) {m : Mem} {data : ℤ} {fuel : ℕ}
    (hfu : (frames.toNat + 1) * 258 ≤ fuel) : NoFuel (srcCallbackRead cb dummy fuel calls m (some st) ratio frames data) := by
  refine read_noFuel fun hf0 _ _ => ?_
  refine cbLoop_noFuel (fun s => HeldLoop ch st0 cb st.userData calls ratio frames s ∧ 0 ≤ s.d.inputFrames) posWhole 257 ?_ ?_ _ ⟨?_, hs⟩ le_rfl hfu
  · intro s
    unfold posWhole
    split
    · exact min_le_right _ _
    · omega
  · rintro s ⟨a, b⟩
    exact cbStep_interp hk hL hc h0 hcb hcb0 hr hf a b
  · exact ⟨H.back, H.saved, rfl, rfl, le_rfl, by dsimp only; omega, by simp [cbData], le_rfl, fun h => by simp [cbData] at h, rfl⟩

end

/-! ### the saved count is not negative -/

section
variable {cfg : Config} {type e0 : ℤ} {ch : ℕ} {st0 : SrcState} {cb : Callback} {ud calls : ℕ} {ratio : F64} {frames dummy : ℤ}

theorem cbStep_nonneg (hL : LibraryTables cfg) (hc : ch ≤ 8355967) (h0 : srcNew cfg type ch = .ok (e0, some st0))
    (hcb : ∀ ud c m, samples ch (cb ud c m).1 ≤ 2 ^ 52) (hcb0 : NonnegCounts cb) (hr : ratio ≠ .nan)
    (hf : samples ch frames ≤ 2 ^ 52) {s : CbSt} (H : HeldLoop ch st0 cb ud calls ratio frames s) (hin : 0 ≤ s.d.inputFrames) {s' : CbSt} {b : Bool}
    (h : cbStep cb dummy frames s = .ok (b, s')) : 0 ≤ s'.d.inputFrames := by
  have F := cbFetch_held (dummy := dummy) hcb H
  have hin0 : 0 ≤ (cbFetch cb dummy s).d.inputFrames := by
    unfold cbFetch
    split_ifs with h1
    · exact hcb0 _ _ _
    · exact hin
  rcases cbStep_inv h with ⟨_, _, rfl⟩ | ⟨hg, e, mem, st, d, hp, hcase⟩
  · exact hin
  rcases hcase with ⟨_, hb, c1, c2, c3, c4, c5, c6⟩ | ⟨rfl, hb, c1, c2, c3, c4, c5, c6⟩
  · rw [c4]
    rcases process_keeps_in hp with h | h <;> rw [h]
    · exact hin0
    · exact le_max_right _ _
  · obtain ⟨ps, qs, p, B⟩ := H.back
    have hsz : samples ch (cbFetch cb dummy s).d.outputFrames ≤ 2 ^ 52 :=
      le_trans (samples_mono (by rw [F.room]; have := F.gen0; omega)) hf
    have hO : Ordinary 1 ch (cbFetch cb dummy s).d := ordinary_of (by rw [F.hrat]; exact hr) F.insize hsz
    obtain ⟨o, p', B', _, _, _, _, hok⟩ := B.step hL hc h0 hO hp
    obtain ⟨hA, _, hK, _⟩ := hok rfl
    rw [c4]
    dsimp only
    have := hA.used1
    rw [hK.inputFrames]; omega

theorem read_nonneg (hL : LibraryTables cfg) (hc : ch ≤ 8355967) (h0 : srcNew cfg type ch = .ok (e0, some st0))
    (hcb : ∀ ud c m, samples ch (cb ud c m).1 ≤ 2 ^ 52) (hcb0 : NonnegCounts cb) (hr : ratio ≠ .nan)
    (hf : samples ch frames ≤ 2 ^ 52) {st : SrcState} (H : Held ch st0 st) (hs : 0 ≤ st.savedFrames) {fuel : ℕ} {m m' : Mem} {data n : ℤ}
    {st' : SrcState} {k : ℕ} (h : srcCallbackRead cb dummy fuel calls m (some st) ratio frames data = .ok (n, m', some st', k)) :
    0 ≤ st'.savedFrames := by
  unfold srcCallbackRead at h
  dsimp only at h
  iterate 4
    split at h
    · have h := ok_inj h; simp only [Prod.mk.injEq, Option.some.injEq] at h
      rw [← h.2.2.1]; exact hs
  rename_i hfr _ _ _
  obtain ⟨r, hw, h⟩ := bind_ok h
  have I0 : HeldLoop ch st0 cb st.userData calls ratio frames { st := st, mem := m, d := cbData st ratio frames data, gen := 0, calls, err := 0 } :=
    ⟨H.back, H.saved, rfl, rfl, le_rfl, by dsimp only; omega, by simp [cbData], le_rfl, fun h => by simp [cbData] at h, rfl⟩
  have hend := whileM_partial (fun s => HeldLoop ch st0 cb st.userData calls ratio frames s ∧ 0 ≤ s.d.inputFrames)
    (fun s => 0 ≤ s.d.inputFrames) (fun s hI b s' hs =>
      ⟨fun hb => ⟨(cbStep_held hL hc h0 hcb hr hf hI.1 hs).1 hb, cbStep_nonneg hL hc h0 hcb hcb0 hr hf hI.1 hI.2 hs⟩,
        fun _ => cbStep_nonneg hL hc h0 hcb hcb0 hr hf hI.1 hI.2 hs⟩) _ _ _ ⟨I0, hs⟩ hw
  split at h
  all_goals
    have h := ok_inj h; simp only [Prod.mk.injEq, Option.some.injEq] at h
    rw [← h.2.2.1]; exact hend

theorem history_nonneg (hL : LibraryTables cfg) (hc : ch ≤ 8355967) (h0 : srcNew cfg type ch = .ok (e0, some st0)) {stc : SrcState} (hm : stc.mode = .callback) :
    ∀ (ops : List Op) {st st' : SrcState} {os : List Obs}, Held ch st0 st → Like stc st → 0 ≤ st.savedFrames →
      (∀ op ∈ ops, OrdinaryPull ch op ∧ NonnegPull op) → run ops st = .ok (os, st') → Held ch st0 st' ∧ 0 ≤ st'.savedFrames := by
  intro ops
  induction ops with
  | nil =>
    intro st st' os H _ hs _ h
    have h := ok_inj h; simp only [Prod.mk.injEq] at h
    obtain ⟨rfl, rfl⟩ := h
    exact ⟨H, hs⟩
  | cons op ops ih =>
    intro st st' os H L hs hO h
    obtain ⟨⟨o, s1⟩, h1, h⟩ := bind_ok h
    obtain ⟨⟨os', s2⟩, h2, h⟩ := bind_ok h
    have h := ok_inj h; simp only [Prod.mk.injEq] at h
    obtain ⟨rfl, rfl⟩ := h
    have H1 := (op_held hL hc h0 H (L.mode.trans hm) (hO op (by simp)).1 h1).1
    refine ih H1 (op_like L h1) ?_ (fun o ho => hO o (by simp [ho])) h2
    obtain ⟨hO1, hN⟩ := hO op (by simp)
    have hmm := L.mode.trans hm
    cases op with
    | process m d =>
      simp only [Op.run, srcProcess] at h1
      rw [if_pos (by rw [hmm]; decide)] at h1
      have h1 := ok_inj h1; simp only [Prod.mk.injEq] at h1
      rw [← h1.2]
      exact hs
    | read cb dummy fuel calls m ratio frames data =>
      obtain ⟨⟨n, m', s1, k⟩, h1, h⟩ := bind_ok h1
      obtain ⟨s', rfl, _⟩ := read_held hL hc h0 hO1.2.2 hO1.1 hO1.2.1 H h1
      have := read_nonneg hL hc h0 hO1.2.2 hN hO1.1 hO1.2.1 H hs h1
      have h := ok_inj h; simp only [Prod.mk.injEq] at h
      rw [← h.2]; exact this
    | setRatio r =>
      obtain ⟨⟨ps, qs, p, B⟩, _⟩ := id H
      obtain ⟨o', p', _, B', e1, _⟩ := B.setRatio h0 hO1 h1
      rw [e1]; exact hs
    | reset =>
      have h := ok_inj h1; simp only [Prod.mk.injEq] at h
      obtain ⟨_, rfl⟩ := h
      exact le_rfl

end
end Verif
