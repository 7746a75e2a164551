import Verif.Proof.Loops

/-! The interpolating converters' process function as a whole. -/

namespace Verif
open Spec

/-- The `ch` samples starting at address `a`. -/
def frameList (m : Mem) (a : ℤ) (ch : ℕ) : List F32 := (List.range ch).map fun (c : ℕ) => m (a + (c : ℤ))

@[simp] theorem frameList_length (m : Mem) (a : ℤ) (ch : ℕ) : (frameList m a ch).length = ch := by simp [frameList]

theorem frameList_get {m : Mem} {a : ℤ} {ch c : ℕ} (h : c < ch) : (frameList m a ch)[c]? = some (m (a + c)) := by
  simp [frameList, h]

theorem frameList_congr {m m' : Mem} {a : ℤ} {ch : ℕ} (h : ∀ c < ch, m (a + (c : ℤ)) = m' (a + (c : ℤ))) :
    frameList m a ch = frameList m' a ch := by
  unfold frameList
  apply List.map_congr_left
  intro c hc
  exact h c (List.mem_range.1 hc)

theorem loadLast_spec {m : Mem} {d : SrcData} {ch : ℕ} {base : ℤ} {lv : List F32} (hin : d.dataIn ≠ 0)
    (hlen : lv.length = ch) (h0 : 0 ≤ base) (h1 : base + ch ≤ d.inputFrames * ch) :
    loadLast m d ch base lv = .ok (frameList m (d.dataIn + base) ch) := by
  have key : ∃ s', forM' ch (fun c lv => do
      let v ← rdIn m d ch (base + c)
      wrLast lv c v) lv = .ok s' ∧ (s'.length = ch ∧ ∀ c < ch, s'[c]? = some (m (d.dataIn + base + c))) := by
    refine forM'_spec (fun i s => s.length = ch ∧ ∀ c < i, s[c]? = some (m (d.dataIn + base + c))) ch ?_ lv
      ⟨hlen, by simp⟩
    rintro i hi s ⟨hl, hs⟩
    refine ⟨s.set i (m (d.dataIn + base + i)), ?_, by simpa using hl, ?_⟩
    · have : rdIn m d ch (base + i) = .ok (m (d.dataIn + base + i)) := by
        unfold rdIn
        rw [if_neg hin, if_pos (by constructor <;> omega), add_assoc]
        rfl
      rw [this]
      show wrLast s i _ = _
      unfold wrLast
      rw [if_pos (by omega)]
      rfl
    · intro c hc
      by_cases h : c = i
      · subst h; simp [hl, hi]
      · rw [List.getElem?_set_ne (by omega)]; exact hs c (by omega)
  obtain ⟨s', h1, h2, h3⟩ := key
  unfold loadLast
  rw [Int.toNat_natCast, h1]
  congr 1
  apply List.ext_getElem?
  intro c
  by_cases hc : c < ch
  · rw [h3 c hc, frameList_get hc]
  · rw [List.getElem?_eq_none (by omega), List.getElem?_eq_none (by simp; omega)]

/-- `last_value` as the process function sees it: the stored one, or the first input frame on the first call. -/
def startLast (m : Mem) (d : SrcData) (ch : ℕ) (z : InterpData) : List F32 :=
  if z.dirty then z.lastValue else frameList m d.dataIn ch

/-- Result of the process function after `g` frames. -/
def bodyResult (wrap : InterpData → Priv) (m : Mem) (st : SrcState) (d : SrcData) (z : InterpData) (ch n o : ℕ)
    (P : ℕ → Pos) (em : Pos → ℕ → F32) (g : ℕ) (pos ratio : F64) : ProcRes :=
  let used := min (P g).k n
  { err := Err.NO_ERROR
    mem := m.setRange d.dataOut (ch * g) (outSamples ch P em)
    st := { st with lastPosition := pos, lastRatio := ratio,
                    priv := wrap { dirty := true, inCount := ((ch * n : ℕ) : ℤ), inUsed := ((ch * used : ℕ) : ℤ),
                                   outCount := ((ch * o : ℕ) : ℤ), outGen := ((ch * g : ℕ) : ℤ),
                                   lastValue := if used = 0 then startLast m d ch z
                                     else frameList m (d.dataIn + ((ch * (used - 1) : ℕ) : ℤ)) ch } }
    data := { d with inputFramesUsed := (used : ℤ), outputFramesGen := (g : ℤ) } }

section
variable {m : Mem} {st : SrcState} {d : SrcData} {ch n o : ℕ} {l t p : ℚ} (C : Ctx m st d ch n o l t p)
  {k : Kernel} {z : InterpData} {em : Pos → ℕ → F32} {G Dom : Pos → Prop}
  (H : KSpec k m d ch n (startLast m d ch z) em G Dom)
include C H

local notation "PP" => posOf l t p ch o

/-- The process function fails exactly if the start-up loop gives up before the first input frame has been reached; then it reads before the
input buffer. -/
theorem body_cases (wrap : InterpData → Priv) (hlen : z.lastValue.length = ch) :
    (skBody k wrap m st d z = .error .oobRead ∧ ∃ j < o, ¬ Dom (PP j)) ∨ (∀ j < o, Dom (PP j)) ∧
    ∃ g pos ratio, skBody k wrap m st d z = .ok (bodyResult wrap m st d z ch n o PP em g pos ratio) ∧
      g ≤ o ∧ (∀ j < g, Cont G (PP j)) ∧ (g < o → ¬ Cont G (PP g)) ∧
      pos.val = some ((PP g).i + (((PP g).k - min (PP g).k n : ℕ) : ℚ)) ∧
      (PP g).i + (((PP g).k - min (PP g).k n : ℕ) : ℚ) ≤ 257 ∧
      ratio.val = some (ratioAfter l t ch o g) := by
  have hpos := C.pos
  have hnb := C.hnb
  have hob := C.hob
  have hch := C.hch
  have hchz : (ch : ℤ) ≠ 0 := by omega
  -- the start
  have hlv : initLast m d st.channels z = .ok (startLast m d ch z) := by
    unfold startLast initLast
    cases z.dirty with
    | true => rfl
    | false =>
      simp only [Bool.false_eq_true, if_false]
      rw [hch, loadLast_spec C.hin hlen (le_refl _) ?_, add_zero]
      rw [C.hn]
      have : ch * 1 ≤ ch * n := Nat.mul_le_mul_left _ C.hn1
      have : ((ch * 1 : ℕ) : ℤ) ≤ ((ch * n : ℕ) : ℤ) := by exact_mod_cast this
      push_cast at this; linarith
  have hll : (startLast m d ch z).length = ch := by
    unfold startLast; split_ifs <;> simp [hlen]
  have hic : chkI64 (d.inputFrames * st.channels) = .ok ((ch * n : ℕ) : ℤ) := by
    have e : (n : ℤ) * ch = ((ch * n : ℕ) : ℤ) := by push_cast; ring
    rw [C.hn, hch, e]
    unfold chkI64
    rw [if_pos]
    · rfl
    · have : ((ch * n : ℕ) : ℤ) ≤ 2 ^ 52 := by exact_mod_cast hnb
      constructor
      · linarith [Int.natCast_nonneg (ch * n)]
      · exact this.trans (by norm_num)
  have hoc : chkI64 (d.outputFrames * st.channels) = .ok ((ch * o : ℕ) : ℤ) := by
    have e : (o : ℤ) * ch = ((ch * o : ℕ) : ℤ) := by push_cast; ring
    rw [C.ho, hch, e]
    unfold chkI64
    rw [if_pos]
    · rfl
    · have : ((ch * o : ℕ) : ℤ) ≤ 2 ^ 52 := by exact_mod_cast hob
      constructor
      · linarith [Int.natCast_nonneg (ch * o)]
      · exact this.trans (by norm_num)
  have hbad : isBadSrcRatio st.lastRatio = false := (isBad_false_iff C.hl).2 C.vl
  -- loops
  obtain ⟨s1, h1, g1, x, hS1, hu1, hx, hx0, hx1, hP1, hg1, hg0, hall, _⟩ := first_loop C H
  obtain ⟨s2, hn1, hn2, hn3, hn4, hn5, hn6⟩ := normIdx_spec hx hx0 hx1 C.hchM
  have hfuel : d.outputFrames.toNat + 1 = o + 1 := by rw [C.ho]; simp
  by_cases hfault : g1 < o ∧ x < 1
  · left
    obtain ⟨hgo, hx1'⟩ := hfault
    have hD : ¬ Dom (PP g1) := by
      rcases hg1 hgo with h | ⟨_, h⟩
      · linarith
      · exact h
    refine ⟨?_, g1, hgo, hD⟩
    have hPi : PP g1 = ⟨0, x⟩ := by rw [← hP1]; exact ofQ_lt_one hx0 hx1'
    have hfl : ⌊x⌋ = 0 := Int.floor_eq_zero_iff.2 ⟨hx0, hx1'⟩
    have hu2 : s2.inUsed = 0 := by rw [hn3, hfl, hu1]; simp
    rw [Int.fract_eq_self.2 ⟨hx0, hx1'⟩] at hn5
    obtain ⟨hgd, hmv⟩ := H.short s2 (PP g1) hD (by rw [hPi]) hu2 (by rw [hPi]; exact hn5) (by rw [hPi]; exact hx0) (by rw [hPi]; exact hx1')
    have hmain : skMain k st d ((ch * n : ℕ) : ℤ) ((ch * o : ℕ) : ℤ) s2 = .error .oobRead := by
      unfold skMain
      rw [if_neg (by
        rw [not_not, hn4, hch, hS1.hgen]
        exact ⟨by exact_mod_cast Nat.mul_lt_mul_of_pos_left hgo hpos, hgd⟩)]
      obtain ⟨c, hc⟩ : ∃ c, ch = c + 1 := ⟨ch - 1, by omega⟩
      have : ∀ (n : ℕ) (f : ℕ → Mem × ℤ → M (Mem × ℤ)) (s : Mem × ℤ), f 0 s = .error .oobRead → forM' (n + 1) f s = .error .oobRead := by
        intro n f s h
        simp only [forM', List.range_succ_eq_map, List.foldlM_cons, h]
        rfl
      have e : st.channels.toNat = c + 1 := by rw [hch]; omega
      rw [e, this]
      · rfl
      · rw [hch]
        dsimp only
        rw [hmv]
        rfl
    unfold skBody
    rw [hlv]
    simp only [bind, Except.bind]
    rw [hic]
    simp only []
    rw [hoc]
    simp only [hbad, Bool.false_eq_true, if_false]
    rw [hfuel, h1]
    simp only []
    rw [hch, hn1]
    simp only [whileM]
    rw [hmain]
    rfl
  right
  replace hg1 : g1 < o → 1 ≤ x := fun hgo => by
    by_contra hx'
    exact hfault ⟨hgo, not_le.1 hx'⟩
  refine ⟨fun j hj => ?_, ?_⟩
  · rcases lt_or_ge j g1 with h | h
    · exact (hall j h).2
    · apply H.late
      have hk : 1 ≤ (PP g1).k := by
        rw [← hP1]
        have h1 : 1 ≤ ⌊x⌋ := Int.le_floor.2 (by simpa using hg1 (by omega))
        simp only [Pos.ofQ]; omega
      exact hk.trans (posAt_mono _ _ h)
  have hS2 : St G em m d ch o l t p g1 s2 :=
    ⟨hS1.hg, by rw [hn2, hS1.hmem], by rw [hn4, hS1.hgen], by rw [hn6, hS1.hratio], hS1.hcont⟩
  have hfl0 : 0 ≤ ⌊x⌋ := Int.floor_nonneg.2 hx0
  obtain ⟨s3, h3, g, hS3, hu3, hi3, hend, hL⟩ := main_loop C H hS2
    (by rw [hn3, hu1, ← hP1]; simp [Pos.ofQ])
    (by rw [hn5, ← hP1]; rfl)
    (fun h => by
      have := hg1 h
      rw [← hP1]
      have h1 : 1 ≤ ⌊x⌋ := Int.le_floor.2 (by simpa using this)
      simp only [Pos.ofQ]; omega)
    ⟨x, 0, rep64_val hx, hx0, hx1, by rw [← hP1]; rfl, by omega, by rw [← hP1]; simp [Pos.ofQ]⟩
  obtain ⟨y, j, hyr, hy0, hy1, hyi, hj, hyk⟩ := hL
  have hyf : 0 ≤ ⌊y⌋ := Int.floor_nonneg.2 hy0
  have hyfl : (((⌊y⌋.toNat : ℕ) : ℤ) : ℚ) = (⌊y⌋ : ℚ) := by rw [Int.toNat_of_nonneg hyf]
  have hyfl' : ((⌊y⌋.toNat : ℕ) : ℚ) = (⌊y⌋ : ℚ) := by rw [← hyfl]; norm_cast
  have hsum : Int.fract y + (⌊y⌋ : ℚ) = y := Int.fract_add_floor y
  -- the end
  set K := (PP g).k with hK
  have hgt : (s3.inUsed > ((ch * n : ℕ) : ℤ)) ↔ n < K := by
    rw [hu3]
    constructor
    · intro h
      have : ch * n < ch * K := by exact_mod_cast h
      exact lt_of_mul_lt_mul_left this (Nat.zero_le _)
    · intro h
      have : ch * n < ch * K := Nat.mul_lt_mul_of_pos_left h hpos
      exact_mod_cast this
  have hfin : ∃ pos, carryIdx st.channels ((ch * n : ℕ) : ℤ) s3 = (((ch * min K n : ℕ) : ℤ), pos) ∧
      pos.val = some ((PP g).i + ((K - min K n : ℕ) : ℚ)) ∧ (PP g).i + ((K - min K n : ℕ) : ℚ) ≤ 257 := by
    unfold carryIdx
    by_cases h : n < K
    · rw [if_pos (hgt.2 h), hu3, hch, min_eq_right h.le]
      have e : (((ch * K : ℕ) : ℤ) - ((ch * n : ℕ) : ℤ)).tdiv (ch : ℤ) = ((K - n : ℕ) : ℤ) := by
        have : ((ch * K : ℕ) : ℤ) - ((ch * n : ℕ) : ℤ) = (ch : ℤ) * ((K - n : ℕ) : ℤ) := by
          rw [Nat.cast_sub h.le]; push_cast; ring
        rw [this, Int.mul_tdiv_cancel_left _ hchz]
      rw [e]
      have hKn : K - n ≤ 257 := by
        have : ⌊y⌋ ≤ 257 := by
          have : (⌊y⌋ : ℚ) ≤ 257 := (Int.floor_le y).trans hy1
          exact_mod_cast this
        omega
      have hval : (PP g).i + ((K - n : ℕ) : ℚ) = y - ((n - j : ℕ) : ℚ) := by
        rw [hyi, Nat.cast_sub h.le, Nat.cast_sub hj, hyk]
        push_cast; rw [hyfl']; linarith
      have hfr := posAt_frac (start := Pos.ofQ p) (ρ := ratioAt l t ch o) (ofQ_frac p) g
      have h0 : 0 ≤ (PP g).i + ((K - n : ℕ) : ℚ) := add_nonneg hfr.1 (by positivity)
      have hle : (PP g).i + ((K - n : ℕ) : ℚ) ≤ 257 := by
        rw [hval]; have : (0 : ℚ) ≤ ((n - j : ℕ) : ℚ) := by positivity
        linarith
      have hd : (dbl ((K - n : ℕ) : ℤ)).val = some ((K - n : ℕ) : ℚ) := by
        have := dbl_val (n := ((K - n : ℕ) : ℤ)) (by
          rw [abs_of_nonneg (by positivity)]
          have : ((K - n : ℕ) : ℤ) ≤ 257 := by exact_mod_cast hKn
          exact this.trans (by norm_num))
        rw [this]; norm_cast
      refine ⟨_, rfl, ?_, hle⟩
      have := add64 hi3 hd (by rw [abs_of_nonneg h0]; exact hle.trans (by norm_num))
      rw [this]
      congr 1
      apply rq_of_rep
      rw [hval]
      apply rep0_sub_nat hyr (hy1.trans (by norm_num [f64]))
      rw [← hval]; exact h0
    · have hfr := posAt_frac (start := Pos.ofQ p) (ρ := ratioAt l t ch o) (ofQ_frac p) g
      rw [if_neg (fun hh => h (hgt.1 hh)), min_eq_left (not_lt.1 h), hu3]
      refine ⟨_, rfl, ?_, ?_⟩
      · rw [hi3]; simp
      · simp; linarith [hfr.2]
  obtain ⟨pos, hf1, hf2, hf3⟩ := hfin
  refine ⟨g, pos, s3.ratio, ?_, hS3.hg, hS3.hcont, hend, hf2, hf3, hS3.hratio⟩
  have hlast : saveLast s3.mem d st.channels ((ch * min K n : ℕ) : ℤ) (startLast m d ch z) =
      .ok (if min K n = 0 then startLast m d ch z else frameList m (d.dataIn + ((ch * (min K n - 1) : ℕ) : ℤ)) ch) := by
    unfold saveLast
    by_cases h : min K n = 0
    · rw [h, if_pos rfl]; rfl
    · rw [if_neg h, if_pos (by have := Nat.mul_pos hpos (Nat.pos_of_ne_zero h); exact_mod_cast this)]
      have hmin : min K n ≤ n := min_le_right _ _
      obtain ⟨u, hu⟩ : ∃ u, min K n = u + 1 := ⟨min K n - 1, by omega⟩
      rw [hu] at hmin ⊢
      have e : ((ch * (u + 1) : ℕ) : ℤ) - (ch : ℤ) = ((ch * u : ℕ) : ℤ) := by push_cast; ring
      have hle : ch * (u + 1) ≤ ch * n := Nat.mul_le_mul_left _ hmin
      rw [hch, e, Nat.add_sub_cancel, loadLast_spec C.hin hll (by positivity) ?_]
      · congr 1
        apply frameList_congr
        intro c hc
        rw [hS3.hmem]
        have := C.sameInput (k := ch * g) (Nat.mul_le_mul_left _ hS3.hg) (outSamples ch PP em) (ch * u + c) (by
          have : ch * (u + 1) = ch * u + ch := by ring
          omega)
        push_cast at this ⊢
        rw [← add_assoc] at this
        exact this
      · rw [C.hn]
        have : ((ch * (u + 1) : ℕ) : ℤ) ≤ ((ch * n : ℕ) : ℤ) := by exact_mod_cast hle
        push_cast at this ⊢; linarith
  have hdivu : (((ch * min K n : ℕ) : ℤ)).tdiv (ch : ℤ) = ((min K n : ℕ) : ℤ) := by
    rw [Nat.cast_mul, Int.mul_tdiv_cancel_left _ hchz]
  have hdivg : (((ch * g : ℕ) : ℤ)).tdiv (ch : ℤ) = ((g : ℕ) : ℤ) := by
    rw [Nat.cast_mul, Int.mul_tdiv_cancel_left _ hchz]
  unfold skBody
  rw [hlv]
  simp only [bind, Except.bind]
  rw [hic]
  simp only []
  rw [hoc]
  simp only [hbad, Bool.false_eq_true, if_false]
  rw [hfuel, h1]
  simp only []
  rw [hch, hn1]
  simp only []
  rw [h3]
  simp only []
  rw [if_neg hchz]
  rw [hch] at hf1 hlast
  rw [hf1]
  simp only [pure, Except.pure] at hlast ⊢
  rw [hlast]
  simp only [bodyResult, hdivu, hdivg, hS3.hgen, hS3.hmem, hch]
  rfl

theorem body_spec (wrap : InterpData → Priv) (hlen : z.lastValue.length = ch)
    (hDom : (∀ j < o, Dom (PP j)) ∨ ∃ r, skBody k wrap m st d z = .ok r) :
    ∃ g pos ratio, skBody k wrap m st d z = .ok (bodyResult wrap m st d z ch n o PP em g pos ratio) ∧
      g ≤ o ∧ (∀ j < g, Cont G (PP j)) ∧ (g < o → ¬ Cont G (PP g)) ∧
      pos.val = some ((PP g).i + (((PP g).k - min (PP g).k n : ℕ) : ℚ)) ∧
      (PP g).i + (((PP g).k - min (PP g).k n : ℕ) : ℚ) ≤ 257 ∧
      ratio.val = some (ratioAfter l t ch o g) := by
  rcases body_cases C H wrap hlen with ⟨h1, j, hj, hD⟩ | h
  · exfalso
    rcases hDom with h | ⟨r, h⟩
    · exact hD (h j hj)
    · rw [h1] at h; cases h
  · exact h.2

end
end Verif
