import Verif.Proof.Interp

/-! The two loops of the interpolating converters. -/

namespace Verif
open Spec

/-- Output frame at position `P` is produced: before the first input frame, or if the converter's continuation test holds. -/
def Cont (G : Pos → Prop) (P : Pos) : Prop := P.k = 0 ∨ G P

theorem posAt_mono (P : Pos) (ρ : ℕ → ℚ) {i j : ℕ} (h : i ≤ j) : (posAt P ρ i).k ≤ (posAt P ρ j).k := by
  induction h with
  | refl => exact le_refl _
  | step _ ih => exact ih.trans (Nat.le_add_right _ _)

section
variable {m : Mem} {st : SrcState} {d : SrcData} {ch n o : ℕ} {l t p : ℚ} (C : Ctx m st d ch n o l t p)
  {k : Kernel} {lv : List F32} {em : Pos → ℕ → F32} {G Dom : Pos → Prop} (H : KSpec k m d ch n lv em G Dom)
include C H

local notation "PP" => posOf l t p ch o

/-- state after `g` frames -/
structure St (G : Pos → Prop) (em : Pos → ℕ → F32) (m : Mem) (d : SrcData) (ch o : ℕ) (l t p : ℚ) (g : ℕ) (s : LoopSt) : Prop where
  hg : g ≤ o
  hmem : s.mem = m.setRange d.dataOut (ch * g) (outSamples ch (posOf l t p ch o) em)
  hgen : s.outGen = ((ch * g : ℕ) : ℤ)
  hratio : s.ratio.val = some (ratioAfter l t ch o g)
  hcont : ∀ j < g, Cont G (posOf l t p ch o j)

omit H in
theorem Ctx.next_ratio {g : ℕ} {s : LoopSt} (hs : St G em m d ch o l t p g s) (hg : g < o) :
    (interpRatio st.lastRatio d.srcRatio s.outGen ((ch * o : ℕ) : ℤ) s.ratio).val = some (ratioAt l t ch o g) := by
  rw [hs.hgen]
  exact C.ratio_val hg (fun h => by rw [hs.hratio, ratioAfter_eq h])

/-- The loop over positions before the first input frame. -/
theorem first_loop :
    ∃ s', whileM (skFirst k st d lv ((ch * n : ℕ) : ℤ) ((ch * o : ℕ) : ℤ)) (o + 1)
        { mem := m, inUsed := 0, outGen := 0, idx := st.lastPosition, ratio := st.lastRatio } = .ok s' ∧
      ∃ g x, St G em m d ch o l t p g s' ∧ s'.inUsed = 0 ∧ s'.idx.val = some x ∧ 0 ≤ x ∧ x ≤ 257 ∧ Pos.ofQ x = PP g ∧
        (g < o → 1 ≤ x ∨ (x < 1 ∧ ¬ Dom (PP g))) ∧ (g = 0 → x = p) ∧ (∀ j < g, (PP j).k = 0 ∧ Dom (PP j)) ∧
        (0 < g → x = r64 ((PP (g-1)).i + r64 (1 / ratioAt l t ch o (g-1)))) := by
  have hpos := C.pos
  apply whileM_spec
    (I := fun s => ∃ g x, St G em m d ch o l t p g s ∧ s.inUsed = 0 ∧ s.idx.val = some x ∧ 0 ≤ x ∧ x ≤ 257 ∧
      Pos.ofQ x = PP g ∧ (g = 0 → x = p) ∧ (∀ j < g, (PP j).k = 0 ∧ Dom (PP j)) ∧
        (0 < g → x = r64 ((PP (g-1)).i + r64 (1 / ratioAt l t ch o (g-1)))))
    (meas := fun s => o - (s.outGen / (ch : ℤ)).toNat)
  · rintro s ⟨g, x, hS, hin, hidx, hx0, hx1, hPos, hg0, hall, hprev⟩
    have hlt : Fl.lt s.idx one64 = decide (x < 1) := Fl.lt_val hidx one64_val
    have hgo : (s.outGen < ((ch * o : ℕ) : ℤ)) ↔ g < o := by
      rw [hS.hgen]
      constructor
      · intro h
        have : ch * g < ch * o := by exact_mod_cast h
        exact lt_of_mul_lt_mul_left this (Nat.zero_le _)
      · intro h
        have : ch * g < ch * o := Nat.mul_lt_mul_of_pos_left h hpos
        exact_mod_cast this
    by_cases hc : x < 1 ∧ g < o
    · -- one more frame
      obtain ⟨hx, hg⟩ := hc
      have hk0 : (PP g).k = 0 := by rw [← hPos]; exact (ofQ_k_zero hx0).2 hx
      have hPi : PP g = ⟨0, x⟩ := by rw [← hPos]; exact ofQ_lt_one hx0 hx
      have hi : s.idx.val = some (PP g).i := by rw [hPi]; exact hidx
      by_cases hbrk : k.brk ch ((ch * n : ℕ) : ℤ) s = true
      · refine ⟨false, s, ?_, by simp, fun _ => ⟨g, x, hS, hin, hidx, hx0, hx1, hPos, fun _ => Or.inr ⟨hx, fun hD => ?_⟩, hg0, hall, hprev⟩⟩
        · simp only [skFirst]
          rw [hlt, if_neg (by simp only [hgo]; simp [hx, hg]), C.hch, if_pos hbrk]
          rfl
        · have := (H.brk s (PP g) hk0 hin hi (by rw [hPi]; exact hx0) (by rw [hPi]; exact hx)).2 hD
          rw [this] at hbrk
          cases hbrk
      have hem := C.emit (P := PP) (em := em) hg (v := fun m' c => k.firstV d st.channels lv s.idx m' c)
        (fun m' hm' c hc => by rw [C.hch]; exact H.first (PP g) s.idx m' c hk0 hi hm' hc)
      have hr := C.next_ratio hS hg
      have hadv := advance_val hidx hr hx0 hx (C.rho_valid hg)
      have hb := advance_bounds hx0 hx (C.rho_valid hg)
      refine ⟨true, ⟨m.setRange d.dataOut (ch * (g + 1)) (outSamples ch PP em), s.inUsed, ((ch * (g + 1) : ℕ) : ℤ),
        Fl.add s.idx (Fl.div one64 (interpRatio st.lastRatio d.srcRatio s.outGen ((ch * o : ℕ) : ℤ) s.ratio)),
        interpRatio st.lastRatio d.srcRatio s.outGen ((ch * o : ℕ) : ℤ) s.ratio⟩, ?_, fun _ => ?_, by simp⟩
      · simp only [skFirst]
        rw [hlt, if_neg (by simp only [hgo]; simp [hx, hg]), C.hch, if_neg hbrk]
        rw [C.hch] at hem
        rw [← hS.hgen] at hem
        rw [hS.hmem, hem]
        rfl
      · constructor
        · refine ⟨g + 1, r64 (x + r64 (1 / ratioAt l t ch o g)), ⟨hg, rfl, rfl, ?_, ?_⟩, hin, ?_, by linarith [hb.1], hb.2, ?_,
            by omega, ?_, ?_⟩
          · exact hr
          · intro j hj
            rcases Nat.lt_succ_iff_lt_or_eq.1 hj with h | h
            · exact hS.hcont j h
            · rw [h]; exact Or.inl hk0
          · exact hadv
          · have : PP (g + 1) = (PP g).advance (ratioAt l t ch o g) := rfl
            rw [this, ← hPos, ofQ_advance hx0 hx]
          · intro j hj
            rcases Nat.lt_succ_iff_lt_or_eq.1 hj with h | h
            · exact hall j h
            · rw [h]; exact ⟨hk0, (H.brk s (PP g) hk0 hin hi (by rw [hPi]; exact hx0) (by rw [hPi]; exact hx)).1 (by simpa using hbrk)⟩
          · intro _
            simp only [Nat.add_sub_cancel]
            rw [hPi]
        · simp only [hS.hgen]
          have e1 : ((ch * g : ℕ) : ℤ) / (ch : ℤ) = g := by
            push_cast; rw [Int.mul_ediv_cancel_left _ (by omega)]
          have e2 : ((ch * (g + 1) : ℕ) : ℤ) / (ch : ℤ) = ((g + 1 : ℕ) : ℤ) := by
            push_cast; rw [Int.mul_ediv_cancel_left _ (by omega)]
          rw [e1, e2]
          simp only [Int.toNat_natCast]
          omega
    · refine ⟨false, s, ?_, by simp, fun _ => ⟨g, x, hS, hin, hidx, hx0, hx1, hPos, ?_, hg0, hall, hprev⟩⟩
      · simp only [skFirst]
        rw [hlt, if_pos (by simp only [hgo]; simpa using hc)]
        rfl
      · intro hg
        left
        by_contra hx
        exact hc ⟨not_le.1 hx, hg⟩
  · refine ⟨0, p, ⟨by omega, ?_, by simp, C.hl, by simp⟩, rfl, C.hp, C.hp0, C.hp1, rfl, fun _ => rfl, by simp, by simp⟩
    simp [Mem.setRange_zero]
  · simp

/-- Bookkeeping of the last advance: position `P g` came from a rounded sum `x` after a frame at `P (g-1)`. -/
def Last (l t p : ℚ) (ch o n g : ℕ) : Prop :=
  ∃ x : ℚ, ∃ j : ℕ, Rep0 f64 x ∧ 0 ≤ x ∧ x ≤ 257 ∧ (posOf l t p ch o g).i = Int.fract x ∧ j ≤ n ∧
    (posOf l t p ch o g).k = j + ⌊x⌋.toNat

/-- The main loop. -/
theorem main_loop {s : LoopSt} {g0 : ℕ} (hS0 : St G em m d ch o l t p g0 s) (hin0 : s.inUsed = ((ch * (PP g0).k : ℕ) : ℤ))
    (hidx0 : s.idx.val = some (PP g0).i) (hk0 : g0 < o → 1 ≤ (PP g0).k) (hL0 : Last l t p ch o n g0) :
    ∃ s', whileM (skMain k st d ((ch * n : ℕ) : ℤ) ((ch * o : ℕ) : ℤ)) (o + 1) s = .ok s' ∧
      ∃ g, St G em m d ch o l t p g s' ∧ s'.inUsed = ((ch * (PP g).k : ℕ) : ℤ) ∧ s'.idx.val = some (PP g).i ∧
        (g < o → ¬ Cont G (PP g)) ∧ Last l t p ch o n g := by
  have hpos := C.pos
  have hfr := fun j => posAt_frac (start := Pos.ofQ p) (ρ := ratioAt l t ch o) (ofQ_frac p) j
  apply whileM_spec
    (I := fun s => ∃ g, St G em m d ch o l t p g s ∧ s.inUsed = ((ch * (PP g).k : ℕ) : ℤ) ∧ s.idx.val = some (PP g).i ∧
      (g < o → 1 ≤ (PP g).k) ∧ Last l t p ch o n g)
    (meas := fun s => o - (s.outGen / (ch : ℤ)).toNat)
  · rintro s ⟨g, hS, hin, hidx, hk1, hL⟩
    have hgo : (s.outGen < ((ch * o : ℕ) : ℤ)) ↔ g < o := by
      rw [hS.hgen]
      constructor
      · intro h
        have : ch * g < ch * o := by exact_mod_cast h
        exact lt_of_mul_lt_mul_left this (Nat.zero_le _)
      · intro h
        have : ch * g < ch * o := Nat.mul_lt_mul_of_pos_left h hpos
        exact_mod_cast this
    have hkb : (PP g).k ≤ n + 257 := by
      obtain ⟨x, j, _, hx0, hx1, _, hj, hk⟩ := hL
      have : ⌊x⌋ ≤ 257 := by
        have : (⌊x⌋ : ℚ) ≤ 257 := (Int.floor_le x).trans hx1
        exact_mod_cast this
      omega
    have hgd := H.guard s (PP g) hkb hin hidx (hfr g).1 (hfr g).2
    by_cases hc : g < o ∧ G (PP g)
    · obtain ⟨hg, hG⟩ := hc
      have hk : 1 ≤ (PP g).k := hk1 hg
      have hem := C.emit (P := PP) (em := em) hg (v := fun m' c => k.mainV d st.channels s.inUsed s.idx m' c)
        (fun m' hm' c hc => by rw [C.hch, hin]; exact H.main (PP g) s.idx m' c hk hG (hfr g).1 hidx hm' hc)
      have hr := C.next_ratio hS hg
      have hadv := advance_val hidx hr (hfr g).1 (hfr g).2 (C.rho_valid hg)
      have hb := advance_bounds (hfr g).1 (hfr g).2 (C.rho_valid hg)
      have hkn := H.bound (PP g) hG (hfr g).1
      obtain ⟨s', hn1, hn2, hn3, hn4, hn5, hn6⟩ := normIdx_spec (s := ⟨m.setRange d.dataOut (ch * (g + 1)) (outSamples ch PP em),
        s.inUsed, ((ch * (g + 1) : ℕ) : ℤ), Fl.add s.idx (Fl.div one64
          (interpRatio st.lastRatio d.srcRatio s.outGen ((ch * o : ℕ) : ℤ) s.ratio)),
        interpRatio st.lastRatio d.srcRatio s.outGen ((ch * o : ℕ) : ℤ) s.ratio⟩) hadv (by linarith [hb.1]) hb.2 C.hchM
      simp only at hn2 hn3 hn4 hn6
      have hPs : PP (g + 1) = (PP g).advance (ratioAt l t ch o g) := rfl
      refine ⟨true, s', ?_, fun _ => ?_, by simp⟩
      · simp only [skMain]
        rw [C.hch] at hem ⊢
        rw [if_neg (by simp only [hgo, hgd]; simp [hg, hG]), hS.hmem]
        rw [← hS.hgen] at hem
        rw [hem]
        exact congrArg (fun z : M LoopSt => z >>= fun s' => (pure (true, s') : M (Bool × LoopSt))) hn1
      · constructor
        · refine ⟨g + 1, ⟨hg, hn2, hn4, ?_, ?_⟩, ?_, ?_, ?_, ?_⟩
          · rw [hn6]; exact hr
          · intro j hj
            rcases Nat.lt_succ_iff_lt_or_eq.1 hj with h | h
            · exact hS.hcont j h
            · rw [h]; exact Or.inr hG
          · rw [hn3, hin, hPs]; simp only [Pos.advance]; push_cast; ring
          · rw [hn5, hPs]; rfl
          · intro _; rw [hPs]; simp only [Pos.advance]; omega
          · exact ⟨_, (PP g).k, rep0_rq f64 _, by linarith [hb.1], hb.2, rfl, hkn, rfl⟩
        · simp only [hS.hgen, hn4]
          have e1 : ((ch * g : ℕ) : ℤ) / (ch : ℤ) = g := by
            push_cast; rw [Int.mul_ediv_cancel_left _ (by omega)]
          have e2 : ((ch * (g + 1) : ℕ) : ℤ) / (ch : ℤ) = ((g + 1 : ℕ) : ℤ) := by
            push_cast; rw [Int.mul_ediv_cancel_left _ (by omega)]
          rw [e1, e2]
          simp only [Int.toNat_natCast]
          omega
    · refine ⟨false, s, ?_, by simp, fun _ => ⟨g, hS, hin, hidx, ?_, hL⟩⟩
      · simp only [skMain]
        rw [C.hch, if_pos (by simp only [hgo, hgd]; exact hc)]
        rfl
      · rintro hg (h | h)
        · have := hk1 hg; omega
        · exact hc ⟨hg, h⟩
  · exact ⟨g0, hS0, hin0, hidx0, hk0, hL0⟩
  · show o - _ < o + 1
    omega

end
end Verif
