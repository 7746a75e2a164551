import Verif.Spec.Device
import Verif.Props.Varispeed
import Verif.Proof.CallbackSafe
import Verif.Props.Convert

/-! C78: the frames of the player reach the ALSA device.  C79: what is played on OSS and Solaris.  C80: what is played on Windows. -/

namespace Verif
open Spec

theorem accepted_append (a b : List DevCall) : accepted (a ++ b) = accepted a ++ accepted b := by
  induction a with
  | nil => rfl
  | cons c a ih => cases c <;> simp [accepted, ih]

theorem accepted_write (h : List DevCall) (fs : List (List F32)) (r : ℤ) : accepted (h ++ [.write fs r]) = accepted h ++ fs.take r.toNat := by
  rw [accepted_append]; simp [accepted]

theorem accepted_prepare (h : List DevCall) : accepted (h ++ [.prepare]) = accepted h := by
  rw [accepted_append]; simp [accepted]

theorem waiting_write (h : List DevCall) (fs : List (List F32)) (r : ℤ) : waiting (h ++ [.write fs r]) = if 0 < r then 0 else waiting h + 1 := by
  simp [waiting]

theorem waiting_prepare (h : List DevCall) : waiting (h ++ [.prepare]) = waiting h := by
  simp [waiting]

theorem since_write (h : List DevCall) (fs : List (List F32)) (r : ℤ) :
    sinceUnderrun (h ++ [.write fs r]) = if r = -EPIPE then some 0 else if 0 < r then (sinceUnderrun h).map (· + r) else sinceUnderrun h := by
  simp [sinceUnderrun]

theorem since_prepare (h : List DevCall) : sinceUnderrun (h ++ [.prepare]) = sinceUnderrun h := by
  simp [sinceUnderrun]

theorem unprepared_write (h : List DevCall) (fs : List (List F32)) (r : ℤ) : unprepared (h ++ [.write fs r]) = (unprepared h || r == -EPIPE) := by
  simp [unprepared]

theorem unprepared_prepare (h : List DevCall) : unprepared (h ++ [.prepare]) = false := by
  simp [unprepared]

/-- The frames given to a call that starts after `t` frames. -/
theorem block_drop {ch : ℤ} (m : Mem) (data : ℤ) {t n : ℕ} (h : t ≤ n) : sfWritef ch m (data + t * ch) (n - t) = (sfWritef ch m data n).drop t := by
  apply List.ext_getElem
  · simp [sfWritef]
  · intro i h1 h2
    simp only [sfWritef, List.getElem_map, List.getElem_range, List.getElem_drop]
    apply List.map_congr_left
    intro c _
    congr 1
    push_cast
    ring

theorem block_length {ch : ℤ} (m : Mem) (data : ℤ) (n : ℕ) : (sfWritef ch m data n).length = n := by simp [sfWritef]

theorem take_more {α : Type} (l : List α) {t r : ℕ} : l.take t ++ (l.drop t).take r = l.take (t + r) := by
  rw [List.take_add]

/-- What `alsa_write_float` keeps, whatever the device does: the frames accepted during the call are the first `total` of the block. -/
structure AlsaInv (m : Mem) (data ch : ℤ) (F : ℕ) (A : List (List F32)) (s : AlsaLoop) : Prop where
  t0 : 0 ≤ s.total
  t1 : s.total ≤ F
  e0 : 0 ≤ s.d.epipe
  e1 : s.d.epipe ≤ 240
  acc : accepted s.d.log = A ++ (sfWritef ch m data F).take s.total.toNat

theorem chk_ok {n : ℤ} (h1 : -2147483648 ≤ n) (h2 : n ≤ 2147483647) : chkI32 n = .ok n := if_pos ⟨h1, h2⟩

theorem alsaStep_any {dev : Device} (hdev : ∀ h n, 1 ≤ n → dev h n ≤ n) {m : Mem} {data : ℤ} {ch F : ℕ} (hF : F * ch ≤ 2147483647) (hF1 : F ≤ 2147483647) {A : List (List F32)} {s : AlsaLoop}
    (I : AlsaInv m data ch F A s) :
    ∃ b s', alsaStep dev m data F ch s = .ok (b, s') ∧ AlsaInv m data ch F A s' ∧ (b = false → (s'.ret = F ∨ s'.ret ≤ 0) ∧ (s'.ret = F ↔ s'.total = F ∨ (F = 0 ∧ s'.ret = 0))) := by
  obtain ⟨t0, t1, e0, e1, acc⟩ := I
  obtain ⟨t, ht⟩ := Int.eq_ofNat_of_zero_le t0
  unfold alsaStep
  by_cases hlt : s.total < F
  swap
  · have : s.total = F := le_antisymm t1 (not_lt.1 hlt)
    rw [if_pos hlt]
    exact ⟨false, { s with ret := s.total }, rfl, ⟨t0, t1, e0, e1, acc⟩, fun _ => ⟨Or.inl this, fun _ => Or.inl this, fun _ => this⟩⟩
  rw [if_neg (not_not.2 hlt)]
  have htF : t < F := by omega
  have hmul : s.total * (ch : ℤ) ≤ 2147483647 := by
    rw [ht]
    have : t * ch ≤ F * ch := Nat.mul_le_mul_right _ htF.le
    exact_mod_cast this.trans hF
  have h0 : 0 ≤ s.total * (ch : ℤ) := mul_nonneg t0 (Int.natCast_nonneg _)
  rw [chk_ok (by omega) hmul]
  simp only [bind, Except.bind]
  have hn : 1 ≤ (F : ℤ) - s.total := by omega
  have hr := hdev s.d.log _ hn
  generalize hR : dev s.d.log ((F : ℤ) - s.total) = r at hr ⊢
  have hb : sfWritef ch m (data + s.total * (ch : ℤ)) ((F : ℤ) - s.total).toNat = (sfWritef ch m data F).drop t := by
    rw [ht, ← block_drop m data htF.le]
    congr 1
    omega
  rw [hb]
  have htn : s.total.toNat = t := by omega
  have hneg : r < 0 → accepted (s.d.log ++ [.write ((sfWritef ch m data F).drop t) r]) = A ++ (sfWritef ch m data F).take s.total.toNat := fun h => by
    rw [accepted_write, acc, show r.toNat = 0 by omega]; simp
  by_cases hr0 : r ≥ 0
  · rw [if_pos hr0, chk_ok (by omega) (by omega)]
    have hacc : accepted (s.d.log ++ [.write ((sfWritef ch m data F).drop t) r]) = A ++ (sfWritef ch m data F).take (s.total + r).toNat := by
      rw [accepted_write, acc, List.append_assoc, htn, take_more]
      congr 2
      omega
    dsimp only
    by_cases he : s.total + r = F
    · rw [if_pos he]
      exact ⟨false, _, rfl, ⟨by dsimp only; omega, by dsimp only; omega, e0, e1, hacc⟩, fun _ => ⟨Or.inl he, fun _ => Or.inl he, fun _ => he⟩⟩
    · rw [if_neg he]
      exact ⟨true, _, rfl, ⟨by dsimp only; omega, by dsimp only; omega, e0, e1, hacc⟩, fun h => by cases h⟩
  rw [if_neg hr0]
  have hlt0 : r < 0 := not_le.1 hr0
  have hnt : ¬ s.total = F := hlt.ne
  have hF0 : ¬ F = 0 := by omega
  by_cases h1 : r = -EAGAIN
  · rw [if_pos h1]
    exact ⟨true, _, rfl, ⟨t0, t1, e0, e1, hneg hlt0⟩, fun h => by cases h⟩
  rw [if_neg h1]
  by_cases h2 : r = -EPIPE
  · rw [if_pos h2]
    by_cases h3 : s.d.epipe > 0 ∧ s.d.epipe > 140
    · rw [if_pos h3]
      refine ⟨false, { s with d := { s.d with log := s.d.log ++ [.write ((sfWritef ch m data F).drop t) r] }, ret := r }, rfl, ⟨t0, t1, e0, e1, hneg hlt0⟩, fun _ => ⟨Or.inr hlt0.le, fun h => ?_, fun h => ?_⟩⟩
      · have h' : r = F := h
        omega
      · rcases h with h | h
        · exact absurd h hnt
        · exact absurd h.1 hF0
    · rw [if_neg h3, chk_ok (by omega) (by omega)]
      refine ⟨true, _, rfl, ⟨t0, t1, by dsimp only; omega, by dsimp only; omega, ?_⟩, fun h => by cases h⟩
      dsimp only
      rw [accepted_prepare]
      exact hneg hlt0
  rw [if_neg h2]
  have fin : ∃ b s', (pure (false, ({ s with d := { s.d with log := s.d.log ++ [.write ((sfWritef ch m data F).drop t) r] }, ret := 0 } : AlsaLoop)) : M (Bool × AlsaLoop)) = .ok (b, s') ∧
      AlsaInv m data ch F A s' ∧ (b = false → (s'.ret = F ∨ s'.ret ≤ 0) ∧ (s'.ret = F ↔ s'.total = F ∨ (F = 0 ∧ s'.ret = 0))) := by
    refine ⟨false, { s with d := { s.d with log := s.d.log ++ [.write ((sfWritef ch m data F).drop t) r] }, ret := 0 }, rfl, ⟨t0, t1, e0, e1, hneg hlt0⟩, fun _ => ⟨Or.inr le_rfl, fun h => ?_, fun h => ?_⟩⟩
    · have h' : (0 : ℤ) = F := h
      omega
    · rcases h with h | h
      · exact absurd h hnt
      · exact absurd h.1 hF0
  split_ifs <;> exact fin

/-- C78, whatever the device does (as long as it does not accept more frames than it is given): the frames that it accepts in a call of `alsa_write_float` are the first `k` of the block, in order and
each of them once; the function returns the number of frames in the block exactly when they are all of them, and otherwise a number that is not positive.  It does not overflow, and `epipe_count` stays
between 0 and 240. -/
theorem C78_any (dev : Device) (hdev : ∀ h n, 1 ≤ n → dev h n ≤ n) (fuel : ℕ) (m : Mem) (data : ℤ) (ch F : ℕ) (hF0 : 1 ≤ F) (hF1 : F ≤ 2147483647) (hF : F * ch ≤ 2147483647)
    (d : AlsaSt) (he0 : 0 ≤ d.epipe) (he1 : d.epipe ≤ 240) :
    (∀ err, alsaWriteFloat dev fuel m data F ch d = .error err → err = .outOfFuel) ∧
    ∀ r d', alsaWriteFloat dev fuel m data F ch d = .ok (r, d') →
      0 ≤ d'.epipe ∧ d'.epipe ≤ 240 ∧ (r = F ∨ r ≤ 0) ∧ ∃ k ≤ F, accepted d'.log = accepted d.log ++ (sfWritef ch m data F).take k ∧ (r = F ↔ k = F) := by
  have I0 : AlsaInv m data ch F (accepted d.log) { d := { d with epipe := if d.epipe > 0 then d.epipe - 1 else d.epipe }, total := 0, ret := 0 } :=
    ⟨le_rfl, by dsimp only; omega, by dsimp only; split_ifs <;> omega, by dsimp only; split_ifs <;> omega, by simp⟩
  constructor
  · intro err h
    unfold alsaWriteFloat at h
    simp only [bind, Except.bind] at h
    split at h
    · rename_i g hg
      cases h
      have := whileM_fault (step := alsaStep dev m data F ch) (fun _ => False) (AlsaInv m data ch F (accepted d.log)) (fun s I => by
        obtain ⟨b', s'', g1, g2, _⟩ := alsaStep_any hdev hF hF1 I
        refine ⟨fun f hf => ?_, fun s' hs => ?_⟩
        · rw [g1] at hf; cases hf
        · rw [g1] at hs; cases hs; exact g2) fuel _ I0 _ hg
      simpa using this
    · cases h
  · intro r d' h
    unfold alsaWriteFloat at h
    simp only [bind, Except.bind] at h
    split at h
    · cases h
    · rename_i s hs
      cases h
      obtain ⟨J, h1, h2⟩ := whileM_partial (AlsaInv m data ch F (accepted d.log))
        (fun s' => AlsaInv m data ch F (accepted d.log) s' ∧ (s'.ret = F ∨ s'.ret ≤ 0) ∧ (s'.ret = F ↔ s'.total = F ∨ (F = 0 ∧ s'.ret = 0)))
        (fun s I b s' he => by
          obtain ⟨b', s'', g1, g2, g3⟩ := alsaStep_any hdev hF hF1 I
          rw [he] at g1
          cases g1
          exact ⟨fun _ => g2, fun hb => ⟨g2, g3 hb⟩⟩) fuel _ s I0 hs
      refine ⟨J.e0, J.e1, h1, s.total.toNat, by have := J.t0; have := J.t1; omega, J.acc, h2.trans ?_⟩
      have := J.t0
      constructor
      · rintro (h | h) <;> omega
      · intro h; exact Or.inl (by omega)

/-- The bound on `epipe_count` while the device works: it is 0 once `101 * F` frames have been accepted since it last ran out of data. -/
def Calm (F : ℕ) (t : ℤ) (d : AlsaSt) : Prop :=
  0 ≤ d.epipe ∧ unprepared d.log = false ∧ (d.epipe = 0 ∨ ∃ k a : ℤ, 0 ≤ k ∧ sinceUnderrun d.log = some a ∧ a ≤ k * F + t ∧ d.epipe ≤ 100 - k)

theorem calm_next {F : ℕ} {d : AlsaSt} (h : Calm F F d) : Calm F 0 { d with epipe := if d.epipe > 0 then d.epipe - 1 else d.epipe } := by
  obtain ⟨h0, h1, h2⟩ := h
  refine ⟨by dsimp only; split_ifs <;> omega, h1, ?_⟩
  dsimp only
  rcases h2 with h | ⟨k, a, k0, ha, hb, hc⟩
  · left; rw [if_neg (by omega)]; exact h
  · by_cases hp : d.epipe > 0
    · rw [if_pos hp]
      refine Or.inr ⟨k + 1, a, by omega, ha, by linarith, by omega⟩
    · rw [if_neg hp]; left; omega

/-- One iteration with a device that works. -/
theorem alsaStep_working {dev : Device} {F tries : ℕ} (W : WorkingDevice dev (101 * F) tries) {m : Mem} {data : ℤ} {ch : ℕ} (hF : F * ch ≤ 2147483647) (hF1 : F ≤ 2147483647)
    {A : List (List F32)} {s : AlsaLoop} (hlt : s.total < F) (t0 : 0 ≤ s.total) (C : Calm F s.total s.d) (acc : accepted s.d.log = A ++ (sfWritef ch m data F).take s.total.toNat) :
    ∃ b s', alsaStep dev m data F ch s = .ok (b, s') ∧ 0 ≤ s'.total ∧ Calm F s'.total s'.d ∧ accepted s'.d.log = A ++ (sfWritef ch m data F).take s'.total.toNat ∧
      (b = true → s'.total < F ∧ ((F : ℤ) - s'.total).toNat * (tries + 1) + (tries - waiting s'.d.log) < ((F : ℤ) - s.total).toNat * (tries + 1) + (tries - waiting s.d.log)) ∧
      (b = false → s'.total = F ∧ s'.ret = F) := by
  obtain ⟨c0, c1, c2⟩ := C
  obtain ⟨t, ht⟩ := Int.eq_ofNat_of_zero_le t0
  unfold alsaStep
  rw [if_neg (not_not.2 hlt)]
  have htF : t < F := by omega
  have hmul : s.total * (ch : ℤ) ≤ 2147483647 := by
    rw [ht]
    have : t * ch ≤ F * ch := Nat.mul_le_mul_right _ htF.le
    exact_mod_cast this.trans hF
  have h0 : 0 ≤ s.total * (ch : ℤ) := mul_nonneg t0 (Int.natCast_nonneg _)
  rw [chk_ok (by omega) hmul]
  simp only [bind, Except.bind]
  have hn : 1 ≤ (F : ℤ) - s.total := by omega
  have hr := W.answers s.d.log _ hn
  have hm := fun h => W.moves s.d.log _ hn h c1
  generalize hR : dev s.d.log ((F : ℤ) - s.total) = r at hr hm ⊢
  have hb : sfWritef ch m (data + s.total * (ch : ℤ)) ((F : ℤ) - s.total).toNat = (sfWritef ch m data F).drop t := by
    rw [ht, ← block_drop m data htF.le]
    congr 1
    omega
  rw [hb]
  have htn : s.total.toNat = t := by omega
  have hneg : r < 0 → accepted (s.d.log ++ [.write ((sfWritef ch m data F).drop t) r]) = A ++ (sfWritef ch m data F).take s.total.toNat := fun h => by
    rw [accepted_write, acc, show r.toNat = 0 by omega]; simp
  have hwait : r ≤ 0 → waiting s.d.log < tries := fun h => by
    by_contra hc
    exact absurd (hm (not_lt.1 hc)) (not_lt.2 h)
  by_cases hr0 : r ≥ 0
  · have hrn : r ≤ F - s.total := by
      rcases hr with h | h | h
      · exact h.2
      · rw [h] at hr0; norm_num [EAGAIN] at hr0
      · rw [h.1] at hr0; norm_num [EPIPE] at hr0
    rw [if_pos hr0, chk_ok (by omega) (by omega)]
    have hacc : accepted (s.d.log ++ [.write ((sfWritef ch m data F).drop t) r]) = A ++ (sfWritef ch m data F).take (s.total + r).toNat := by
      rw [accepted_write, acc, List.append_assoc, htn, take_more]
      congr 2
      omega
    have hE : ¬ r = -EPIPE := by unfold EPIPE; omega
    have hC : Calm F (s.total + r) { epipe := s.d.epipe, log := s.d.log ++ [.write ((sfWritef ch m data F).drop t) r] } := by
      refine ⟨c0, by dsimp only; rw [unprepared_write, c1]; simpa using hE, ?_⟩
      rcases c2 with h | ⟨k, a, k0, ha, hb, hc⟩
      · exact Or.inl h
      · right
        dsimp only
        rw [since_write, if_neg hE, ha]
        by_cases hp : 0 < r
        · rw [if_pos hp]
          exact ⟨k, a + r, k0, rfl, by linarith, hc⟩
        · rw [if_neg hp]
          exact ⟨k, a, k0, rfl, by linarith, hc⟩
    dsimp only
    by_cases he : s.total + r = F
    · rw [if_pos he]
      exact ⟨false, _, rfl, by dsimp only; omega, hC, hacc, fun h => (by cases h), fun _ => ⟨he, he⟩⟩
    · rw [if_neg he]
      refine ⟨true, _, rfl, by dsimp only; omega, hC, hacc, fun _ => ⟨by dsimp only; omega, ?_⟩, fun h => by cases h⟩
      dsimp only
      rw [waiting_write]
      by_cases hp : 0 < r
      · rw [if_pos hp]
        have h1 : ((F : ℤ) - (s.total + r)).toNat + 1 ≤ ((F : ℤ) - s.total).toNat := by omega
        have h2 := Nat.mul_le_mul_right (tries + 1) h1
        rw [Nat.add_mul] at h2
        omega
      · rw [if_neg hp]
        have : r = 0 := by omega
        subst this
        have := hwait le_rfl
        rw [add_zero]
        omega
  rw [if_neg hr0]
  have hlt0 : r < 0 := not_le.1 hr0
  have hw := hwait hlt0.le
  have hnp : ¬ 0 < r := by omega
  by_cases h1 : r = -EAGAIN
  · rw [if_pos h1]
    have hE : ¬ r = -EPIPE := by rw [h1]; norm_num [EPIPE, EAGAIN]
    refine ⟨true, _, rfl, t0, ⟨c0, by dsimp only; rw [unprepared_write, c1]; simpa using hE, ?_⟩, hneg hlt0, fun _ => ⟨hlt, ?_⟩, fun h => by cases h⟩
    · dsimp only
      rw [since_write, if_neg hE, if_neg hnp]
      exact c2
    · dsimp only
      rw [waiting_write, if_neg hnp]
      omega
  rw [if_neg h1]
  have h2 : r = -EPIPE := by
    rcases hr with h | h | h
    · exact absurd h.1 (not_le.2 hlt0)
    · exact absurd h h1
    · exact h.1
  have hz : s.d.epipe = 0 := by
    rcases hr with h | h | ⟨_, h | h⟩
    · exact absurd h.1 (not_le.2 hlt0)
    · exact absurd h h1
    · rw [c1] at h; cases h
    · rcases c2 with h' | ⟨k, a, k0, ha, hb, hc⟩
      · exact h'
      · have := h a ha
        have hk : 100 < k := by
          by_contra hk
          have : k * (F : ℤ) ≤ 100 * F := mul_le_mul_of_nonneg_right (not_lt.1 hk) (Int.natCast_nonneg _)
          linarith
        omega
  rw [if_pos h2, if_neg (by omega), chk_ok (by omega) (by omega)]
  refine ⟨true, _, rfl, t0, ⟨by dsimp only; omega, by dsimp only; rw [unprepared_prepare], Or.inr ⟨0, 0, le_rfl, ?_, by dsimp only; omega, by dsimp only; omega⟩⟩, ?_, fun _ => ⟨hlt, ?_⟩, fun h => by cases h⟩
  · dsimp only
    rw [since_prepare, since_write, if_pos h2]
  · dsimp only
    rw [accepted_prepare]
    exact hneg hlt0
  · dsimp only
    rw [waiting_prepare, waiting_write, if_neg hnp]
    omega

/-- A call of `alsa_write_float` with a device that works. -/
theorem alsaWrite_working {dev : Device} {F tries : ℕ} (W : WorkingDevice dev (101 * F) tries) (hF0 : 1 ≤ F) {m : Mem} {data : ℤ} {ch : ℕ} (hF : F * ch ≤ 2147483647) (hF1 : F ≤ 2147483647)
    {d : AlsaSt} (C : Calm F F d) {fuel : ℕ} (hfuel : F * (tries + 1) + tries < fuel) :
    ∃ d', alsaWriteFloat dev fuel m data F ch d = .ok ((F : ℤ), d') ∧ Calm F F d' ∧ accepted d'.log = accepted d.log ++ sfWritef ch m data F := by
  obtain ⟨s', g1, g2, g3, g4⟩ := whileM_spec (step := alsaStep dev m data F ch)
    (fun s => s.total < F ∧ 0 ≤ s.total ∧ Calm F s.total s.d ∧ accepted s.d.log = accepted d.log ++ (sfWritef ch m data F).take s.total.toNat)
    (fun s => s.ret = F ∧ Calm F F s.d ∧ accepted s.d.log = accepted d.log ++ sfWritef ch m data F)
    (fun s => ((F : ℤ) - s.total).toNat * (tries + 1) + (tries - waiting s.d.log))
    (fun s ⟨i1, i2, i3, i4⟩ => by
      obtain ⟨b, s', e1, e2, e3, e4, e5, e6⟩ := alsaStep_working W hF hF1 i1 i2 i3 i4
      refine ⟨b, s', e1, fun h => ⟨⟨(e5 h).1, e2, e3, e4⟩, (e5 h).2⟩, fun h => ?_⟩
      obtain ⟨k1, k2⟩ := e6 h
      refine ⟨k2, by rw [← k1]; exact e3, ?_⟩
      rw [e4, k1, Int.toNat_natCast, List.take_of_length_le (by rw [block_length])])
    fuel { d := { d with epipe := if d.epipe > 0 then d.epipe - 1 else d.epipe }, total := 0, ret := 0 }
    ⟨by dsimp only; omega, le_rfl, calm_next C, by simp⟩ (by
      dsimp only
      have : ((F : ℤ) - 0).toNat = F := by omega
      rw [this]
      omega)
  refine ⟨s'.d, ?_, g3, g4⟩
  unfold alsaWriteFloat
  rw [g1]
  simp only [bind, Except.bind, pure, Except.pure]
  rw [g2]

theorem vsAlsa_play {dev : Device} {sin : F64 → F64} {f : SndFile} {ch : ℕ} {buf samples dummy : ℤ} {fuel tries : ℕ} (h1 : 1 ≤ ch) (h2 : ch ≤ 2048)
    (W : WorkingDevice dev (101 * (2048 / ch : ℕ)) tries) (hfuel : 2048 / ch * (tries + 1) + tries < fuel) :
    ∀ (n : ℕ) (s : VsSt) (d : AlsaSt) (ws : List (List F32)) (s' : VsSt), Calm (2048 / ch) (2048 / ch : ℕ) d →
      vsPlay sin f ch buf samples dummy fuel n s = .ok (some (ws, s')) →
      ∃ d', vsAlsa dev sin f ch buf samples dummy fuel n s d = .ok (some (d', s')) ∧ accepted d'.log = accepted d.log ++ ws := by
  have hpos : 1 ≤ 2048 / ch := (Nat.one_le_div_iff h1).2 h2
  have hle : 2048 / ch ≤ 2048 := Nat.div_le_self _ _
  have hmul : 2048 / ch * ch ≤ 2048 := Nat.div_mul_le_self _ _
  have hout : Int.tdiv AUDIO_BUFFER_LEN ch = ((2048 / ch : ℕ) : ℤ) := by
    unfold AUDIO_BUFFER_LEN
    rw [Int.tdiv_eq_ediv_of_nonneg (by norm_num)]
    norm_cast
  intro n
  induction n with
  | zero =>
    intro s d ws s' _ h
    simp only [vsPlay, pure, Except.pure, Except.ok.injEq, Option.some.injEq, Prod.mk.injEq] at h
    obtain ⟨rfl, rfl⟩ := h
    exact ⟨d, rfl, by simp⟩
  | succ n ih =>
    intro s d ws s' C h
    unfold vsPlay at h
    unfold vsAlsa
    rw [hout] at h ⊢
    simp only [bind, Except.bind] at h ⊢
    split at h
    · cases h
    rename_i v hv
    obtain _ | ⟨k, s1⟩ := v
    · cases h
    dsimp only at h
    have hk : k = ((2048 / ch : ℕ) : ℤ) := by
      unfold vsGetData at hv
      simp only [bind, Except.bind] at hv
      split at hv
      · cases hv
      · split at hv
        · cases hv
        · cases hv; rfl
    subst hk
    have hne : ¬ ((2048 / ch : ℕ) : ℤ) = 0 := by omega
    dsimp only
    rw [if_neg hne] at h ⊢
    obtain ⟨d1, e1, e2, e3⟩ := alsaWrite_working W hpos (m := s1.mem) (data := samples) (ch := ch) (by omega) (by omega) C hfuel
    rw [e1]
    dsimp only
    split at h
    · cases h
    rename_i w hw
    obtain _ | ⟨ws1, s2⟩ := w
    · cases h
    cases h
    obtain ⟨d2, j1, j2⟩ := ih s1 d1 ws1 s' e2 hw
    refine ⟨d2, j1, ?_⟩
    rw [j2, e3, List.append_assoc, Int.toNat_natCast]

/-- C78 for the player: if the device works, and runs out of data at most once in the time of 101 blocks, then it accepts exactly the frames that C61 is about, in order, none left out
and none twice, however it splits them up. -/
theorem C78_played (cfg : Config) (hL : LibraryTables cfg) (type e : ℤ) (ht : SincType type ∨ type = SRC_ZERO_ORDER_HOLD) (ch : ℕ) (hch : ch ∣ 32) (st : SrcState)
    (hst : srcCallbackNew cfg (some 1) type ch 0 = .ok (e, some st)) (sin : F64 → F64) (hs : SineLike sin) (f : SndFile) (hf : 1 ≤ f.len) (m : Mem) (buf samples dummy : ℤ)
    (hbuf : 0 < buf) (hsam : 0 < samples) (hdis : samples + 2048 ≤ buf ∨ buf + 4096 ≤ samples) (n : ℕ) (hn : n * (32 / ch) ≤ 2 ^ 30) (dev : Device) (tries : ℕ)
    (hdev : WorkingDevice dev (101 * (2048 / ch : ℕ)) tries) :
    ∃ N ws, ∀ fuel, N ≤ fuel → varispeedPlay cfg sin f m buf samples dummy type ch n fuel = .ok (some ws) ∧
      ∃ calls, varispeedAlsa cfg dev sin f m buf samples dummy type ch n fuel = .ok (some calls) ∧ accepted calls = ws := by
  have h1 : 1 ≤ ch := Nat.pos_of_dvd_of_pos hch (by norm_num)
  have h2 : ch ≤ 32 := Nat.le_of_dvd (by norm_num) hch
  obtain ⟨N, ws, hN⟩ : ∃ N ws, ∀ fuel, N ≤ fuel → varispeedPlay cfg sin f m buf samples dummy type ch n fuel = .ok (some ws) := by
    rcases ht with ht | rfl
    · obtain ⟨N, ws, h, _⟩ := C61_sinc cfg hL type e ht ch hch st hst sin hs f hf m buf samples dummy hbuf hsam hdis n hn
      exact ⟨N, ws, h⟩
    · obtain ⟨N, ws, h, _⟩ := C61_zoh cfg hL e ch hch st hst sin hs f hf m buf samples dummy hbuf hsam hdis n hn
      exact ⟨N, ws, h⟩
  refine ⟨max N (2048 / ch * (tries + 1) + tries + 1), ws, fun fuel hfuel => ⟨hN fuel (le_trans (le_max_left _ _) hfuel), ?_⟩⟩
  have hP := hN fuel (le_trans (le_max_left _ _) hfuel)
  have hfu : 2048 / ch * (tries + 1) + tries < fuel := lt_of_lt_of_le (Nat.lt_succ_self _) (le_trans (le_max_right _ _) hfuel)
  unfold varispeedPlay at hP
  unfold varispeedAlsa
  rw [hst] at hP ⊢
  simp only [bind, Except.bind] at hP ⊢
  split at hP
  · cases hP
  rename_i v hv
  split at hP
  · cases hP
  rename_i ws1 s1
  cases hP
  obtain ⟨d, e1, e2⟩ := vsAlsa_play (dev := dev) h1 (by omega) hdev hfu n _ { epipe := 0, log := [] } ws s1 ⟨le_rfl, rfl, Or.inl rfl⟩ hv
  rw [e1]
  exact ⟨d.log, rfl, by rw [e2]; rfl⟩

/-- The other side of C78: a device that reports three times in a row that it ran out of data loses the block, and the player goes on with the next one. -/
theorem C78_lost (dev : Device) (m : Mem) (data : ℤ) (ch F : ℕ) (hF0 : 1 ≤ F) (d : AlsaSt) (he : d.epipe = 0) (hdev : ∀ h n, dev h n = -EPIPE) (fuel : ℕ) (hfuel : 3 ≤ fuel) :
    ∃ d', alsaWriteFloat dev fuel m data F ch d = .ok (-EPIPE, d') ∧ accepted d'.log = accepted d.log := by
  obtain ⟨k, rfl⟩ := Nat.exists_eq_add_of_le' hfuel
  have h0 : (0 : ℤ) < F := by omega
  let w : DevCall := .write (sfWritef ch m (data + 0) F) (-EPIPE)
  refine ⟨{ epipe := 200, log := d.log ++ [w] ++ [.prepare] ++ [w] ++ [.prepare] ++ [w] }, ?_, ?_⟩
  · have hs : ∀ c l, alsaStep dev m data F ch { d := { epipe := c, log := l }, total := 0, ret := 0 } =
        if c > 0 ∧ c > 140 then .ok (false, { d := { epipe := c, log := l ++ [w] }, total := 0, ret := -EPIPE })
        else chkI32 (c + 100) >>= fun c' => .ok (true, { d := { epipe := c', log := l ++ [w] ++ [.prepare] }, total := 0, ret := 0 }) := by
      intro c l
      unfold alsaStep
      dsimp only
      rw [if_neg (not_not.2 h0), zero_mul, chk_ok (by norm_num) (by norm_num)]
      simp only [bind, Except.bind, hdev]
      rw [if_neg (by norm_num [EPIPE]), if_neg (by norm_num [EPIPE, EAGAIN]), if_pos trivial, sub_zero, Int.toNat_natCast]
      rfl
    unfold alsaWriteFloat
    rw [he]
    simp only [whileM, bind, Except.bind]
    rw [if_neg (by norm_num), hs 0, if_neg (by norm_num), chk_ok (by norm_num) (by norm_num)]
    simp only [bind, Except.bind, if_true]
    rw [hs, if_neg (by norm_num), chk_ok (by norm_num) (by norm_num)]
    simp only [bind, Except.bind, if_true]
    rw [hs, if_pos (by norm_num)]
    rfl
  · rw [accepted_write, accepted_prepare, accepted_write, accepted_prepare, accepted_write]
    simp [EPIPE]

theorem scaled_val {x : F32} {q : ℚ} (h : x.val = some q) : (Fl.mul (dbl 32767) (Fl.conv f64 x)).val = some (32767 * q) := by
  obtain ⟨hq, rfl⟩ := Fl.eq_fin_of_val h
  have hr0 : Rep0 f64 (32767 * q) := by
    obtain ⟨n, e, h1, h2, h3⟩ := hq.1
    refine ⟨32767 * n, e, le_trans (by decide) h1, ?_, by rw [h3]; push_cast; ring⟩
    rw [abs_mul]
    have h2' : |n| < 2 ^ 24 := h2
    show |(32767 : ℤ)| * |n| < 2 ^ 53
    norm_num at h2' ⊢
    omega
  have hov : |32767 * q| < p2 f64.emax := by
    have : |q| < p2 128 := hq.2
    rw [abs_mul, show |(32767 : ℚ)| = 32767 by norm_num]
    calc 32767 * |q| ≤ p2 15 * |q| := mul_le_mul_of_nonneg_right (by norm_num [p2]) (abs_nonneg _)
      _ < p2 15 * p2 128 := mul_lt_mul_of_pos_left this (p2_pos _)
      _ = p2 143 := by rw [← p2_add]; norm_num
      _ < _ := p2_lt (by decide)
  have hd : (dbl 32767).val = some 32767 := by simpa using dbl_val (n := 32767) (by norm_num)
  have := Fl.val_mul hd (Fl.val_conv64 (x := Fl.fin q hq) rfl) (by rw [rq_of_rep hr0]; exact hov)
  rwa [rq_of_rep hr0] at this

theorem lrintLong_val {x : F64} {q : ℚ} (h : x.val = some q) (hq : |q| ≤ 2147483647) : lrintLong x = rne q := by
  obtain ⟨_, rfl⟩ := Fl.eq_fin_of_val h
  rw [_root_.abs_le] at hq
  have h1 : (-2147483647 : ℤ) ≤ rne q := le_rne_of_le (by push_cast; linarith)
  have h2 : rne q ≤ (2147483647 : ℤ) := rne_le_of_le (by push_cast; linarith)
  simp only [lrintLong]
  rw [if_pos (by omega)]

/-- What one sample becomes. -/
theorem device_sample {conv : F32 → ℤ} (hc : conv = ossSample ∨ conv = solarisSample) {x : F32} {q : ℚ} (h : x.val = some q) (hq : |q| ≤ 2) : conv x = toShort (rne (32767 * q)) := by
  have hb : |32767 * q| ≤ 2147483647 := by
    rw [abs_mul, show |(32767 : ℚ)| = 32767 by norm_num]
    linarith
  rcases hc with rfl | rfl
  · unfold ossSample
    rw [lrintLong_val (scaled_val h) hb]
  · unfold solarisSample
    rw [lrint_val (scaled_val h) hb]

theorem device_played {conv : F32 → ℤ} (hc : conv = ossSample ∨ conv = solarisSample) {x : F32} {q : ℚ} (h : x.val = some q) : PlayedAs q (conv x) := by
  refine ⟨fun h1 => ?_, fun h1 h2 => ?_, fun h1 h2 => ?_⟩
  · rw [device_sample hc h (h1.trans (by norm_num))]
    rw [_root_.abs_le] at h1
    rw [toShort_id (le_rne_of_le (by push_cast; linarith)) (rne_le_of_le (by push_cast; linarith))]
    exact rne_nearestEven _
  · rw [device_sample hc h (_root_.abs_le.2 ⟨by linarith, h2⟩)]
    have a1 : 32768 ≤ rne (32767 * q) := by
      by_contra hcon
      have h3 : ((rne (32767 * q) : ℤ) : ℚ) ≤ 32767 := by exact_mod_cast Int.lt_add_one_iff.1 (not_le.1 hcon)
      have := rne_nearest (32767 * q) 32768
      rw [abs_of_nonpos (by linarith)] at this
      have h4 : |((32768 : ℤ) : ℚ) - 32767 * q| < 32767 * q - 32767 := by
        rw [_root_.abs_lt]; push_cast; constructor <;> linarith
      linarith
    have a2 : rne (32767 * q) ≤ 65534 := rne_le_of_le (by push_cast; linarith)
    have : toShort (rne (32767 * q)) = rne (32767 * q) - 65536 := by unfold toShort; omega
    rw [this]
    exact ⟨by omega, by rw [sub_add_cancel]; exact rne_nearestEven _⟩
  · rw [device_sample hc h (_root_.abs_le.2 ⟨h2, by linarith⟩)]
    have a1 : rne (32767 * q) ≤ -32769 := by
      by_contra hcon
      have h3 : (-32768 : ℚ) ≤ ((rne (32767 * q) : ℤ) : ℚ) := by exact_mod_cast Int.add_one_le_iff.2 (not_le.1 hcon)
      have := rne_nearest (32767 * q) (-32769)
      rw [abs_of_nonneg (by linarith)] at this
      have h4 : |((-32769 : ℤ) : ℚ) - 32767 * q| < -32768 - 32767 * q := by
        rw [_root_.abs_lt]; push_cast; constructor <;> linarith
      linarith
    have a2 : -65534 ≤ rne (32767 * q) := le_rne_of_le (by push_cast; linarith)
    have : toShort (rne (32767 * q)) = rne (32767 * q) + 65536 := by unfold toShort; omega
    rw [this]
    exact ⟨by omega, by rw [add_sub_cancel_right]; exact rne_nearestEven _⟩

theorem floatsAt_get (m : Mem) (addr : ℤ) {n i : ℕ} (h : i < n) : (floatsAt m addr n)[i]? = some (m (addr + i)) := by
  simp [floatsAt, h]

theorem floatsAt_length (m : Mem) (addr : ℤ) (n : ℕ) : (floatsAt m addr n).length = n := by simp [floatsAt]

/-- C79, OSS and Solaris: in each round all samples of the block are passed to the device, in order, each rounded to the nearest integer after multiplication by 32767 - if it is within full scale.  Samples
beyond full scale are not limited: a little above 1 becomes a number near -32768, a little below -1 a number near 32767. -/
theorem C79 (conv : F32 → ℤ) (hc : conv = ossSample ∨ conv = solarisSample) (m : Mem) (addr : ℤ) (k ch : ℕ) (h : k * ch ≤ 2048) (buf : List ℤ) (hb : buf.length = 2048) :
    ∃ buf' out, ossRound conv m addr k ch buf = .ok (buf', out) ∧ buf'.length = 2048 ∧ out.length = k * ch ∧
      ∀ i < k * ch, ∀ q, (m (addr + i)).val = some q → ∃ s, out[i]? = some s ∧ PlayedAs q s := by
  unfold ossRound
  have hcast : (k : ℤ) * (ch : ℤ) = ((k * ch : ℕ) : ℤ) := by push_cast; ring
  rw [hcast, chk_ok (by omega) (by omega)]
  obtain ⟨o, e1, e2, e3, e4⟩ := convLoop_spec conv (floatsAt m addr AUDIO_BUFFER_LEN.toNat) buf ((k * ch : ℕ) : ℤ)
    (by rw [floatsAt_length]; unfold AUDIO_BUFFER_LEN; omega) (by omega)
  simp only [bind, Except.bind]
  rw [e1]
  refine ⟨o, _, rfl, by omega, by rw [List.length_take, Int.toNat_natCast]; omega, fun i hi q hq => ⟨conv (m (addr + i)), ?_, device_played hc hq⟩⟩
  rw [Int.toNat_natCast, List.getElem?_take_of_lt hi, e3 i (by exact_mod_cast hi), floatsAt_get _ _ (by unfold AUDIO_BUFFER_LEN; omega)]
  rfl

/-- C80, Windows: of a block of `8192 / ch` frames only the first `8192 / ch` samples are converted.  With one channel that is the whole block.  With two channels the second half of what is played is what
the buffer contained before; with more, the rest of the block is not played. -/
theorem C80 (m : Mem) (addr : ℤ) (ch : ℕ) (h1 : 1 ≤ ch) (h2 : ch ≤ 4096) (half : List ℤ) (hb : half.length = 8192) :
    ∃ half' bytes' out, win32Round m addr ((8192 / ch : ℕ) : ℤ) half 16384 = .ok (half', bytes', some out) ∧ half'.length = 8192 ∧
      (∀ i < 8192 / ch, ∀ q, (m (addr + i)).val = some q → ∃ s, out[i]? = some s ∧ PlayedAs q s) ∧
      (ch = 1 → out.length = 8192) ∧ (ch = 2 → out.length = 8192 ∧ ∀ i, 4096 ≤ i → out[i]? = half[i]?) ∧ (3 ≤ ch → out.length = 8192 / ch) := by
  have hpos : 1 ≤ 8192 / ch := (Nat.one_le_div_iff h1).2 (by omega)
  have hle : 8192 / ch ≤ 8192 := Nat.div_le_self _ _
  obtain ⟨o, e1, e2, e3, e4⟩ := convLoop_spec ossSample (floatsAt m addr 8192) half ((8192 / ch : ℕ) : ℤ) (by rw [floatsAt_length]; omega) (by omega)
  unfold win32Round
  have hw : WIN32_BUFFER_LEN / 2 / 2 = 8192 := by norm_num [WIN32_BUFFER_LEN]
  simp only [hw, show (8192 : ℤ).toNat = 8192 from rfl, bind, Except.bind]
  rw [e1]
  dsimp only
  rw [if_pos (by omega), chk_ok (by omega) (by omega)]
  dsimp only
  have hget : ∀ i < 8192 / ch, o[i]? = some (ossSample (m (addr + i))) := fun i hi => by
    rw [e3 i (by exact_mod_cast hi), floatsAt_get _ _ (by omega)]; rfl
  by_cases hlt : ((8192 / ch : ℕ) : ℤ) * 2 < 8192
  · have h3 : 3 ≤ ch := by
      by_contra hcon
      have : ch = 1 ∨ ch = 2 := by omega
      rcases this with rfl | rfl <;> norm_num at hlt
    rw [if_pos hlt]
    have hn : (((8192 / ch : ℕ) : ℤ) * 2 / 2).toNat = 8192 / ch := by omega
    rw [hn]
    refine ⟨o, _, _, rfl, by omega, fun i hi q hq => ⟨_, by rw [List.getElem?_take_of_lt hi]; exact hget i hi, device_played (Or.inl rfl) hq⟩, fun h => by omega, fun h => by omega,
      fun _ => by rw [List.length_take]; omega⟩
  · have h3 : ch ≤ 2 := by
      by_contra hcon
      have : 8192 / ch ≤ 8192 / 3 := Nat.div_le_div_left (by omega) (by norm_num)
      omega
    rw [if_neg hlt]
    have ht : o.take ((16384 : ℤ) / 2).toNat = o := List.take_of_length_le (by rw [e2, hb]; decide)
    rw [ht]
    refine ⟨o, _, _, rfl, by omega, fun i hi q hq => ⟨_, hget i hi, device_played (Or.inl rfl) hq⟩, fun _ => by omega, fun h => ⟨by omega, fun i hi => e4 i ?_⟩, fun h => by omega⟩
    subst h
    norm_num
    omega

/-- The hypotheses of `C79` are met by a block of 1024 stereo frames. -/
example : ∃ buf' out, ossRound ossSample (fun _ => Fl.ofInt f32 1) 7 1024 2 (List.replicate 2048 0) = .ok (buf', out) ∧ out[0]? = some 32767 := by
  obtain ⟨b, o, e1, -, -, e2⟩ := C79 ossSample (Or.inl rfl) (fun _ => Fl.ofInt f32 1) 7 1024 2 (by norm_num) (List.replicate 2048 0) List.length_replicate
  obtain ⟨s, s1, s2, -, -⟩ := e2 0 (by norm_num) 1 (by simpa using Fl.val_ofInt (f := f32) (n := 1) (by norm_num [f32]))
  refine ⟨b, o, e1, ?_⟩
  have h := rne_nearestEven ((32767 : ℤ) : ℚ)
  rw [rne_intCast] at h
  rw [s1, nearestEven_unique (s2 (by norm_num)) (by norm_num at h ⊢; exact h)]

/-- A device that accepts one frame at a time, and refuses every other call. -/
def fussy : Device := fun h _ => if waiting h = 0 then -EAGAIN else 1

/-- `fussy` meets the hypotheses of `C78_played`. -/
example (gap : ℤ) : WorkingDevice fussy gap 1 := by
  constructor
  · intro h n hn
    unfold fussy
    split_ifs
    · exact Or.inr (Or.inl rfl)
    · exact Or.inl ⟨by norm_num, hn⟩
  · intro h n _ hw _
    unfold fussy
    rw [if_neg (by omega)]
    norm_num

end Verif
