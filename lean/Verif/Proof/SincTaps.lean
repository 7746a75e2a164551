import Verif.Proof.Loop
import Verif.Model.Sinc
import Verif.Spec.Sinc

/-! The filter evaluation of the sinc converters. -/

namespace Verif
open Spec

theorem chkI32_ok {n : ℤ} (h1 : -2147483648 ≤ n) (h2 : n ≤ 2147483647) : chkI32 n = .ok n := by
  unfold chkI32; rw [if_pos ⟨h1, h2⟩]; rfl

theorem assertM_ok {b : Bool} (h : b = true) : assertM b = .ok () := by
  unfold assertM; rw [h]; rfl

theorem divM_ok {a b : ℤ} (h : b ≠ 0) : divM a b = .ok (a.tdiv b) := by
  unfold divM; rw [if_neg h]; rfl

theorem modM_ok {a b : ℤ} (h : b ≠ 0) : modM a b = .ok (a.tmod b) := by
  unfold modM; rw [if_neg h]; rfl

theorem icoeff_ok {f : SincFilter} {fi : ℤ} (h0 : 0 ≤ fi) (h1 : fi ≤ 4096 * f.coeffHalfLen) :
    icoeff f fi = .ok (sincCoeff f.coeffs fi) := by
  have a0 : 0 ≤ fi / 4096 := by omega
  have a1 : fi / 4096 ≤ f.coeffHalfLen := by omega
  have r0 : rdCoeff f (fpToInt fi) = .ok (f.coeffs (fi / 4096)) := by
    unfold rdCoeff fpToInt; rw [if_pos (by constructor <;> omega)]; rfl
  have r1 : rdCoeff f (fpToInt fi + 1) = .ok (f.coeffs (fi / 4096 + 1)) := by
    unfold rdCoeff fpToInt; rw [if_pos (by constructor <;> omega)]; rfl
  unfold icoeff
  simp only [r0, r1, bind, Except.bind, pure, Except.pure]
  rfl

theorem accumulate_ok {f : SincFilter} {ch : ℕ} {cap : ℕ} {ic : F64} {di : ℤ} (acc : ℕ → F64) (hcap : ch ≤ cap)
    (h0 : 0 ≤ di) (h1 : di ≤ f.bLen) :
    ∃ acc', accumulate f ch ch cap ic di acc = .ok acc' ∧
      ∀ c < ch, acc' c = Fl.add (acc c) (Fl.mul ic (Fl.conv f64 (f.buffer (di + (c : ℤ))))) := by
  unfold accumulate
  rw [Int.toNat_natCast]
  suffices h : ∃ s, forM' ch _ acc = .ok s ∧
      ((∀ c < ch, s c = Fl.add (acc c) (Fl.mul ic (Fl.conv f64 (f.buffer (di + (c : ℤ)))))) ∧ ∀ c, ch ≤ c → s c = acc c) by
    obtain ⟨s, h, hs⟩ := h
    exact ⟨s, h, hs.1⟩
  refine forM'_spec (fun i a => (∀ c < i, a c = Fl.add (acc c) (Fl.mul ic (Fl.conv f64 (f.buffer (di + (c : ℤ)))))) ∧
    ∀ c, i ≤ c → a c = acc c) ch ?_ acc ⟨by simp, by simp⟩
  · rintro i hi s ⟨ha, hb⟩
    have hr : rdBuf f ch (di + (i : ℤ)) = .ok (f.buffer (di + (i : ℤ))) := by
      unfold rdBuf; rw [if_pos (by constructor <;> omega)]; rfl
    refine ⟨Function.update s i (Fl.add (s i) (Fl.mul ic (Fl.conv f64 (f.buffer (di + (i : ℤ)))))), ?_, ?_, ?_⟩
    · rw [hr]
      simp only [bind, Except.bind]
      rw [if_pos (by omega)]
      rfl
    · intro c hc
      by_cases h : c = i
      · subst h; rw [Function.update_self, hb c (le_refl _)]
      · rw [Function.update_of_ne h]; exact ha c (by omega)
    · intro c hc
      rw [Function.update_of_ne (by omega)]; exact hb c (by omega)

/-- A variant fits a channel count. -/
def SincVariant.Fits (v : SincVariant) (ch : ℕ) : Prop := v.w (ch : ℤ) = ch ∧ ch ≤ v.cap

section
variable {v : SincVariant} {f : SincFilter} {ch : ℕ} {incr : ℤ}

/-- The left loop. -/
theorem left_loop (hv : v.Fits ch) (hch : 1 ≤ ch) (hinc : 1 ≤ incr) (hincM : incr ≤ 300000000)
    (hB : f.bLen ≤ 1000000000) (hcl : 4096 * f.coeffHalfLen ≤ 2147483647) {fi0 di0 : ℤ} (hfi : 0 ≤ fi0)
    (hfiM : fi0 ≤ 4096 * f.coeffHalfLen) (hdi : 0 ≤ di0)
    (hend : di0 + (fi0 / incr) * ch + ch ≤ f.bEnd) (hbe : f.bEnd ≤ f.bLen) :
    ∃ s, whileM (leftStep v f ch incr) (fi0.toNat + 2) ⟨fi0, di0, fun _ => zero64⟩ = .ok s ∧
      ∀ c < ch, s.acc c = tapSum (fi0 / incr + 1).toNat (fun j => sincCoeff f.coeffs (fi0 - j * incr))
        (fun j => Fl.conv f64 (f.buffer (di0 + j * ch + (c : ℤ)))) := by
  have hq0 : 0 ≤ fi0 / incr := Int.ediv_nonneg hfi (by omega)
  have hchz : (1 : ℤ) ≤ ch := by exact_mod_cast hch
  apply whileM_spec (I := fun s => ∃ j : ℕ, (j : ℤ) ≤ fi0 / incr + 1 ∧ s.filterIndex = fi0 - j * incr ∧ s.dataIndex = di0 + j * ch ∧
      ∀ c < ch, s.acc c = tapSum j (fun j => sincCoeff f.coeffs (fi0 - j * incr))
        (fun j => Fl.conv f64 (f.buffer (di0 + j * ch + (c : ℤ)))))
    (meas := fun s => (s.filterIndex + 1).toNat)
  · rintro s ⟨j, hj, hf, hd, ha⟩
    by_cases h : s.filterIndex ≥ 0
    · have hjq : (j : ℤ) ≤ fi0 / incr := by
        rw [Int.le_ediv_iff_mul_le (by omega)]; omega
      have hjc : (j : ℤ) * ch ≤ fi0 / incr * ch := mul_le_mul_of_nonneg_right hjq (by omega)
      have hj0 : 0 ≤ (j : ℤ) * ch := by positivity
      have hji : 0 ≤ (j : ℤ) * incr := mul_nonneg (by positivity) (by omega)
      have hi := icoeff_ok (f := f) (fi := s.filterIndex) h (by omega)
      obtain ⟨acc', hacc, hacc'⟩ := accumulate_ok (f := f) (cap := v.cap) (ic := sincCoeff f.coeffs s.filterIndex)
        (di := s.dataIndex) s.acc hv.2 (by omega) (by omega)
      refine ⟨true, ⟨s.filterIndex - incr, s.dataIndex + ch, acc'⟩, ?_, fun _ => ⟨⟨j + 1, ?_, ?_, ?_, ?_⟩, ?_⟩, by simp⟩
      · unfold leftStep
        rw [if_neg (by simpa using h), hv.1]
        dsimp only
        have b1 : fpToInt s.filterIndex ≥ 0 := by unfold fpToInt; omega
        have b2 : fpToInt s.filterIndex + 1 < f.coeffHalfLen + 2 := by unfold fpToInt; omega
        rw [assertM_ok (by simp [b1, b2]), hi]
        simp only [bind, Except.bind]
        rw [assertM_ok (by simp; constructor <;> omega)]
        simp only
        rw [assertM_ok (by simp; omega)]
        simp only
        rw [hacc]
        simp only
        rw [chkI32_ok (by omega) (by omega)]
        simp only
        rw [chkI32_ok (by omega) (by omega)]
        rfl
      · push_cast; omega
      · push_cast; rw [hf]; ring
      · push_cast; rw [hd]; ring
      · intro c hc
        dsimp only
        rw [hacc' c hc, ha c hc]
        simp only [tapSum]
        rw [hf, hd]
      · simp only; omega
    · refine ⟨false, s, ?_, by simp, fun _ => ?_⟩
      · unfold leftStep
        rw [if_pos h]
        rfl
      · have : (j : ℤ) = fi0 / incr + 1 := by
          apply le_antisymm hj
          by_contra hh
          push Not at hh
          have : (j : ℤ) * incr ≤ fi0 := (Int.le_ediv_iff_mul_le (by omega)).1 (by omega)
          omega
        have e : (fi0 / incr + 1).toNat = j := by omega
        intro c hc
        rw [e]; exact ha c hc
  · exact ⟨0, by simpa using by omega, by simp, by simp, fun c _ => rfl⟩
  · simp only; omega

/-- The right loop. -/
theorem right_loop (hv : v.Fits ch) (hch : 1 ≤ ch) (hinc : 1 ≤ incr) (hincM : incr ≤ 300000000)
    (hB : f.bLen ≤ 1000000000) (hcl : 4096 * f.coeffHalfLen ≤ 2147483647) (hchM : ch ≤ 1000000) {fi0 di0 : ℤ} (hfi : 0 ≤ fi0)
    (hfiM : fi0 ≤ 4096 * f.coeffHalfLen) (hdi : 0 ≤ di0 - (max 1 ((fi0 + incr - 1) / incr) - 1) * ch)
    (hend : di0 + ch ≤ f.bEnd) (hbe : f.bEnd ≤ f.bLen) :
    ∃ s, whileM (rightStep v f ch incr) (fi0.toNat + 2) ⟨fi0, di0, fun _ => zero64⟩ = .ok s ∧
      ∀ c < ch, s.acc c = tapSum (max 1 ((fi0 + incr - 1) / incr)).toNat (fun j => sincCoeff f.coeffs (fi0 - j * incr))
        (fun j => Fl.conv f64 (f.buffer (di0 - j * ch + (c : ℤ)))) := by
  have hchz : (1 : ℤ) ≤ ch := by exact_mod_cast hch
  set N := max 1 ((fi0 + incr - 1) / incr) with hN
  have hN1 : 1 ≤ N := le_max_left _ _
  -- taps before the last one have a positive index
  have hidx : ∀ j : ℤ, 0 ≤ j → j < N → 0 ≤ fi0 - j * incr := by
    intro j hj0 hj
    rcases le_or_gt ((fi0 + incr - 1) / incr) 1 with h | h
    · have : N = 1 := by rw [hN, max_eq_left h]
      have : j = 0 := by omega
      rw [this]; omega
    · have : N = (fi0 + incr - 1) / incr := by rw [hN, max_eq_right (by omega)]
      rw [this] at hj
      have h2 : (j + 1) * incr ≤ fi0 + incr - 1 := (Int.le_ediv_iff_mul_le (by omega)).1 (by omega)
      nlinarith
  have hpos : ∀ j : ℤ, 0 ≤ j → (0 < fi0 - (j + 1) * incr ↔ j + 1 < (fi0 + incr - 1) / incr) := by
    intro j hj0
    rw [Int.lt_iff_add_one_le (a := j + 1), Int.le_ediv_iff_mul_le (by omega)]
    constructor <;> intro h <;> nlinarith
  apply whileM_spec (I := fun s => ∃ j : ℕ, (j : ℤ) < N ∧ s.filterIndex = fi0 - j * incr ∧ s.dataIndex = di0 - j * ch ∧
      ∀ c < ch, s.acc c = tapSum j (fun j => sincCoeff f.coeffs (fi0 - j * incr))
        (fun j => Fl.conv f64 (f.buffer (di0 - j * ch + (c : ℤ)))))
    (meas := fun s => (s.filterIndex + 1).toNat)
  · rintro s ⟨j, hj, hf, hd, ha⟩
    have h : 0 ≤ s.filterIndex := by rw [hf]; exact hidx j (by positivity) hj
    have hji : 0 ≤ (j : ℤ) * incr := mul_nonneg (by positivity) (by omega)
    have hjc : (j : ℤ) * ch ≤ (N - 1) * ch := mul_le_mul_of_nonneg_right (by omega) (by omega)
    have hj0 : 0 ≤ (j : ℤ) * ch := by positivity
    have hi := icoeff_ok (f := f) (fi := s.filterIndex) h (by omega)
    obtain ⟨acc', hacc, hacc'⟩ := accumulate_ok (f := f) (cap := v.cap) (ic := sincCoeff f.coeffs s.filterIndex)
      (di := s.dataIndex) s.acc hv.2 (by omega) (by omega)
    have hstep : rightStep v f ch incr s = .ok (decide (s.filterIndex - incr > 0), ⟨s.filterIndex - incr, s.dataIndex - ch, acc'⟩) := by
      unfold rightStep
      rw [hv.1]
      have b1 : fpToInt s.filterIndex ≥ 0 := by unfold fpToInt; omega
      have b2 : fpToInt s.filterIndex + 1 < f.coeffHalfLen + 2 := by unfold fpToInt; omega
      have hA : rightAssert v f (fpToInt s.filterIndex) = .ok () := by
        unfold rightAssert
        split_ifs
        · rw [assertM_ok (by simp; omega)]
        · rw [assertM_ok (by simp [b1, b2])]
      dsimp only
      rw [hA, hi]
      simp only [bind, Except.bind]
      rw [assertM_ok (by simp; constructor <;> omega)]
      simp only
      rw [assertM_ok (by simp; omega)]
      simp only
      rw [hacc]
      simp only
      rw [chkI32_ok (by omega) (by omega)]
      simp only
      rw [chkI32_ok (by omega) (by omega)]
      rfl
    have hacc2 : ∀ c < ch, acc' c = tapSum (j + 1) (fun j => sincCoeff f.coeffs (fi0 - j * incr))
        (fun j => Fl.conv f64 (f.buffer (di0 - j * ch + (c : ℤ)))) := by
      intro c hc
      rw [hacc' c hc, ha c hc]
      simp only [tapSum]
      rw [hf, hd]
    have hfe : s.filterIndex - incr = fi0 - ((j : ℤ) + 1) * incr := by rw [hf]; ring
    refine ⟨_, _, hstep, fun hb => ⟨⟨j + 1, ?_, ?_, ?_, hacc2⟩, ?_⟩, fun hb => ?_⟩
    · have := of_decide_eq_true hb
      have h2 := (hpos j (by positivity)).1 (by rw [← hfe]; exact this)
      have : (fi0 + incr - 1) / incr ≤ N := le_max_right _ _
      push_cast; omega
    · push_cast; rw [hfe]
    · push_cast; rw [hd]; ring
    · simp only; omega
    · have h1 : ¬ (s.filterIndex - incr > 0) := of_decide_eq_false hb
      have h2 : ¬ ((j : ℤ) + 1 < (fi0 + incr - 1) / incr) := fun h => h1 (by rw [hfe]; exact (hpos j (by positivity)).2 h)
      have : (N.toNat) = j + 1 := by
        rcases le_total ((fi0 + incr - 1) / incr) 1 with h | h
        · have : N = 1 := by rw [hN, max_eq_left h]
          omega
        · have : N = (fi0 + incr - 1) / incr := by rw [hN, max_eq_right h]
          omega
      rw [this]
      exact hacc2
  · exact ⟨0, by simpa using by omega, by simp, by simp, fun c _ => rfl⟩
  · simp only; omega

theorem tapSum_congr {n : ℕ} {h h' x x' : ℕ → F64} (hh : ∀ j < n, h j = h' j) (hx : ∀ j < n, x j = x' j) :
    tapSum n h x = tapSum n h' x' := by
  induction n with
  | zero => rfl
  | succ n ih =>
    simp only [tapSum]
    rw [ih (fun j hj => hh j (by omega)) (fun j hj => hx j (by omega)), hh n (by omega), hx n (by omega)]

/-- What the filter evaluation needs. `D` is the number of frames before the current one. -/
structure TapPre (v : SincVariant) (f : SincFilter) (ch : ℕ) (incr start D : ℤ) : Prop where
  hv : v.Fits ch
  hch : 1 ≤ ch
  hchM : ch ≤ 1000000
  hinc : 1 ≤ incr
  hincM : incr ≤ 4096 * f.coeffHalfLen
  hincB : incr ≤ 300000000
  hs0 : 0 ≤ start
  hs1 : start ≤ incr
  hcl : 4096 * f.coeffHalfLen ≤ 1500000000
  hB : f.bLen ≤ 1000000000
  hbe : f.bEnd ≤ f.bLen
  hD : 0 ≤ D
  hcur : f.bCurrent = ch * D
  hend : ch * (D + (4096 * f.coeffHalfLen - (incr - start)) / incr + 2) ≤ f.bEnd

theorem leftSkip_ok {D cc start w : ℤ} (hw : 1 ≤ w) (hinc : 1 ≤ incr) (hcc : 0 ≤ cc) (hD : 0 ≤ D)
    (hs0 : 0 ≤ start) (hfi : start + cc * incr ≤ 1500000000) (hincM : incr ≤ 300000000) (hdi : w * cc ≤ 1000000000)
    (hwM : w ≤ 1000000) :
    leftSkip w incr (start + cc * incr) (w * D - w * cc) =
      .ok (start + min cc D * incr, w * (D - min cc D)) := by
  unfold leftSkip
  have hcw : 0 ≤ cc * incr := mul_nonneg hcc (by omega)
  rcases le_or_gt cc D with h | h
  · have : 0 ≤ w * (D - cc) := mul_nonneg (by omega) (by omega)
    rw [if_neg (by have : w * (D - cc) = w * D - w * cc := by ring
                   omega), min_eq_left h]
    simp only [pure, Except.pure]
    congr 2; ring
  · have hneg : w * D - w * cc < 0 := by nlinarith
    rw [if_pos hneg, min_eq_right h.le]
    have e1 : -(w * D - w * cc) = w * (cc - D) := by ring
    have hp : 1 ≤ cc - D := by omega
    have hwD : w * (cc - D) ≤ w * cc := by nlinarith
    have hwD0 : 0 < w * (cc - D) := by positivity
    have s1 : intDivCeil (-(w * D - w * cc)) w = .ok (cc - D) := by
      unfold intDivCeil
      rw [e1, assertM_ok (by simp; omega)]
      simp only [bind, Except.bind]
      rw [chkI32_ok (by omega) (by omega)]
      simp only
      rw [divM_ok (by omega)]
      congr 1
      rw [Int.tdiv_eq_ediv_of_nonneg (by omega)]
      rw [show w * (cc - D) + (w - 1) = (w - 1) + w * (cc - D) by ring, Int.add_mul_ediv_left _ _ (by omega),
        Int.ediv_eq_zero_of_lt (by omega) (by omega)]
      ring
    have s2 : intDivCeil (start + cc * incr) incr = .ok ((start + cc * incr + (incr - 1)) / incr) := by
      unfold intDivCeil
      rw [assertM_ok (by simp; omega)]
      simp only [bind, Except.bind]
      rw [chkI32_ok (by omega) (by omega)]
      simp only
      rw [divM_ok (by omega), Int.tdiv_eq_ediv_of_nonneg (by omega)]
    have s3 : cc - D ≤ (start + cc * incr + (incr - 1)) / incr := by
      have : cc ≤ (start + cc * incr + (incr - 1)) / incr := by
        rw [Int.le_ediv_iff_mul_le (by omega)]; omega
      omega
    have hpi : incr * (cc - D) ≤ cc * incr := by nlinarith
    have hpi0 : 0 ≤ incr * (cc - D) := by positivity
    rw [s1]
    simp only [bind, Except.bind]
    rw [s2]
    simp only
    rw [assertM_ok (by simpa using s3)]
    simp only
    rw [chkI32_ok (by omega) (by omega)]
    simp only
    rw [chkI32_ok (by omega) (by omega)]
    simp only
    have e2 : (cc - D) * w = w * (cc - D) := by ring
    rw [e2, chkI32_ok (by omega) (by omega)]
    simp only
    rw [chkI32_ok (by omega) (by omega)]
    simp only [pure, Except.pure]
    congr 2 <;> ring

theorem calcOutput_ok {start D : ℤ} (h : TapPre v f ch incr start D) :
    ∃ sum, calcOutput v f ch incr start = .ok sum ∧
      ∀ c < ch, sum c = Fl.add
        (sincLeft f.coeffs f.coeffHalfLen incr start D (fun k => Fl.conv f64 (f.buffer (ch * (D + k) + (c : ℤ)))))
        (sincRight f.coeffs f.coeffHalfLen incr start (fun k => Fl.conv f64 (f.buffer (ch * (D + k) + (c : ℤ))))) := by
  obtain ⟨hv, hch, hchM, hinc, hincM, hincB, hs0, hs1, hcl, hB, hbe, hD, hcur, hend⟩ := h
  have hchz : (1 : ℤ) ≤ ch := by exact_mod_cast hch
  have hchz2 : (ch : ℤ) ≤ 1000000 := by exact_mod_cast hchM
  set F := 4096 * f.coeffHalfLen with hF
  set cl := (F - start) / incr with hcl'
  set cr := (F - (incr - start)) / incr with hcr
  have hcl0 : 0 ≤ cl := Int.ediv_nonneg (by omega) (by omega)
  have hcr0 : 0 ≤ cr := Int.ediv_nonneg (by omega) (by omega)
  have hclm : cl * incr ≤ F - start := Int.ediv_mul_le _ (by omega)
  have hcrm : cr * incr ≤ F - (incr - start) := Int.ediv_mul_le _ (by omega)
  have hclm0 : 0 ≤ cl * incr := mul_nonneg hcl0 (by omega)
  have hcrm0 : 0 ≤ cr * incr := mul_nonneg hcr0 (by omega)
  have hclcr : cl ≤ cr + 1 := by
    have : cr + 1 = (F - (incr - start) + 1 * incr) / incr := by
      rw [Int.add_mul_ediv_right _ _ (by omega)]
    rw [this]
    exact Int.ediv_le_ediv (by omega) (by omega)
  have hDc : 0 ≤ ch * D := mul_nonneg (by omega) hD
  have hcrc : 0 ≤ ch * cr := mul_nonneg (by omega) hcr0
  have hclc : ch * cl ≤ ch * (cr + 1) := mul_le_mul_of_nonneg_left hclcr (by omega)
  have hclc0 : 0 ≤ ch * cl := mul_nonneg (by omega) hcl0
  have hend' : ch * D + ch * cr + 2 * ch ≤ f.bEnd := by
    calc _ = ch * (D + cr + 2) := by ring
      _ ≤ _ := hend
  have hm0 : 0 ≤ min cl D := le_min hcl0 hD
  have hm1 : min cl D ≤ cl := min_le_left _ _
  have hm2 : min cl D ≤ D := min_le_right _ _
  set a := min cl D with ha
  have ham : a * incr ≤ cl * incr := mul_le_mul_of_nonneg_right hm1 (by omega)
  have ham0 : 0 ≤ a * incr := mul_nonneg hm0 (by omega)
  have hac : ch * a ≤ ch * D := mul_le_mul_of_nonneg_left hm2 (by omega)
  -- left taps stay in the buffer
  have hq : (start + a * incr) / incr ≤ a + 1 := by
    rw [Int.add_mul_ediv_right _ _ (by omega)]
    have : start / incr ≤ 1 := by
      rw [Int.ediv_le_iff_le_mul (by omega)]; omega
    omega
  have hq' : (start + a * incr) / incr * ch ≤ (a + 1) * ch := mul_le_mul_of_nonneg_right hq (by omega)
  obtain ⟨l, hl, hl'⟩ := left_loop (v := v) (f := f) (fi0 := start + a * incr) (di0 := ch * (D - a)) hv hch hinc (by omega) hB
    (by omega) (by omega) (by omega) (mul_nonneg (by omega) (by omega))
    (by have : (ch : ℤ) * (D - a) + (a + 1) * ch = ch * D + ch := by ring
        omega) hbe
  have hN : max 1 ((incr - start + cr * incr + incr - 1) / incr) - 1 ≤ cr := by
    have : (incr - start + cr * incr + incr - 1) / incr ≤ cr + 1 := by
      rw [Int.ediv_le_iff_le_mul (by omega)]
      have : (cr + 1) * incr = cr * incr + incr := by ring
      omega
    omega
  have hN' : (max 1 ((incr - start + cr * incr + incr - 1) / incr) - 1) * ch ≤ cr * ch := mul_le_mul_of_nonneg_right hN (by omega)
  obtain ⟨r, hr, hr'⟩ := right_loop (v := v) (f := f) (fi0 := incr - start + cr * incr) (di0 := ch * D + ch * (1 + cr)) hv hch hinc
    (by omega) hB (by omega) hchM (by omega) (by omega)
    (by have : (ch : ℤ) * (1 + cr) = ch + cr * ch := by ring
        omega)
    (by have : (ch : ℤ) * (1 + cr) = ch + ch * cr := by ring
        omega) hbe
  refine ⟨fun c => Fl.add (l.acc c) (r.acc c), ?_, fun c hc => ?_⟩
  · unfold calcOutput intToFp
    rw [hv.1, show f.coeffHalfLen * 4096 = F by rw [hF]; ring, chkI32_ok (by omega) (by omega)]
    simp only [bind, Except.bind]
    rw [chkI32_ok (by omega) (by omega)]
    simp only
    rw [divM_ok (by omega), Int.tdiv_eq_ediv_of_nonneg (by omega)]
    simp only [← hcl']
    rw [chkI32_ok (by omega) (by omega)]
    simp only
    rw [chkI32_ok (by omega) (by omega)]
    simp only
    rw [chkI32_ok (by omega) (by have : (ch : ℤ) * (cr + 1) = ch * cr + ch := by ring
                                 omega)]
    simp only
    rw [hcur, chkI32_ok (by have : (ch : ℤ) * (cr + 1) = ch * cr + ch := by ring
                            omega) (by omega)]
    simp only
    rw [leftSkip_ok hchz hinc hcl0 hD hs0 (by omega) (by omega)
      (by have : (ch : ℤ) * (cr + 1) = ch * cr + ch := by ring
          omega) hchz2]
    simp only
    rw [hl]
    simp only
    rw [chkI32_ok (by omega) (by omega)]
    simp only
    rw [chkI32_ok (by omega) (by omega)]
    simp only
    rw [divM_ok (by omega), Int.tdiv_eq_ediv_of_nonneg (by omega)]
    simp only [← hcr]
    rw [chkI32_ok (by omega) (by omega)]
    simp only
    rw [chkI32_ok (by omega) (by omega)]
    simp only
    have e : (ch : ℤ) * (1 + cr) = ch + ch * cr := by ring
    rw [chkI32_ok (by omega) (by omega)]
    simp only
    rw [chkI32_ok (by omega) (by omega)]
    simp only
    rw [hr]
    rfl
  · dsimp only
    rw [hl' c hc, hr' c hc]
    unfold sincLeft sincRight
    simp only [← hF, ← hcl', ← hcr, ← ha]
    congr 1
    · apply tapSum_congr (fun _ _ => rfl)
      intro j _
      congr 2; ring
    · apply tapSum_congr (fun _ _ => rfl)
      intro j _
      congr 2; ring

theorem bindM_ok {α β : Type} {x : M α} {g : α → M β} {b : β} (h : (x >>= g) = .ok b) : ∃ a, x = .ok a ∧ g a = .ok b := by
  cases x with
  | error e => cases h
  | ok a => exact ⟨a, rfl, h⟩

theorem chkI32_inv {a n : ℤ} (h : chkI32 a = .ok n) : n = a := by
  unfold chkI32 at h
  split_ifs at h
  cases h; rfl

theorem assertM_inv {b : Bool} {u : Unit} (h : assertM b = .ok u) : b = true := by
  unfold assertM at h
  cases b
  · cases h
  · rfl

/-- If the buffer ends less than one frame before the reach of the filter, the assertion on the first right tap fails. -/
theorem calcOutput_short {start D : ℤ} (hv : v.Fits ch) (hch : 1 ≤ ch) (hchM : ch ≤ 1000000) (hinc : 1 ≤ incr) (hincM : incr ≤ 4096 * f.coeffHalfLen)
    (hincB : incr ≤ 300000000) (hs0 : 0 ≤ start) (hs1 : start ≤ incr) (hcl : 4096 * f.coeffHalfLen ≤ 1500000000) (hB : f.bLen ≤ 1000000000)
    (hbe : f.bEnd ≤ f.bLen) (hD : 0 ≤ D) (hcur : f.bCurrent = ch * D)
    (hin : ch * (D + (4096 * f.coeffHalfLen - (incr - start)) / incr + 1) ≤ f.bEnd)
    (hshort : f.bEnd < ch * (D + (4096 * f.coeffHalfLen - (incr - start)) / incr + 2)) :
    calcOutput v f ch incr start = .error .assertFailed := by
  have hchz : (1 : ℤ) ≤ ch := by exact_mod_cast hch
  have hchz2 : (ch : ℤ) ≤ 1000000 := by exact_mod_cast hchM
  set F := 4096 * f.coeffHalfLen with hF
  set cl := (F - start) / incr with hcl'
  set cr := (F - (incr - start)) / incr with hcr
  have hcl0 : 0 ≤ cl := Int.ediv_nonneg (by omega) (by omega)
  have hcr0 : 0 ≤ cr := Int.ediv_nonneg (by omega) (by omega)
  have hclm : cl * incr ≤ F - start := Int.ediv_mul_le _ (by omega)
  have hcrm : cr * incr ≤ F - (incr - start) := Int.ediv_mul_le _ (by omega)
  have hclm0 : 0 ≤ cl * incr := mul_nonneg hcl0 (by omega)
  have hcrm0 : 0 ≤ cr * incr := mul_nonneg hcr0 (by omega)
  have hclcr : cl ≤ cr + 1 := by
    have : cr + 1 = (F - (incr - start) + 1 * incr) / incr := by
      rw [Int.add_mul_ediv_right _ _ (by omega)]
    rw [this]
    exact Int.ediv_le_ediv (by omega) (by omega)
  have hDc : 0 ≤ ch * D := mul_nonneg (by omega) hD
  have hcrc : 0 ≤ ch * cr := mul_nonneg (by omega) hcr0
  have hclc : ch * cl ≤ ch * (cr + 1) := mul_le_mul_of_nonneg_left hclcr (by omega)
  have hclc0 : 0 ≤ ch * cl := mul_nonneg (by omega) hcl0
  have hin' : ch * D + ch * cr + ch ≤ f.bEnd := by
    calc _ = ch * (D + cr + 1) := by ring
      _ ≤ _ := hin
  have hshort' : f.bEnd < ch * D + ch * cr + 2 * ch := by
    calc f.bEnd < ch * (D + cr + 2) := hshort
      _ = _ := by ring
  have hm0 : 0 ≤ min cl D := le_min hcl0 hD
  have hm1 : min cl D ≤ cl := min_le_left _ _
  have hm2 : min cl D ≤ D := min_le_right _ _
  set a := min cl D with ha
  have ham : a * incr ≤ cl * incr := mul_le_mul_of_nonneg_right hm1 (by omega)
  have ham0 : 0 ≤ a * incr := mul_nonneg hm0 (by omega)
  have hac : ch * a ≤ ch * D := mul_le_mul_of_nonneg_left hm2 (by omega)
  have hnd : (start + a * incr) / incr ≤ a + 1 := by
    rw [Int.add_mul_ediv_right _ _ (by omega)]
    have : start / incr ≤ 1 := by
      rw [Int.ediv_le_iff_le_mul (by omega)]; omega
    omega
  -- the left taps end at the current frame, or one further if the filter reaches further too
  have hq : (start + a * incr) / incr ≤ a + 1 ∧ ((start + a * incr) / incr = a + 1 → 1 ≤ cr) := by
    refine ⟨hnd, fun h => ?_⟩
    rw [Int.add_mul_ediv_right _ _ (by omega)] at h
    have h1 : 1 ≤ start / incr := by omega
    have h2 := (Int.le_ediv_iff_mul_le (show 0 < incr by omega)).1 h1
    have : (1 : ℤ) ≤ (F - (incr - start)) / incr := by
      rw [Int.le_ediv_iff_mul_le (by omega)]; omega
    exact this
  have hq' : (ch : ℤ) * (D - a) + (start + a * incr) / incr * ch + ch ≤ f.bEnd := by
    rcases eq_or_lt_of_le hq.1 with h | h
    · have h1 := hq.2 h
      rw [h]
      have : (ch : ℤ) * 1 ≤ ch * cr := mul_le_mul_of_nonneg_left h1 (by omega)
      have e : (ch : ℤ) * (D - a) + (a + 1) * ch + ch = ch * D + 2 * ch := by ring
      omega
    · have h1 : (start + a * incr) / incr * ch ≤ a * ch := mul_le_mul_of_nonneg_right (by omega) (by omega)
      have e : (ch : ℤ) * (D - a) + a * ch + ch = ch * D + ch := by ring
      omega
  obtain ⟨l, hl, -⟩ := left_loop (v := v) (f := f) (fi0 := start + a * incr) (di0 := ch * (D - a)) hv hch hinc (by omega) hB
    (by omega) (by omega) (by omega) (mul_nonneg (by omega) (by omega)) hq' hbe
  have hright : whileM (rightStep v f ch incr) ((incr - start + cr * incr).toNat + 2) ⟨incr - start + cr * incr, ch * D + ch * (1 + cr), fun _ => zero64⟩ =
      .error .assertFailed := by
    have b1 : fpToInt (incr - start + cr * incr) ≥ 0 := by unfold fpToInt; omega
    have b2 : fpToInt (incr - start + cr * incr) + 1 < f.coeffHalfLen + 2 := by unfold fpToInt; omega
    have hA : rightAssert v f (fpToInt (incr - start + cr * incr)) = .ok () := by
      unfold rightAssert
      split_ifs
      · rw [assertM_ok (by simp; omega)]
      · rw [assertM_ok (by simp [b1, b2])]
    have hi := icoeff_ok (f := f) (fi := incr - start + cr * incr) (by omega) (by omega)
    have e : (ch : ℤ) * (1 + cr) = ch + ch * cr := by ring
    have hstep : rightStep v f ch incr ⟨incr - start + cr * incr, ch * D + ch * (1 + cr), fun _ => zero64⟩ = .error .assertFailed := by
      unfold rightStep
      rw [hv.1]
      dsimp only
      rw [hA, hi]
      simp only [bind, Except.bind]
      have h2 : assertM (decide (ch * D + ch * (1 + cr) + (ch : ℤ) - 1 < f.bEnd)) = .error .assertFailed := by
        rw [decide_eq_false (by omega)]; rfl
      cases h1 : (decide (ch * D + ch * (1 + cr) ≥ (0 : ℤ)) && decide (ch * D + ch * (1 + cr) + (ch : ℤ) - 1 < f.bLen)) with
      | false => rfl
      | true =>
        simp only [assertM_ok, h2]
    rw [whileM, hstep]
    rfl
  unfold calcOutput intToFp
  rw [hv.1, show f.coeffHalfLen * 4096 = F by rw [hF]; ring, chkI32_ok (by omega) (by omega)]
  simp only [bind, Except.bind]
  rw [chkI32_ok (by omega) (by omega)]
  simp only
  rw [divM_ok (by omega), Int.tdiv_eq_ediv_of_nonneg (by omega)]
  simp only [← hcl']
  rw [chkI32_ok (by omega) (by omega)]
  simp only
  rw [chkI32_ok (by omega) (by omega)]
  simp only
  rw [chkI32_ok (by omega) (by have : (ch : ℤ) * (cr + 1) = ch * cr + ch := by ring
                               omega)]
  simp only
  rw [hcur, chkI32_ok (by have : (ch : ℤ) * (cr + 1) = ch * cr + ch := by ring
                          omega) (by omega)]
  simp only
  rw [leftSkip_ok hchz hinc hcl0 hD hs0 (by omega) (by omega)
    (by have : (ch : ℤ) * (cr + 1) = ch * cr + ch := by ring
        omega) hchz2]
  simp only
  rw [hl]
  simp only
  rw [chkI32_ok (by omega) (by omega)]
  simp only
  rw [chkI32_ok (by omega) (by omega)]
  simp only
  rw [divM_ok (by omega), Int.tdiv_eq_ediv_of_nonneg (by omega)]
  simp only [← hcr]
  rw [chkI32_ok (by omega) (by omega)]
  simp only
  rw [chkI32_ok (by omega) (by omega)]
  simp only
  have e : (ch : ℤ) * (1 + cr) = ch + ch * cr := by ring
  rw [chkI32_ok (by omega) (by omega)]
  simp only
  rw [chkI32_ok (by omega) (by omega)]
  simp only
  rw [hright]

end
end Verif
