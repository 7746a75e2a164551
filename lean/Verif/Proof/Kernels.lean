import Verif.Proof.Body
import Verif.Spec.Interp

/-! The two kernels meet the requirements of the common skeleton. -/

namespace Verif
open Spec

/-- Input frames of a call. -/
def inFrames (m : Mem) (d : SrcData) (ch : ℕ) (k c : ℕ) : F32 := m (d.dataIn + ((ch * k + c : ℕ) : ℤ))

/-- Channel `c` of a stored frame. -/
def lastFn (lv : List F32) (c : ℕ) : F32 := lv[c]?.getD zero32

theorem rdLast_ok {lv : List F32} {ch c : ℕ} (h : lv.length = ch) (hc : c < ch) : rdLast lv c = .ok (lastFn lv c) := by
  unfold rdLast lastFn
  rw [List.getElem?_eq_getElem (by omega)]
  rfl

section
variable {m : Mem} {st : SrcState} {d : SrcData} {ch n o : ℕ} {l t p : ℚ} (C : Ctx m st d ch n o l t p)
include C

theorem Ctx.rdIn_ok {m' : Mem} (hm : SameInput d ch n m m') {k c : ℕ} (hk : k < n) (hc : c < ch) :
    rdIn m' d ch ((ch * k + c : ℕ) : ℤ) = .ok (inFrames m d ch k c) := by
  have hlt : ch * k + c < ch * n := by
    have : ch * (k + 1) ≤ ch * n := Nat.mul_le_mul_left _ hk
    have e : ch * (k + 1) = ch * k + ch := by ring
    omega
  unfold rdIn
  rw [if_neg C.hin, if_pos]
  · rw [hm _ hlt]; rfl
  · constructor
    · positivity
    · rw [C.hn]
      have : ((ch * k + c : ℕ) : ℤ) < ((ch * n : ℕ) : ℤ) := by exact_mod_cast hlt
      push_cast at this ⊢; rw [mul_comm (n : ℤ)]; exact this

end

/-- value of `in_used + channels * input_index` -/
theorem guard_val {ch : ℕ} {s : LoopSt} {K : ℕ} {i : ℚ} (hin : s.inUsed = ((ch * K : ℕ) : ℤ)) (hi : s.idx.val = some i)
    (h0 : 0 ≤ i) (h1 : i < 1) (hch : ch ≤ 8355967) (hK : ch * K ≤ 2 ^ 53) :
    (Fl.add (dbl s.inUsed) (Fl.mul (dbl (ch : ℤ)) s.idx)).val = some (r64 (((ch * K : ℕ) : ℚ) + r64 ((ch : ℚ) * i))) := by
  have hd1 : (dbl s.inUsed).val = some ((ch * K : ℕ) : ℚ) := by
    rw [hin]
    have := dbl_val (n := ((ch * K : ℕ) : ℤ)) (by rw [abs_of_nonneg (by positivity)]; exact_mod_cast hK)
    rw [this]; norm_cast
  have hd2 : (dbl (ch : ℤ)).val = some (ch : ℚ) := by
    have := dbl_val (n := (ch : ℤ)) (by
      rw [abs_of_nonneg (by positivity)]
      have : (ch : ℤ) ≤ 8355967 := by exact_mod_cast hch
      exact this.trans (by norm_num))
    rw [this]; norm_cast
  have hchq : (ch : ℚ) ≤ 8355967 := by exact_mod_cast hch
  have hm0 : 0 ≤ (ch : ℚ) * i := by positivity
  have hm1 : (ch : ℚ) * i ≤ 8355967 := by nlinarith
  have s1 := mul64 hd2 hi (by rw [abs_of_nonneg hm0]; exact hm1.trans (by norm_num))
  have hr : r64 ((ch : ℚ) * i) ≤ 8355967 := by
    apply rq_le _ hm1
    have := rep64_nat (n := 8355967) (by norm_num)
    exact_mod_cast this
  have hK' : ((ch * K : ℕ) : ℚ) ≤ 2 ^ 53 := by exact_mod_cast hK
  apply add64 hd1 s1
  rw [abs_of_nonneg (add_nonneg (by positivity) (rq_nonneg hm0))]
  linarith [(by norm_num : (2 : ℚ) ^ 53 + 8355967 ≤ 2 ^ 100)]

/-- A fraction below 1 is at most `1 - 2^-53`. -/
theorem frac_le {i : ℚ} (hr : Rep0 f64 i) (h1 : i < 1) : i ≤ 1 - p2 (-53) := by
  obtain ⟨m, e, he, hm, rfl⟩ := hr
  have hp := p2_pos e
  by_cases hm0 : m ≤ 0
  · have : (m : ℚ) * p2 e ≤ 0 := by
      apply mul_nonpos_of_nonpos_of_nonneg _ hp.le
      exact_mod_cast hm0
    have : p2 (-53) ≤ 1 := by rw [← p2_zero]; exact p2_le (by norm_num)
    linarith
  · push Not at hm0
    have he0 : e < 0 := by
      by_contra hh
      push Not at hh
      have h1' : (1 : ℚ) ≤ p2 e := by rw [← p2_zero]; exact p2_le hh
      have : (1 : ℚ) ≤ m := by exact_mod_cast hm0
      nlinarith
    -- scale by 2^-e
    have key : m ≤ 2 ^ (-e).toNat - 1 := by
      have : (m : ℚ) < p2 (-e) := by
        have e1 : p2 (-e) * p2 e = 1 := by rw [← p2_add]; simp
        by_contra hh
        push Not at hh
        have := mul_le_mul_of_nonneg_right hh hp.le
        rw [e1] at this
        linarith
      rw [p2_int (by omega)] at this
      have : m < 2 ^ (-e).toNat := by exact_mod_cast this
      omega
    by_cases h53 : -53 ≤ e
    · have : (m : ℚ) ≤ p2 (-e) - 1 := by
        rw [p2_int (by omega)]
        exact_mod_cast key
      have h2 := mul_le_mul_of_nonneg_right this hp.le
      rw [sub_mul, ← p2_add, neg_add_cancel, p2_zero, one_mul] at h2
      have := p2_le h53
      linarith
    · push Not at h53
      have hm' : (m : ℚ) ≤ p2 53 - 1 := by
        have : |m| < 2 ^ 53 := hm
        rw [abs_of_pos hm0] at this
        have : m ≤ 2 ^ 53 - 1 := by omega
        have h3 : (m : ℚ) ≤ 2 ^ 53 - 1 := by exact_mod_cast this
        have : p2 53 = 2 ^ 53 := by norm_num [p2]
        rw [this]; exact h3
      have h2 : (m : ℚ) * p2 e ≤ p2 53 * p2 e := mul_le_mul_of_nonneg_right (by linarith) hp.le
      rw [← p2_add] at h2
      have h3 : p2 (53 + e) ≤ p2 (-1) := p2_le (by omega)
      have h4 : p2 (-1) = 1 / 2 := by norm_num [p2]
      have h5 : p2 (-53) ≤ p2 (-1) := p2_le (by norm_num)
      rw [h4] at h3 h5
      generalize p2 (-53) = u at *
      linarith

/-- `channels * i` rounds below `channels` for a fraction `i < 1`. -/
theorem chan_frac_lt_wide {ch : ℕ} {i : ℚ} (hch : 1 ≤ ch) (hr : Rep0 f64 i) (h0 : 0 ≤ i) (h1 : i < 1) :
    r64 ((ch : ℚ) * i) < ch := by
  have hi := frac_le hr h1
  have hcq : (1 : ℚ) ≤ ch := by exact_mod_cast hch
  -- neighbours of ch: multiples of 2^(L-52)
  obtain ⟨hL1, hL2⟩ : p2 (Int.log 2 (ch : ℚ)) ≤ ch ∧ (ch : ℚ) < p2 (Int.log 2 (ch : ℚ) + 1) :=
    ⟨p2_log_le (by linarith), lt_p2_log _⟩
  set L := Int.log 2 (ch : ℚ) with hL
  have hL0 : 0 ≤ L := by
    by_contra hh
    push Not at hh
    have : p2 (L + 1) ≤ p2 0 := p2_le (by omega)
    rw [p2_zero] at this
    linarith
  by_cases hpow : (ch : ℚ) = p2 L
  · -- power of two: exact predecessor
    have hle : (ch : ℚ) * i ≤ ch * (1 - p2 (-53)) := mul_le_mul_of_nonneg_left hi (by linarith)
    have hrep : Rep0 f64 ((ch : ℚ) * (1 - p2 (-53))) := by
      refine ⟨2 ^ 53 - 1, L - 53, by simp only [f64]; omega, by norm_num [f64], ?_⟩
      rw [hpow, mul_sub, ← p2_add, mul_one]
      have : (((2 ^ 53 - 1 : ℤ) : ℤ) : ℚ) = p2 53 - 1 := by norm_num [p2]
      rw [this, sub_mul, ← p2_add, one_mul]
      congr 2; ring
    have := rq_le hrep hle
    have hp := p2_pos (-53)
    nlinarith
  · -- otherwise ch * i is closer to the predecessor
    have hgt : p2 L < ch := lt_of_le_of_ne hL1 (Ne.symm hpow)
    by_contra hcon
    push Not at hcon
    have hxle : (ch : ℚ) * i ≤ ch - ch * p2 (-53) := by nlinarith [mul_le_mul_of_nonneg_left hi (by linarith : (0:ℚ) ≤ ch)]
    have hxlt : |(ch : ℚ) * i| < p2 (L + 1) := by
      rw [abs_of_nonneg (by positivity)]
      have hp := p2_pos (-53)
      nlinarith
    have herr := abs_rq_sub_le_of_lt (f := f64) hxlt (by simp only [f64]; omega)
    have h3 := (abs_le.1 herr).2
    have e1 : L + 1 - (f64.prec : ℤ) - 1 = L - 53 := by simp only [f64]; ring
    have e2 : p2 L * p2 (-53) = p2 (L - 53) := by rw [← p2_add]; congr 1
    have h4 : p2 L * p2 (-53) < ch * p2 (-53) := mul_lt_mul_of_pos_right hgt (p2_pos _)
    rw [e1] at h3; rw [e2] at h4
    generalize p2 (-53) = u at *
    linarith

theorem chan_frac_lt {ch : ℕ} {i : ℚ} (hch : 1 ≤ ch) (_hchM : ch ≤ 8355967) (hr : Rep0 f64 i) (h0 : 0 ≤ i) (h1 : i < 1) :
    r64 ((ch : ℚ) * i) < ch := chan_frac_lt_wide hch hr h0 h1

/-- A fraction below 1 other than `1 - 2^-53` is at most `1 - 2^-52`. -/
theorem frac_le_of_ne {i : ℚ} (hr : Rep0 f64 i) (h1 : i < 1) (hne : i ≠ 1 - p2 (-53)) : i ≤ 1 - p2 (-52) := by
  have hi := frac_le hr h1
  have e52 : p2 (-52) = 2 * p2 (-53) := by norm_num [p2]
  by_contra hcon
  push Not at hcon
  obtain ⟨m, e, he, hm, rfl⟩ := hr
  have hp := p2_pos e
  have he53 : -53 ≤ e := by
    by_contra hh
    push Not at hh
    have h2 : (m : ℚ) * p2 e ≤ p2 53 * p2 e := by
      refine mul_le_mul_of_nonneg_right ?_ hp.le
      have : (m : ℚ) < 2 ^ 53 := by exact_mod_cast (le_abs_self m).trans_lt hm
      have e53 : p2 53 = 2 ^ 53 := by norm_num [p2]
      rw [e53]; exact this.le
    rw [← p2_add] at h2
    have h3 : p2 (53 + e) ≤ p2 (-1) := p2_le (by omega)
    have h4 : p2 (-1) = 1 / 2 := by norm_num [p2]
    have h5 : p2 (-52) < 1 / 2 := by norm_num [p2]
    rw [h4] at h3
    have h6 := hcon.trans_le (h2.trans h3)
    clear h2 h3 hcon hi e52 hne h1
    generalize p2 (-52) = u at *
    linarith
  obtain ⟨w, hw⟩ : ∃ w : ℤ, (m : ℚ) * p2 e = w * p2 (-53) := by
    refine ⟨m * 2 ^ (e + 53).toNat, ?_⟩
    have e1 : p2 e = p2 (e + 53) * p2 (-53) := by rw [← p2_add]; congr 1; ring
    rw [e1, p2_int (by omega)]
    push_cast; ring
  rw [hw] at hi hne hcon
  have e53 : (1 : ℚ) = 2 ^ 53 * p2 (-53) := by norm_num [p2]
  have hpp := p2_pos (-53)
  rw [e52] at hcon
  generalize p2 (-53) = u at *
  have k1 : (w : ℚ) ≤ 2 ^ 53 - 1 := by
    by_contra hh; push Not at hh
    nlinarith
  have k2 : (2 : ℚ) ^ 53 - 2 < w := by
    by_contra hh; push Not at hh
    nlinarith
  have k3 : w ≤ 2 ^ 53 - 1 := by exact_mod_cast k1
  have k4 : 2 ^ 53 - 2 < w := by exact_mod_cast k2
  have k5 : w = 2 ^ 53 - 1 := by omega
  apply hne
  rw [k5]; push_cast
  linarith

/-- Continuation test of the zero order hold converter. -/
def zohG (ch n : ℕ) (P : Pos) : Prop := r64 (((ch * P.k : ℕ) : ℚ) + r64 ((ch : ℚ) * P.i)) ≤ ((ch * n : ℕ) : ℚ)
/-- Continuation test of the linear converter. -/
def linG (ch n : ℕ) (P : Pos) : Prop := r64 (((ch * P.k : ℕ) : ℚ) + r64 ((ch : ℚ) * P.i)) < ((ch * n : ℕ) : ℚ)
/-- The start-up loop of the linear converter does not break off. -/
def linDom (ch n : ℕ) (P : Pos) : Prop := P.k = 0 → r64 ((ch : ℚ) * r64 (1 + P.i)) < ((ch * n : ℕ) : ℚ)

theorem rep64_frames {ch n : ℕ} (h : ch * n ≤ 2 ^ 53) : Rep0 f64 ((ch * n : ℕ) : ℚ) := rep64_nat h

theorem zohG_bound {ch n : ℕ} {P : Pos} (hch : 1 ≤ ch) (hn : ch * n + ch ≤ 2 ^ 53) (h : zohG ch n P) (h0 : 0 ≤ P.i) :
    P.k ≤ n := by
  by_contra hk
  push Not at hk
  have e : ch * (n + 1) ≤ ch * P.k := Nat.mul_le_mul_left _ hk
  have e2 : ch * (n + 1) = ch * n + ch := by ring
  have hr : 0 ≤ r64 ((ch : ℚ) * P.i) := rq_nonneg (by positivity)
  have h1 : ((ch * (n + 1) : ℕ) : ℚ) ≤ ((ch * P.k : ℕ) : ℚ) + r64 ((ch : ℚ) * P.i) := by
    have : ((ch * (n + 1) : ℕ) : ℚ) ≤ ((ch * P.k : ℕ) : ℚ) := by exact_mod_cast e
    linarith
  have h2 := le_rq (rep64_frames (by omega)) h1
  have h3 := h2.trans h
  have : ch * (n + 1) ≤ ch * n := by exact_mod_cast h3
  omega

theorem linG_bound {ch n : ℕ} {P : Pos} (hn : ch * n ≤ 2 ^ 53) (h : linG ch n P) (h0 : 0 ≤ P.i) :
    P.k < n := by
  by_contra hk
  push Not at hk
  have e : ch * n ≤ ch * P.k := Nat.mul_le_mul_left _ hk
  have hr : 0 ≤ r64 ((ch : ℚ) * P.i) := rq_nonneg (by positivity)
  have h1 : ((ch * n : ℕ) : ℚ) ≤ ((ch * P.k : ℕ) : ℚ) + r64 ((ch : ℚ) * P.i) := by
    have : ((ch * n : ℕ) : ℚ) ≤ ((ch * P.k : ℕ) : ℚ) := by exact_mod_cast e
    linarith
  have h2 := le_rq (rep64_frames hn) h1
  exact absurd h (not_lt.2 h2)

theorem zohG_of_lt {ch n : ℕ} {P : Pos} (hn : ch * n ≤ 2 ^ 52) (hchM : ch ≤ 8355967) (hk : P.k < n) (h0 : 0 ≤ P.i)
    (h1 : P.i < 1) : zohG ch n P := by
  unfold zohG
  apply rq_le (rep64_frames (by omega))
  have hc : r64 ((ch : ℚ) * P.i) ≤ ch := by
    apply rq_le (rep64_nat (by omega))
    nlinarith [(Nat.cast_nonneg ch : (0 : ℚ) ≤ ch)]
  have e : ch * (P.k + 1) ≤ ch * n := Nat.mul_le_mul_left _ hk
  have e' : ((ch * (P.k + 1) : ℕ) : ℚ) ≤ ((ch * n : ℕ) : ℚ) := by exact_mod_cast e
  push_cast at e' ⊢
  linarith

theorem linG_of_lt {ch n : ℕ} {P : Pos} (hch : 1 ≤ ch) (hn : ch * n ≤ 2 ^ 52) (hchM : ch ≤ 8355967) (hk : P.k + 1 < n)
    (h0 : 0 ≤ P.i) (h1 : P.i < 1) : linG ch n P := by
  unfold linG
  have h2 : zohG ch (P.k + 1) P := by
    apply zohG_of_lt _ hchM (by omega) h0 h1
    exact (Nat.mul_le_mul_left _ hk.le).trans hn
  have h3 : ch * (P.k + 1) < ch * n := Nat.mul_lt_mul_of_pos_left hk hch
  have h4 : ((ch * (P.k + 1) : ℕ) : ℚ) < ((ch * n : ℕ) : ℚ) := by exact_mod_cast h3
  exact lt_of_le_of_lt h2 h4

theorem linDom_of_three {ch n : ℕ} {P : Pos} (hch : 1 ≤ ch) (hchM : ch ≤ 8355967) (hn3 : 3 ≤ n) (h1 : P.i < 1) :
    linDom ch n P := by
  intro _
  have ha : r64 (1 + P.i) ≤ 2 := by
    apply rq_le
    · exact_mod_cast rep64_nat (n := 2) (by norm_num)
    · linarith
  have hb : r64 ((ch : ℚ) * r64 (1 + P.i)) ≤ ((ch * 2 : ℕ) : ℚ) := by
    apply rq_le (rep64_nat (by omega))
    push_cast
    exact mul_le_mul_of_nonneg_left ha (by positivity)
  have h3 : ch * 2 < ch * n := Nat.mul_lt_mul_of_pos_left (by omega) hch
  have h4 : ((ch * 2 : ℕ) : ℚ) < ((ch * n : ℕ) : ℚ) := by exact_mod_cast h3
  exact lt_of_le_of_lt hb h4

/-- With one input frame the start-up loop of the linear converter breaks off at once. -/
theorem linDom_one {ch : ℕ} {P : Pos} (hch : 1 ≤ ch) (hchM : ch ≤ 8355967) (h0 : 0 ≤ P.i) : linDom ch 1 P ↔ P.k ≠ 0 := by
  refine ⟨fun h hk => ?_, fun h hk => absurd hk h⟩
  have h := h hk
  have b1 : 1 ≤ r64 (1 + P.i) := le_rq (by simpa using rep64_nat (n := 1) (by norm_num)) (by linarith)
  have hchp : (1 : ℚ) ≤ ch := by exact_mod_cast hch
  have : (ch : ℚ) ≤ r64 (ch * r64 (1 + P.i)) := le_rq (rep64_nat (by omega)) (by nlinarith)
  rw [Nat.mul_one] at h
  linarith

/-- With two it breaks off at the last position before the second frame, `1 - 2^-53`, and nowhere else. -/
theorem linDom_two {ch : ℕ} {P : Pos} (hch : 1 ≤ ch) (hchM : ch ≤ 8355967) (hr : Rep0 f64 P.i) (h0 : 0 ≤ P.i) (h1 : P.i < 1) :
    linDom ch 2 P ↔ (P.k = 0 → P.i ≠ 1 - p2 (-53)) := by
  have hchp : (1 : ℚ) ≤ ch := by exact_mod_cast hch
  refine ⟨fun h hk he => ?_, fun h hk => ?_⟩
  · have h := h hk
    have e2 : r64 (1 + P.i) = 2 := by
      rw [he]
      have : r64 (1 + (1 - p2 (-53))) = r64 ((2 ^ 54 - 1) / 2 ^ 53) := by congr 1; norm_num [p2]
      rw [this]
      decide +kernel
    rw [e2, show (ch : ℚ) * 2 = ((ch * 2 : ℕ) : ℚ) by push_cast; ring, show r64 ((ch * 2 : ℕ) : ℚ) = _ from rq_of_rep (rep64_nat (by omega))] at h
    exact lt_irrefl _ h
  · have hi := frac_le_of_ne hr h1 (h hk)
    have hrep : Rep0 f64 (2 - p2 (-52)) := ⟨2 ^ 53 - 1, -52, by decide, by decide, by norm_num [p2]⟩
    have b1 : r64 (1 + P.i) ≤ 2 - p2 (-52) := rq_le hrep (by linarith)
    have b0 : 1 ≤ r64 (1 + P.i) := le_rq (by simpa using rep64_nat (n := 1) (by norm_num)) (by linarith)
    have hr1 : Rep0 f64 (r64 (1 + P.i) / 2) := by
      obtain ⟨m, e, he, hm, hq⟩ : Rep0 f64 (r64 (1 + P.i)) := rep0_rq _ _
      have he53 : -53 ≤ e := by
        by_contra hh
        push Not at hh
        have hp := p2_pos e
        have h2 : (m : ℚ) * p2 e ≤ p2 53 * p2 e := by
          refine mul_le_mul_of_nonneg_right ?_ hp.le
          have : (m : ℚ) < 2 ^ 53 := by exact_mod_cast (le_abs_self m).trans_lt hm
          have e53 : p2 53 = 2 ^ 53 := by norm_num [p2]
          rw [e53]; exact this.le
        rw [← p2_add] at h2
        have h3 : p2 (53 + e) ≤ p2 (-1) := p2_le (by omega)
        have h4 : p2 (-1) = 1 / 2 := by norm_num [p2]
        rw [h4] at h3
        rw [hq] at b0
        have h6 := b0.trans (h2.trans h3)
        norm_num at h6
      refine ⟨m, e - 1, by simp only [f64]; omega, hm, ?_⟩
      have e1 : p2 (e - 1) = p2 e * p2 (-1) := by rw [← p2_add]; congr 1
      have h4 : p2 (-1) = 1 / 2 := by norm_num [p2]
      rw [e1, hq, h4]; ring
    have hu := p2_pos (-52)
    have := chan_frac_lt_wide (ch := ch * 2) (by omega) hr1 (by linarith) (by linarith)
    rw [show ((ch * 2 : ℕ) : ℚ) * (r64 (1 + P.i) / 2) = ch * r64 (1 + P.i) by push_cast; ring] at this
    exact this

theorem round_of_val {f : Fmt} {x : Fl f} {q : ℚ} (h : x.val = some q) : Fl.round f q = x :=
  Fl.val_inj (Fl.val_round_of_rep (Fl.rep_of_val h)) h

section
variable {m : Mem} {st : SrcState} {d : SrcData} {ch n o : ℕ} {l t p : ℚ} (C : Ctx m st d ch n o l t p)
include C

theorem Ctx.dblIn : (dbl ((ch * n : ℕ) : ℤ)).val = some ((ch * n : ℕ) : ℚ) := by
  have hnb := C.hnb
  have := dbl_val (n := ((ch * n : ℕ) : ℤ)) (by
    rw [abs_of_nonneg (by positivity)]
    have : ((ch * n : ℕ) : ℤ) ≤ 2 ^ 52 := by exact_mod_cast hnb
    exact this.trans (by norm_num))
  rw [this]; norm_cast

theorem Ctx.kbound {K : ℕ} (h : K ≤ n + 257) : ch * K ≤ 2 ^ 53 := by
  have hnb := C.hnb
  have hM := C.hchM
  have h1 : ch * K ≤ ch * (n + 257) := Nat.mul_le_mul_left _ h
  have h2 : ch * (n + 257) = ch * n + 257 * ch := by ring
  omega

theorem zoh_kspec {lv : List F32} (hlv : lv.length = ch) :
    KSpec zohKernel m d ch n lv (zohOut (lastFn lv) (inFrames m d ch)) (zohG ch n) (fun _ => True) where
  late _ _ := trivial
  brk s P hk hin hi h0 h1 := by
    rw [iff_true]
    have hv := guard_val (ch := ch) (K := 0) (by simpa using hin) hi h0 h1 C.hchM (by simp)
    simp only [zohKernel, Fl.ge]
    rw [Fl.le_val C.dblIn hv]
    simp only [Nat.mul_zero, Nat.cast_zero, zero_add, rq_rq, decide_eq_false_iff_not, not_le]
    refine lt_of_lt_of_le (chan_frac_lt C.hch1 C.hchM (rep64_val hi) h0 h1) ?_
    have : ch * 1 ≤ ch * n := Nat.mul_le_mul_left _ C.hn1
    have : ((ch * 1 : ℕ) : ℚ) ≤ ((ch * n : ℕ) : ℚ) := by exact_mod_cast this
    simpa using this
  guard s P hk hin hi h0 h1 := by
    have hv := guard_val hin hi h0 h1 C.hchM (C.kbound hk)
    simp only [zohKernel]
    rw [Fl.le_val hv C.dblIn]
    simp only [decide_eq_true_eq]
    rfl
  bound P hG h0 := by
    have hnb := C.hnb
    have hM := C.hchM
    exact zohG_bound C.hch1 (by omega) hG h0
  first P idx m' c hk hi hm hc := by
    simp only [zohKernel, zohOut, hk, prevFrame]
    exact rdLast_ok hlv hc
  main P idx m' c hk hG h0 hi hm hc := by
    have hnb := C.hnb
    have hM := C.hchM
    have hkn := zohG_bound C.hch1 (by omega) hG h0
    obtain ⟨k, hk'⟩ : ∃ k, P.k = k + 1 := ⟨P.k - 1, by omega⟩
    simp only [zohKernel, zohOut, hk', prevFrame]
    have e : ((ch * (k + 1) : ℕ) : ℤ) - ch + c = ((ch * k + c : ℕ) : ℤ) := by push_cast; ring
    rw [e]
    exact C.rdIn_ok hm (by omega) hc
  short s P hD := absurd trivial hD

theorem linear_kspec {lv : List F32} (hlv : lv.length = ch) :
    KSpec linearKernel m d ch n lv (linearOut (lastFn lv) (inFrames m d ch)) (linG ch n) (linDom ch n) where
  late P hP h := by omega
  brk s P hk hin hi h0 h1 := by
    have hD : linDom ch n P ↔ r64 ((ch : ℚ) * r64 (1 + P.i)) < ((ch * n : ℕ) : ℚ) := ⟨fun h => h hk, fun h _ => h⟩
    rw [hD]
    have hchq : (ch : ℚ) ≤ 8355967 := by exact_mod_cast C.hchM
    have s0 := add64 one64_val hi (by rw [abs_of_nonneg (by linarith)]; linarith [(by norm_num : (2 : ℚ) ≤ 2 ^ 100)])
    have hb0 : 0 ≤ r64 (1 + P.i) := rq_nonneg (by linarith)
    have hb1 : r64 (1 + P.i) ≤ 2 := by
      apply rq_le
      · exact_mod_cast rep64_nat (n := 2) (by norm_num)
      · linarith
    have hd2 : (dbl (ch : ℤ)).val = some (ch : ℚ) := by
      have hM := C.hchM
      have := dbl_val (n := (ch : ℤ)) (by
        rw [abs_of_nonneg (by positivity)]
        have : (ch : ℤ) ≤ 8355967 := by exact_mod_cast hM
        exact this.trans (by norm_num))
      rw [this]; norm_cast
    have hm : (ch : ℚ) * r64 (1 + P.i) ≤ 8355967 * 2 := by
      apply mul_le_mul hchq hb1 hb0 (by norm_num)
    have s1 := mul64 hd2 s0 (by rw [abs_of_nonneg (by positivity)]; exact hm.trans (by norm_num))
    have hd1 : (dbl s.inUsed).val = some 0 := by rw [hin]; exact zero64_val
    have hr0 : 0 ≤ r64 ((ch : ℚ) * r64 (1 + P.i)) := rq_nonneg (by positivity)
    have hr1 : r64 ((ch : ℚ) * r64 (1 + P.i)) ≤ 8355967 * 2 := by
      apply rq_le _ hm
      have := rep64_nat (n := 8355967 * 2) (by norm_num)
      exact_mod_cast this
    have s2 := add64 hd1 s1 (by rw [zero_add, abs_of_nonneg hr0]; exact hr1.trans (by norm_num))
    simp only [linearKernel, Fl.ge]
    rw [Fl.le_val C.dblIn s2]
    simp only [zero_add, rq_rq, decide_eq_false_iff_not, not_le]
  guard s P hk hin hi h0 h1 := by
    have hv := guard_val hin hi h0 h1 C.hchM (C.kbound hk)
    simp only [linearKernel]
    rw [Fl.lt_val hv C.dblIn]
    simp only [decide_eq_true_eq]
    rfl
  bound P hG h0 := by
    have hnb := C.hnb
    exact (linG_bound (by omega) hG h0).le
  first P idx m' c hk hi hm hc := by
    simp only [linearKernel, linearOut, hk, prevFrame]
    rw [rdLast_ok hlv hc]
    have := C.rdIn_ok hm (k := 0) C.hn1 hc
    rw [Nat.mul_zero, Nat.zero_add] at this
    simp only [bind, Except.bind]
    rw [this]
    simp only [pure, Except.pure]
    rw [round_of_val hi]
  main P idx m' c hk hG h0 hi hm hc := by
    have hnb := C.hnb
    have hkn := linG_bound (by omega) hG h0
    obtain ⟨k, hk'⟩ : ∃ k, P.k = k + 1 := ⟨P.k - 1, by omega⟩
    simp only [linearKernel, linearOut, hk', prevFrame]
    have e : ((ch * (k + 1) : ℕ) : ℤ) - ch + c = ((ch * k + c : ℕ) : ℤ) := by push_cast; ring
    have e2 : ((ch * (k + 1) : ℕ) : ℤ) + c = ((ch * (k + 1) + c : ℕ) : ℤ) := by push_cast; ring
    rw [e, e2, C.rdIn_ok hm (by omega) hc]
    simp only [bind, Except.bind]
    rw [C.rdIn_ok hm (by omega) hc]
    simp only [pure, Except.pure]
    rw [round_of_val hi]
  short s P hD hk hin hi h0 h1 := by
    have hv := guard_val (ch := ch) (K := 0) (by simpa using hin) hi h0 h1 C.hchM (by simp)
    constructor
    · simp only [linearKernel]
      rw [Fl.lt_val hv C.dblIn]
      simp only [Nat.mul_zero, Nat.cast_zero, zero_add, rq_rq, decide_eq_true_eq]
      refine lt_of_lt_of_le (chan_frac_lt C.hch1 C.hchM (rep64_val hi) h0 h1) ?_
      have : ch * 1 ≤ ch * n := Nat.mul_le_mul_left _ C.hn1
      have : ((ch * 1 : ℕ) : ℚ) ≤ ((ch * n : ℕ) : ℚ) := by exact_mod_cast this
      simpa using this
    · intro m'
      have hc1 := C.hch1
      simp only [linearKernel, hin]
      unfold rdIn
      rw [if_neg C.hin, if_neg (by push_cast; omega)]
      rfl

end

end Verif
