import Verif.Spec.Level
import Verif.Proof.SincSafe
import Verif.Proof.LinearSample
import Verif.Proof.InterpHistory

/-! Magnitude of the output samples. -/

namespace Verif
open Spec

/-- Magnitudes the bounds are computed with: zero or a power of two. -/
def Lev (u : ℚ) : Prop := u = 0 ∨ ∃ e : ℤ, -149 ≤ e ∧ e ≤ 64 ∧ u = p2 e

theorem Lev.nonneg {u : ℚ} (h : Lev u) : 0 ≤ u := by
  rcases h with rfl | ⟨e, _, _, rfl⟩
  · exact le_refl _
  · exact (p2_pos e).le

theorem Lev.le {u : ℚ} (h : Lev u) : u ≤ 2 ^ 64 := by
  rcases h with rfl | ⟨e, _, h, rfl⟩
  · norm_num
  · exact (p2_le h).trans (by norm_num [p2])

theorem Lev.rep {u : ℚ} (h : Lev u) {n : ℕ} (hn : n ≤ 2 ^ 53) : Rep0 f64 (n * u) := by
  rcases h with rfl | ⟨e, h1, _, rfl⟩
  · rw [mul_zero]; exact rep0_zero _
  · refine rep0_of_le (m := (n : ℤ)) (e := e) (by show (-1074 : ℤ) ≤ e; omega) ?_ (by push_cast; ring)
    rw [abs_of_nonneg (by positivity)]
    exact_mod_cast hn

theorem Lev.rep32 {u : ℚ} (h : Lev u) {k : ℕ} (hk : k ≤ 60) : Rep0 f32 (2 ^ k * u) := by
  rcases h with rfl | ⟨e, h1, _, rfl⟩
  · rw [mul_zero]; exact rep0_zero _
  · have : (2 : ℚ) ^ k * p2 e = p2 (k + e) := by rw [p2_add, p2_natCast]
    rw [this]
    exact rep0_p2 (by show (-149 : ℤ) ≤ _; omega)

/-- A double of magnitude at most `w`. -/
def W64 (w : ℚ) (x : F64) : Prop := ∃ q, x.val = some q ∧ |q| ≤ w

theorem W64.mono {w w' : ℚ} {x : F64} (h : W64 w x) (hw : w ≤ w') : W64 w' x := by
  obtain ⟨q, h1, h2⟩ := h; exact ⟨q, h1, h2.trans hw⟩

theorem W64.zero {w : ℚ} (h : 0 ≤ w) : W64 w zero64 := ⟨0, zero64_val, by simpa using h⟩

theorem W64.add {a b c : ℚ} {x y : F64} (hx : W64 a x) (hy : W64 b y) (hc : Rep0 f64 c) (h : a + b ≤ c) (hM : c ≤ 2 ^ 120) :
    W64 c (Fl.add x y) := by
  obtain ⟨p, hp, bp⟩ := hx
  obtain ⟨q, hq, bq⟩ := hy
  have hs : |p + q| ≤ c := (abs_add_le p q).trans (by linarith)
  have hr := Fl.abs_rq_le (f := f64) hc hs
  refine ⟨_, Fl.val_add hp hq (lt_of_le_of_lt (hr.trans hM) ?_), hr⟩
  exact lt_of_eq_of_lt (p2_natCast 120).symm (p2_lt (by decide))

theorem W64.mul {a b c : ℚ} {x y : F64} (hx : W64 a x) (hy : W64 b y) (ha : 0 ≤ a) (hc : Rep0 f64 c) (h : a * b ≤ c) (hM : c ≤ 2 ^ 120) :
    W64 c (Fl.mul x y) := by
  obtain ⟨p, hp, bp⟩ := hx
  obtain ⟨q, hq, bq⟩ := hy
  have hs : |p * q| ≤ c := by
    rw [abs_mul]
    exact (mul_le_mul bp bq (abs_nonneg _) ha).trans h
  have hr := Fl.abs_rq_le (f := f64) hc hs
  refine ⟨_, Fl.val_mul hp hq (lt_of_le_of_lt (hr.trans hM) ?_), hr⟩
  exact lt_of_eq_of_lt (p2_natCast 120).symm (p2_lt (by decide))

theorem within_conv {u : ℚ} {x : F32} (h : Within u x) : W64 u (Fl.conv f64 x) := by
  obtain ⟨q, h1, h2⟩ := h
  exact ⟨q, Fl.val_conv64 h1, h2⟩

theorem conv_within {c : ℚ} {x : F64} (h : W64 c x) (hc : Rep0 f32 c) (hM : c ≤ 2 ^ 120) : Within c (Fl.conv f32 x) := by
  obtain ⟨q, h1, h2⟩ := h
  have hr := Fl.abs_rq_le (f := f32) hc h2
  refine ⟨_, Fl.val_conv h1 (lt_of_le_of_lt (hr.trans hM) ?_), hr⟩
  show (2 : ℚ) ^ 120 < p2 128
  norm_num [p2]

theorem rep64_of_nat {n : ℕ} (h : n ≤ 2 ^ 53 := by norm_num) : Rep0 f64 (n : ℚ) := rep64_nat h

/-! ### the filter -/

/-- Coefficients of magnitude at most 1. -/
def CoefOk (f : SincFilter) : Prop := ∀ i, 0 ≤ i → i < f.coeffHalfLen + 2 → Within 1 (f.coeffs i)

/-- Buffer contents of magnitude at most `u`. -/
def BufOk (u : ℚ) (f : SincFilter) : Prop := ∀ i, 0 ≤ i → i < f.bLen → Within u (f.buffer i)

theorem rdCoeff_ok {f : SincFilter} (hf : CoefOk f) {i : ℤ} {c : F32} (h : rdCoeff f i = .ok c) : Within 1 c := by
  unfold rdCoeff at h
  split at h
  · rename_i hi; rw [← ok_inj h]; exact hf i hi.1 hi.2
  · simp [throw, throwThe, MonadExceptOf.throw] at h

theorem fpToDouble_w (x : ℤ) : W64 1 (fpToDouble x) := by
  have h0 : 0 ≤ x % 4096 := Int.emod_nonneg _ (by norm_num)
  have h1 : x % 4096 < 4096 := Int.emod_lt_of_pos _ (by norm_num)
  have e1 : W64 4096 (dbl (x % 4096)) := by
    refine ⟨_, dbl_val (by rw [abs_of_nonneg h0]; omega), ?_⟩
    rw [abs_of_nonneg (by exact_mod_cast h0)]
    exact_mod_cast h1.le
  have e2 : W64 (1 / 4096) (Fl.div one64 (dbl 4096)) := by
    have hd : (dbl 4096).val = some 4096 := by simpa using dbl_val (n := 4096) (by norm_num)
    have := div64 one64_val hd (by norm_num) (by norm_num [abs_of_pos])
    refine ⟨_, this, ?_⟩
    refine Fl.abs_rq_le ⟨1, -12, by decide, by decide, by norm_num [p2]⟩ (by norm_num [abs_of_pos])
  exact e1.mul e2 (by norm_num) (by simpa using rep64_of_nat (n := 1)) (by norm_num) (by norm_num)

theorem icoeff_w {f : SincFilter} (hf : CoefOk f) {i : ℤ} {x : F64} (h : icoeff f i = .ok x) : W64 3 x := by
  unfold icoeff at h
  obtain ⟨c0, h0, h⟩ := bind_ok h
  obtain ⟨c1, h1, h⟩ := bind_ok h
  rw [← ok_inj h]
  have w0 := rdCoeff_ok hf h0
  have w1 := rdCoeff_ok hf h1
  have w2 : Within 2 (Fl.sub c1 c0) := by
    obtain ⟨p, hp, bp⟩ := w0
    obtain ⟨q, hq, bq⟩ := w1
    have hs : |q - p| ≤ 2 := (abs_sub q p).trans (by linarith)
    have hr := Fl.abs_rq_le (f := f32) (r := 2) (by simpa using rep0_int (f := f32) (n := 2) (by norm_num [f32])) hs
    refine ⟨_, Fl.val_sub hq hp (lt_of_le_of_lt hr ?_), hr⟩
    show (2 : ℚ) < p2 128
    norm_num [p2]
  refine (within_conv w0).add ((fpToDouble_w i).mul (within_conv w2) (by norm_num) (by simpa using rep64_of_nat (n := 2)) (le_of_eq (one_mul _)) (by norm_num))
    (by simpa using rep64_of_nat (n := 3)) (by norm_num) (by norm_num)

variable {u : ℚ} (hu : Lev u)
include hu

theorem accumulate_w {f : SincFilter} (hb : BufOk u f) {ch w : ℤ} {cap : ℕ} {ic : F64} (hic : W64 3 ic) {di : ℤ} (hd0 : 0 ≤ di) (hd1 : di + w - 1 < f.bLen)
    {acc acc' : ℕ → F64} {k : ℕ} (hk : k < 2 ^ 50) (hacc : ∀ c, W64 ((3 * k : ℕ) * u) (acc c))
    (h : accumulate f ch w cap ic di acc = .ok acc') : ∀ c, W64 ((3 * (k + 1) : ℕ) * u) (acc' c) := by
  unfold accumulate at h
  have hu0 := hu.nonneg
  have hu1 := hu.le
  have step : ∀ n : ℕ, (n : ℤ) ≤ w.toNat → ∀ acc', forM' n (fun ch' acc => do
      let x ← rdBuf f ch (di + ch')
      if ch' < cap then
        pure (Function.update acc ch' (Fl.add (acc ch') (Fl.mul ic (Fl.conv f64 x))))
      else throw Fault.oobWrite) acc = .ok acc' → (∀ c, n ≤ c → W64 ((3 * k : ℕ) * u) (acc' c)) ∧ ∀ c < n, W64 ((3 * (k + 1) : ℕ) * u) (acc' c) := by
    intro n
    induction n with
    | zero =>
      intro _ acc' h
      rw [forM'_zero] at h
      cases h
      exact ⟨fun c _ => hacc c, fun c hc => by omega⟩
    | succ n ih =>
      intro hn acc' h
      rw [forM'_succ] at h
      obtain ⟨a1, h1, h⟩ := bind_ok h
      obtain ⟨i1, i2⟩ := ih (by omega) a1 h1
      obtain ⟨x, hx, h⟩ := bind_ok h
      split at h
      · have h := ok_inj h
        have hxw : Within u x := by
          unfold rdBuf at hx
          split at hx
          · rw [← ok_inj hx]; exact hb _ (by omega) (by omega)
          · simp [throw, throwThe, MonadExceptOf.throw] at hx
        have hnew : W64 ((3 * (k + 1) : ℕ) * u) (Fl.add (a1 n) (Fl.mul ic (Fl.conv f64 x))) := by
          refine (i1 n (le_refl _)).add (hic.mul (within_conv hxw) (by norm_num) (hu.rep (n := 3) (by norm_num)) (by push_cast; exact le_refl _) ?_)
            (hu.rep (by omega)) (by push_cast; linarith) ?_
          · push_cast
            linarith
          · have : (((3 * (k + 1) : ℕ)) : ℚ) ≤ 2 ^ 52 + 4 := by
              have : 3 * (k + 1) ≤ 2 ^ 52 + 4 := by omega
              exact_mod_cast this
            calc (((3 * (k + 1) : ℕ)) : ℚ) * u ≤ (2 ^ 52 + 4) * 2 ^ 64 := mul_le_mul this hu1 hu0 (by norm_num)
              _ ≤ 2 ^ 120 := by norm_num
        rw [← h]
        constructor
        · intro c hc
          rw [Function.update_of_ne (by omega)]
          exact i1 c (by omega)
        · intro c hc
          by_cases e : c = n
          · subst e; rw [Function.update_self]; exact hnew
          · rw [Function.update_of_ne e]; exact i2 c (by omega)
      · simp [throw, throwThe, MonadExceptOf.throw] at h
  obtain ⟨s1, s2⟩ := step w.toNat (by omega) acc' h
  intro c
  by_cases hc : c < w.toNat
  · exact s2 c hc
  · refine (s1 c (by omega)).mono (mul_le_mul_of_nonneg_right ?_ hu0)
    exact_mod_cast (by omega : 3 * k ≤ 3 * (k + 1))

omit hu in
theorem whileM_count {σ : Type} {step : σ → M (Bool × σ)} (I : ℕ → Bool → σ → Prop) (n : ℕ)
    (h : ∀ k < n, ∀ s b s', I k true s → step s = .ok (b, s') → I (k + 1) b s') :
    ∀ j k s s', k + j ≤ n → I k true s → whileM step j s = .ok s' → ∃ i ≤ n, I i false s' := by
  intro j
  induction j with
  | zero => intro k s s' _ _ hw; simp [whileM] at hw
  | succ j ih =>
    intro k s s' hkj hI hw
    unfold whileM at hw
    obtain ⟨⟨b, s1⟩, h1, hw⟩ := bind_ok hw
    have hI1 := h k (by omega) s b s1 hI h1
    dsimp only at hw
    split at hw
    · rename_i hb
      rw [hb] at hI1
      exact ih (k + 1) s1 s' (by omega) hI1 hw
    · rename_i hb
      rw [Bool.not_eq_true] at hb
      rw [hb] at hI1
      rw [← ok_inj hw]
      exact ⟨k + 1, by omega, hI1⟩

theorem left_w {v : SincVariant} {f : SincFilter} (hf : CoefOk f) (hb : BufOk u f) {ch inc fi di : ℤ} (hi : 0 ≤ inc) (hfi : fi ≤ 2147483647) {s : TapSt}
    (h : whileM (leftStep v f ch inc) (fi.toNat + 2) ⟨fi, di, fun _ => zero64⟩ = .ok s) :
    ∃ k : ℕ, k ≤ 2 ^ 32 ∧ (k : ℤ) * inc ≤ max fi 0 + 2 * inc ∧ ∀ c, W64 ((3 * k : ℕ) * u) (s.acc c) := by
  have hu0 := hu.nonneg
  suffices ∃ k ≤ 2 ^ 32, (fun (k : ℕ) b (s : TapSt) => (b = true → s.filterIndex = fi - k * inc) ∧
    (k : ℤ) * inc ≤ max fi 0 + (if b then 1 else 2) * inc ∧ ∀ c, W64 ((3 * k : ℕ) * u) (s.acc c)) k false s by
    obtain ⟨k, hk, -, k1, k2⟩ := this
    exact ⟨k, hk, by simpa using k1, k2⟩
  refine whileM_count (fun (k : ℕ) b (s : TapSt) => (b = true → s.filterIndex = fi - k * inc) ∧
    (k : ℤ) * inc ≤ max fi 0 + (if b then 1 else 2) * inc ∧ ∀ c, W64 ((3 * k : ℕ) * u) (s.acc c)) (2 ^ 32) (fun k hk s b s' hI h => ?_) _ 0 _ _
    (by omega) ⟨fun _ => by simp, by simp; omega, fun c => W64.zero (by positivity)⟩ h
  · obtain ⟨e, hk1, hI⟩ := hI
    have e := e rfl
    unfold leftStep at h
    split at h
    · have h := ok_inj h; simp only [Prod.mk.injEq] at h; obtain ⟨rfl, rfl⟩ := h
      refine ⟨by simp, ?_, fun c => (hI c).mono (mul_le_mul_of_nonneg_right ?_ hu0)⟩
      · simp only [if_true, one_mul] at hk1
        push_cast
        rw [add_mul]
        linarith
      · exact_mod_cast (by omega : 3 * k ≤ 3 * (k + 1))
    rename_i h0
    obtain ⟨_, _, h⟩ := bind_ok h
    obtain ⟨ic, hic, h⟩ := bind_ok h
    obtain ⟨_, ha, h⟩ := bind_ok h
    obtain ⟨_, _, h⟩ := bind_ok h
    obtain ⟨acc, hacc, h⟩ := bind_ok h
    obtain ⟨_, hfi', h⟩ := bind_ok h
    obtain ⟨_, _, h⟩ := bind_ok h
    have h := ok_inj h; simp only [Prod.mk.injEq] at h; obtain ⟨rfl, rfl⟩ := h
    have ha := assertM_true ha
    simp only [ge_iff_le, Bool.and_eq_true, decide_eq_true_eq] at ha
    refine ⟨fun _ => ?_, ?_, accumulate_w hu hb (icoeff_w hf hic) ha.1 ha.2 (by omega) hI hacc⟩
    · dsimp only
      rw [chkI32_eq hfi', e]
      push_cast
      ring
    · have : (k : ℤ) * inc ≤ fi := by
        rw [e] at h0
        push Not at h0
        linarith
      push_cast
      rw [add_mul]
      simp only [if_true]
      linarith [le_max_left fi 0]

theorem right_w {v : SincVariant} {f : SincFilter} (hf : CoefOk f) (hb : BufOk u f) {ch inc fi di : ℤ} (hi : 0 ≤ inc) (hfi : fi ≤ 2147483647) {s : TapSt}
    (h : whileM (rightStep v f ch inc) (fi.toNat + 2) ⟨fi, di, fun _ => zero64⟩ = .ok s) :
    ∃ k : ℕ, k ≤ 2 ^ 32 ∧ (k : ℤ) * inc ≤ max fi 0 + 2 * inc ∧ ∀ c, W64 ((3 * k : ℕ) * u) (s.acc c) := by
  have hu0 := hu.nonneg
  suffices ∃ k ≤ 2 ^ 32, (fun (k : ℕ) b (s : TapSt) => (b = true → s.filterIndex = fi - k * inc ∧ (k : ℤ) * inc ≤ max fi 0) ∧
    (k : ℤ) * inc ≤ max fi 0 + 2 * inc ∧ ∀ c, W64 ((3 * k : ℕ) * u) (s.acc c)) k false s by
    obtain ⟨k, hk, -, k1, k2⟩ := this
    exact ⟨k, hk, k1, k2⟩
  refine whileM_count (fun (k : ℕ) b (s : TapSt) => (b = true → s.filterIndex = fi - k * inc ∧ (k : ℤ) * inc ≤ max fi 0) ∧
    (k : ℤ) * inc ≤ max fi 0 + 2 * inc ∧ ∀ c, W64 ((3 * k : ℕ) * u) (s.acc c)) (2 ^ 32) (fun k hk s b s' hI h => ?_) _ 0 _ _
    (by omega) ⟨fun _ => ⟨by simp, by simp⟩, by simp; omega, fun c => W64.zero (by positivity)⟩ h
  · obtain ⟨e, -, hI⟩ := hI
    obtain ⟨e, e1⟩ := e rfl
    unfold rightStep at h
    obtain ⟨_, _, h⟩ := bind_ok h
    obtain ⟨ic, hic, h⟩ := bind_ok h
    obtain ⟨_, ha, h⟩ := bind_ok h
    obtain ⟨_, _, h⟩ := bind_ok h
    obtain ⟨acc, hacc, h⟩ := bind_ok h
    obtain ⟨_, hfi', h⟩ := bind_ok h
    obtain ⟨_, _, h⟩ := bind_ok h
    have h := ok_inj h; simp only [Prod.mk.injEq] at h; obtain ⟨rfl, rfl⟩ := h
    have ha := assertM_true ha
    simp only [ge_iff_le, Bool.and_eq_true, decide_eq_true_eq] at ha
    have e2 : ((k + 1 : ℕ) : ℤ) * inc = k * inc + inc := by push_cast; ring
    refine ⟨fun hp => ?_, by rw [e2]; linarith, accumulate_w hu hb (icoeff_w hf hic) ha.1 ha.2 (by omega) hI hacc⟩
    have hp := of_decide_eq_true hp
    dsimp only
    rw [chkI32_eq hfi', e] at hp ⊢
    refine ⟨by rw [e2]; ring, ?_⟩
    rw [e2]
    linarith [le_max_left fi 0]

theorem calcOutput_w {v : SincVariant} {f : SincFilter} (hf : CoefOk f) (hb : BufOk u f) {ch inc start : ℤ} (hi : 1 ≤ inc) (hs0 : 0 ≤ start) (hs1 : start ≤ inc)
    (hl0 : 0 ≤ f.coeffHalfLen) {sum : ℕ → F64} (h : calcOutput v f ch inc start = .ok sum) :
    ∃ k : ℕ, (k : ℤ) * inc ≤ 8192 * f.coeffHalfLen + 6 * inc ∧ ∀ c, W64 ((3 * k : ℕ) * u) (sum c) := by
  have hu0 := hu.nonneg
  have hle : ∀ {n k : ℤ}, chkI32 n = .ok k → k ≤ 2147483647 := by
    intro n k h
    unfold chkI32 at h
    split at h
    · rename_i hn; rw [← ok_inj h]; exact hn.2
    · simp [throw, throwThe, MonadExceptOf.throw] at h
  unfold calcOutput at h
  dsimp only at h
  obtain ⟨mx, g1, h⟩ := bind_ok h
  obtain ⟨d1, g2, h⟩ := bind_ok h
  obtain ⟨c1, g3, h⟩ := bind_ok h
  obtain ⟨p1, g4, h⟩ := bind_ok h
  obtain ⟨fi0, hfi0, h⟩ := bind_ok h
  obtain ⟨_, _, h⟩ := bind_ok h
  obtain ⟨_, _, h⟩ := bind_ok h
  obtain ⟨⟨fi, di⟩, hs, h⟩ := bind_ok h
  obtain ⟨l, hl, h⟩ := bind_ok h
  obtain ⟨f2, g5, h⟩ := bind_ok h
  obtain ⟨d2, g6, h⟩ := bind_ok h
  obtain ⟨c2, g7, h⟩ := bind_ok h
  obtain ⟨p2', g8, h⟩ := bind_ok h
  obtain ⟨fi1, hfi1, h⟩ := bind_ok h
  obtain ⟨_, _, h⟩ := bind_ok h
  obtain ⟨_, _, h⟩ := bind_ok h
  obtain ⟨r, hr, h⟩ := bind_ok h
  rw [← ok_inj h]
  have cap : ∀ {a M : ℤ}, a + (M - a).tdiv inc * inc ≤ max M a := by
    intro a M
    rcases le_total a M with h | h
    · rw [Int.tdiv_eq_ediv_of_nonneg (by omega)]
      have := Int.ediv_mul_le (M - a) (b := inc) (by omega)
      exact le_trans (by omega) (le_max_left _ _)
    · have : (M - a).tdiv inc ≤ 0 := by
        rw [← neg_sub a M, Int.neg_tdiv]
        have := Int.tdiv_nonneg (show 0 ≤ a - M by omega) (show 0 ≤ inc by omega)
        omega
      have : (M - a).tdiv inc * inc ≤ 0 := mul_nonpos_of_nonpos_of_nonneg this (by omega)
      exact le_trans (by omega) (le_max_right _ _)
  have emx : mx = f.coeffHalfLen * 4096 := chkI32_eq g1
  have b0 : fi0 ≤ max mx inc := by
    rw [divM_ok (by omega)] at g3
    rw [chkI32_eq hfi0, chkI32_eq g4, ← ok_inj g3, chkI32_eq g2]
    exact cap.trans (max_le_max le_rfl hs1)
  have b1 : fi1 ≤ max mx inc := by
    rw [divM_ok (by omega)] at g7
    rw [chkI32_eq hfi1, chkI32_eq g8, ← ok_inj g7, chkI32_eq g6]
    exact cap.trans (max_le_max le_rfl (by rw [chkI32_eq g5]; omega))
  have b2 : fi ≤ fi0 := by
    unfold leftSkip at hs
    split at hs
    · obtain ⟨n, hn, hs⟩ := bind_ok hs
      obtain ⟨_, _, hs⟩ := bind_ok hs
      obtain ⟨_, _, hs⟩ := bind_ok hs
      obtain ⟨p, hp, hs⟩ := bind_ok hs
      obtain ⟨fi', hfi', hs⟩ := bind_ok hs
      obtain ⟨_, _, hs⟩ := bind_ok hs
      obtain ⟨_, _, hs⟩ := bind_ok hs
      have hs := ok_inj hs; simp only [Prod.mk.injEq] at hs
      unfold intDivCeil at hn
      obtain ⟨_, ha, hn⟩ := bind_ok hn
      obtain ⟨q, hq, hn⟩ := bind_ok hn
      have ha := assertM_true ha
      simp only [ge_iff_le, Bool.and_eq_true, decide_eq_true_eq] at ha
      rw [divM_ok (by omega)] at hn
      have n0 : 0 ≤ n := by
        rw [← ok_inj hn, chkI32_eq hq]
        exact Int.tdiv_nonneg (by omega) (by omega)
      have : 0 ≤ inc * n := mul_nonneg (by omega) n0
      rw [← hs.1, chkI32_eq hfi', chkI32_eq hp]
      omega
    · have hs := ok_inj hs; simp only [Prod.mk.injEq] at hs
      exact hs.1.symm.le
  have hfi : fi ≤ 2147483647 := by
    unfold leftSkip at hs
    split at hs
    · obtain ⟨_, _, hs⟩ := bind_ok hs
      obtain ⟨_, _, hs⟩ := bind_ok hs
      obtain ⟨_, _, hs⟩ := bind_ok hs
      obtain ⟨_, _, hs⟩ := bind_ok hs
      obtain ⟨fi', hfi', hs⟩ := bind_ok hs
      obtain ⟨_, _, hs⟩ := bind_ok hs
      obtain ⟨_, _, hs⟩ := bind_ok hs
      have hs := ok_inj hs; simp only [Prod.mk.injEq] at hs
      rw [← hs.1]; exact hle hfi'
    · have hs := ok_inj hs; simp only [Prod.mk.injEq] at hs
      rw [← hs.1]; exact hle hfi0
  obtain ⟨kl, l0, l1, l2⟩ := left_w hu hf hb (by omega) hfi hl
  obtain ⟨kr, r0, r1, r2⟩ := right_w hu hf hb (by omega) (hle hfi1) hr
  refine ⟨kl + kr, ?_, fun c => (l2 c).add (r2 c) (hu.rep (by omega)) (by push_cast; linarith) ?_⟩
  · have m1 : max mx inc ≤ mx + inc := max_le (by omega) (by omega)
    have e1 : max fi 0 ≤ mx + inc := max_le (by omega) (by omega)
    have e2 : max fi1 0 ≤ mx + inc := max_le (by omega) (by omega)
    push_cast
    rw [add_mul]
    omega
  · have := hu.le
    have : ((3 * (kl + kr) : ℕ) : ℚ) ≤ 2 ^ 36 := by exact_mod_cast (by omega : 3 * (kl + kr) ≤ 2 ^ 36)
    calc ((3 * (kl + kr) : ℕ) : ℚ) * u ≤ 2 ^ 36 * 2 ^ 64 := by gcongr
      _ ≤ 2 ^ 120 := by norm_num

omit hu in
/-- The scale of the filter and the number of its taps. -/
theorem Geom.scale_w {N inc B : ℤ} (G : Geom N inc B) {ρ : ℚ} (hρ : 1 / 256 ≤ ρ) {k : ℕ} (hk : (k : ℤ) * rne (sincInc inc ρ * 4096) ≤ 8192 * N + 6 * rne (sincInc inc ρ * 4096)) :
    ∃ w, 0 ≤ w ∧ W64 w (Fl.round f64 (sincInc inc ρ / inc)) ∧ w * (3 * k : ℕ) ≤ 2 ^ 11 := by
  obtain ⟨a1, a2⟩ := G.incr_bounds hρ
  obtain ⟨f1, f2⟩ := G.sincInc_bounds hρ
  have hx := abs_rne_sub_le (sincInc inc ρ * 4096)
  rw [abs_le] at hx
  have h1 := G.inc1; have h2 := G.n1; have h3 := G.key; have h4 := G.incM
  have q1 : (1 : ℚ) ≤ inc := by exact_mod_cast h1
  have hN : N ≤ 287 * inc := by nlinarith
  have hNq : (N : ℚ) ≤ 287 * inc := by exact_mod_cast hN
  have hN0 : (0 : ℚ) ≤ N := by exact_mod_cast (by omega : 0 ≤ N)
  have a1q : 16 * (inc : ℚ) ≤ (rne (sincInc inc ρ * 4096) : ℚ) := by exact_mod_cast a1
  have hkq : (k : ℚ) * (rne (sincInc inc ρ * 4096) : ℚ) ≤ 8192 * N + 6 * (rne (sincInc inc ρ * 4096) : ℚ) := by exact_mod_cast hk
  generalize sincInc inc ρ = fi at *
  generalize rne (fi * 4096) = c at *
  have cq : (0 : ℚ) < c := by linarith
  have q0 : 0 ≤ fi / inc := by apply div_nonneg <;> linarith
  have q2 : fi / inc ≤ 1 := by rw [div_le_one (by linarith)]; exact f2
  have hr := Fl.abs_rq_le (f := f64) (by simpa using rep64_of_nat (n := 1)) (show |fi / inc| ≤ 1 by rw [abs_of_nonneg q0]; exact q2)
  have he := abs_rq_sub_le_of_lt (f := f64) (q := fi / inc) (k := 1) (by rw [abs_of_nonneg q0]; exact lt_of_le_of_lt q2 (by norm_num [p2])) (by decide)
  have he' : p2 (1 - (f64.prec : ℤ) - 1) ≤ 1 / 2 ^ 40 := by norm_num [p2, f64]
  refine ⟨fi / inc + 1 / 2 ^ 40, by positivity, ⟨_, Fl.val_round (lt_of_le_of_lt hr ?_), ?_⟩, ?_⟩
  · show (1 : ℚ) < p2 1024
    exact lt_of_eq_of_lt (by norm_num [p2]) (p2_lt (a := 0) (b := 1024) (by decide))
  · have := abs_sub_abs_le_abs_sub (rq f64 (fi / inc)) (fi / inc)
    rw [abs_of_nonneg q0] at this
    linarith
  · have hfc : fi / inc ≤ 33 / 32 * c / (4096 * inc) := by
      rw [div_le_div_iff₀ (by linarith) (by linarith)]
      nlinarith
    have k1 : (k : ℚ) ≤ 8192 * N / c + 6 := by
      rw [← sub_le_iff_le_add, le_div_iff₀ cq]
      linarith
    have k2 : 8192 * (N : ℚ) / c ≤ 2 ^ 18 := by
      rw [div_le_iff₀ cq]
      nlinarith
    have k3 : 8192 * (N : ℚ) / c * (fi / inc) ≤ 592 := by
      calc 8192 * (N : ℚ) / c * (fi / inc) ≤ 8192 * (N : ℚ) / c * (33 / 32 * c / (4096 * inc)) := mul_le_mul_of_nonneg_left hfc (by positivity)
        _ = 33 / 16 * (N / inc) := by field_simp; ring
        _ ≤ 33 / 16 * 287 := by
            apply mul_le_mul_of_nonneg_left _ (by norm_num)
            rw [div_le_iff₀ (by linarith)]; exact hNq
        _ ≤ 592 := by norm_num
    have k4 : (k : ℚ) * (fi / inc) ≤ 598 := by
      have := mul_le_mul_of_nonneg_right k1 q0
      rw [add_mul] at this
      linarith
    push_cast
    have : (fi / inc + 1 / 2 ^ 40) * (3 * (k : ℚ)) = 3 * ((k : ℚ) * (fi / inc)) + 3 * k / 2 ^ 40 := by ring
    rw [this]
    have : 3 * (k : ℚ) / 2 ^ 40 ≤ 1 := by
      rw [div_le_one (by norm_num)]
      linarith
    linarith

omit hu in
theorem bufMove_lev {f g : SincFilter} {ch src len : ℤ} (hb : BufOk u f) (he : src + len ≤ f.bLen) (h : bufMove f ch src len = .ok g) : BufOk u g := by
  unfold bufMove at h
  split at h
  · simp [throw, throwThe, MonadExceptOf.throw] at h
  split at h
  · rename_i h1 h2
    rw [← ok_inj h]
    intro i i0 i1
    dsimp only at i1 ⊢
    split_ifs with hc
    · exact hb _ (by omega) (by omega)
    · exact hb _ i0 i1
  · simp [throw, throwThe, MonadExceptOf.throw] at h

theorem bufZero_lev {f g : SincFilter} {ch dst len : ℤ} (hb : BufOk u f) (h : bufZero f ch dst len = .ok g) : BufOk u g := by
  unfold bufZero at h
  split at h
  · simp [throw, throwThe, MonadExceptOf.throw] at h
  split at h
  · rw [← ok_inj h]
    intro i i0 i1
    dsimp only at i1 ⊢
    split_ifs with hc
    · exact ⟨0, Fl.val_ofInt (f := f32) (n := 0) (by norm_num), by simpa using hu.nonneg⟩
    · exact hb _ i0 i1
  · simp [throw, throwThe, MonadExceptOf.throw] at h

/-- Input samples in memory. -/
def InOk (u : ℚ) (m : Mem) (d : SrcData) (ch : ℤ) : Prop := ∀ i, 0 ≤ i → i < d.inputFrames * ch → Within u (m (d.dataIn + i))

omit hu in
theorem bufLoad_lev {m : Mem} {d : SrcData} {f g : SincFilter} {ch dst src len : ℤ} (hb : BufOk u f) (hm : InOk u m d ch)
    (h : bufLoad m d f ch dst src len = .ok g) : BufOk u g := by
  unfold bufLoad at h
  split at h
  · simp [throw, throwThe, MonadExceptOf.throw] at h
  split at h
  · simp [throw, throwThe, MonadExceptOf.throw] at h
  split at h
  · simp [throw, throwThe, MonadExceptOf.throw] at h
  · rename_i h1 h2 h3
    rw [← ok_inj h]
    intro i i0 i1
    dsimp only at i1 ⊢
    split_ifs with hc
    · rw [add_assoc]; exact hm _ (by omega) (by omega)
    · exact hb _ i0 i1

theorem prepareData_lev {m : Mem} {f g : SincFilter} {ch half e : ℤ} {d : SrcData} (hb : BufOk u f) (hm : InOk u m d ch) (he : f.bEnd ≤ f.bLen)
    (h : prepareData m f ch d half = .ok (e, g)) : BufOk u g := by
  unfold prepareData at h
  split at h
  · have h := ok_inj h; simp only [Prod.mk.injEq] at h; rw [← h.2]; exact hb
  split at h
  · have h := ok_inj h; simp only [Prod.mk.injEq] at h; rw [← h.2]; exact hb
  obtain ⟨⟨f1, n⟩, h1, h⟩ := bind_ok h
  have a : BufOk u f1 ∧ f1.bLen = f.bLen := by
    unfold prepRoom at h1
    split at h1
    · obtain ⟨_, _, h1⟩ := bind_ok h1
      have h1 := ok_inj h1; simp only [Prod.mk.injEq] at h1; rw [← h1.1]; exact ⟨hb, rfl⟩
    obtain ⟨_, _, h1⟩ := bind_ok h1
    split at h1
    · obtain ⟨_, _, h1⟩ := bind_ok h1
      have h1 := ok_inj h1; simp only [Prod.mk.injEq] at h1; rw [← h1.1]; exact ⟨hb, rfl⟩
    obtain ⟨l1, hl1, h1⟩ := bind_ok h1
    obtain ⟨l2, hl2, h1⟩ := bind_ok h1
    obtain ⟨g1, hg, h1⟩ := bind_ok h1
    obtain ⟨_, _, h1⟩ := bind_ok h1
    have h1 := ok_inj h1; simp only [Prod.mk.injEq] at h1; rw [← h1.1]
    have e1 := chkI32_eq hl1
    have e2 := chkI32_eq hl2
    exact ⟨fun i i0 i1 => bufMove_lev hb (by omega) hg i i0 i1, (bufMove_geom hg).bLen⟩
  obtain ⟨a, al⟩ := a
  dsimp only at h
  obtain ⟨r, _, h⟩ := bind_ok h
  obtain ⟨k, hk, h⟩ := bind_ok h
  split at h
  · have h := ok_inj h; simp only [Prod.mk.injEq] at h; rw [← h.2]; exact a
  rename_i hle
  have hk := chkI32_eq hk
  obtain ⟨f2, h2, h⟩ := bind_ok h
  obtain ⟨f3, h3, h⟩ := bind_ok h
  have h := ok_inj h; simp only [Prod.mk.injEq] at h; rw [← h.2]
  have b := bufLoad_lev a hm h2
  obtain ⟨_, _, _, bb, hbb⟩ := bufLoad_inv h2
  unfold prepTail at h3
  split at h3
  · obtain ⟨f4, h4, h3⟩ := bind_ok h3
    obtain ⟨_, _, h3⟩ := bind_ok h3
    obtain ⟨_, _, h3⟩ := bind_ok h3
    obtain ⟨f5, h5, h3⟩ := bind_ok h3
    have h3 := ok_inj h3
    have b4 : BufOk u f4 := by
      unfold tailMove at h4
      split at h4
      · obtain ⟨l1, hl1, h4⟩ := bind_ok h4
        obtain ⟨l2, hl2, h4⟩ := bind_ok h4
        obtain ⟨g1, hg, h4⟩ := bind_ok h4
        have h4 := ok_inj h4; rw [← h4]
        have e1 := chkI32_eq hl1
        have e2 := chkI32_eq hl2
        refine fun i i0 i1 => bufMove_lev (f := { f2 with
            bEnd := f2.bEnd + (min (truncI32 (f1.inCount - f1.inUsed)) n - r)
            inUsed := f2.inUsed + (min (truncI32 (f1.inCount - f1.inUsed)) n - r) }) b ?_ hg i i0 i1
        dsimp only at e1 e2 ⊢
        rw [hbb] at e1 ⊢
        dsimp only at e1 e2 ⊢
        omega
      · rw [← ok_inj h4]; exact b
    rw [← h3]
    have b5 := bufZero_lev hu (f := { f4 with bRealEnd := f4.bEnd }) b4 h5
    exact b5
  · rw [← ok_inj h3]; exact b

/-- Invariant of the processing loop. -/
structure LevL (u : ℚ) (d : SrcData) (s : SincLoop) : Prop where
  buf : BufOk u s.f
  co : CoefOk s.f
  out : ∀ i, 0 ≤ i → i < s.f.outGen → Within (2 ^ 11 * u) (s.mem (d.dataOut + i))

omit hu in
theorem FGeom.coef {ch : ℤ} {f g : SincFilter} (h : FGeom ch f g) (hf : CoefOk f) : CoefOk g := by
  intro i i0 i1
  rw [h.halfLen] at i1
  rw [h.co]
  exact hf i i0 i1

section
variable {N inc B : ℤ} {ch : ℕ} {m : Mem} {st : SrcState} {d : SrcData} {v : SincVariant} {l t : ℚ} {n o g : ℕ} {s s' : SincLoop} {b : Bool}

omit hu in
theorem SafeL.inOk (Q : SafeCall N inc B ch st d v l t n o) (I : SafeL N inc B ch m d l t n o g s) (hm : InOk u m d ch)
    (hd : (d.dataIn < d.dataOut ∧ d.dataIn + ((ch * n : ℕ) : ℤ) ≤ d.dataOut) ∨ (d.dataOut ≤ d.dataIn ∧ d.dataOut + ((ch * o : ℕ) : ℤ) ≤ d.dataIn)) :
    InOk u s.mem d ch := by
  intro i i0 i1
  obtain ⟨F, hF⟩ := I.mem
  have := hm i i0 i1
  rw [Q.hn] at i1
  have hg : ch * g ≤ ch * o := Nat.mul_le_mul_left _ I.hg
  rw [hF, Mem.setRange_out]
  · exact this
  · push_cast at hd ⊢
    have e : (n : ℤ) * ch = ch * n := mul_comm _ _
    have hg : (ch : ℤ) * g ≤ ch * o := by exact_mod_cast hg
    omega

theorem sincReload_lev (Q : SafeCall N inc B ch st d v l t n o) (I : SafeL N inc B ch m d l t n o g s) (hm : InOk u s.mem d ch)
    (L : LevL u d s) (h : sincReload st d (ch * sincReach N inc (min l t)) s = .ok (b, s')) : LevL u d s' := by
  have hg := sincReload_geom h
  obtain ⟨I', -⟩ := sincReload_safe Q I h
  have e1 := I'.gen.trans I.gen.symm
  refine ⟨?_, hg.coef L.co, ?_⟩
  · unfold sincReload at h
    obtain ⟨n1, hn1, h⟩ := bind_ok h
    split at h
    · obtain ⟨⟨e, f⟩, he, h⟩ := bind_ok h
      rw [Q.hch] at he
      have hb := prepareData_lev hu L.buf hm I.safe.be he
      dsimp only at h
      split at h
      · have h := ok_inj h; simp only [Prod.mk.injEq] at h; rw [← h.2]; exact hb
      · obtain ⟨n2, hn2, h⟩ := bind_ok h
        have h := ok_inj h; simp only [Prod.mk.injEq] at h; rw [← h.2]; exact hb
    · have h := ok_inj h; simp only [Prod.mk.injEq] at h; rw [← h.2]; exact L.buf
  · have e2 : s'.mem = s.mem := by
      unfold sincReload at h
      obtain ⟨n1, hn1, h⟩ := bind_ok h
      split at h
      · obtain ⟨⟨e, f⟩, he, h⟩ := bind_ok h
        dsimp only at h
        split at h
        · have h := ok_inj h; simp only [Prod.mk.injEq] at h; rw [← h.2]
        · obtain ⟨n2, hn2, h⟩ := bind_ok h
          have h := ok_inj h; simp only [Prod.mk.injEq] at h; rw [← h.2]
      · have h := ok_inj h; simp only [Prod.mk.injEq] at h; rw [← h.2]
    intro i i0 i1
    rw [e2]
    exact L.out i i0 (by rw [← e1]; exact i1)

theorem sincStep_lev (Q : SafeCall N inc B ch st d v l t n o) {τ : F64} (I : SafeL N inc B ch m d l t n o g s) (hm : InOk u m d ch)
    (hd : (d.dataIn < d.dataOut ∧ d.dataIn + ((ch * n : ℕ) : ℤ) ≤ d.dataOut) ∨ (d.dataOut ≤ d.dataIn ∧ d.dataOut + ((ch * o : ℕ) : ℤ) ≤ d.dataIn))
    (L : LevL u d s) (h : sincStep v st d (ch * sincReach N inc (min l t)) τ s = .ok (b, s')) : LevL u d s' := by
  have hgeo := sincStep_geom h
  unfold sincStep at h
  split at h
  · have h := ok_inj h; simp only [Prod.mk.injEq] at h; obtain ⟨rfl, rfl⟩ := h
    exact L
  rename_i hgo
  obtain ⟨⟨brk, s1⟩, h1, h⟩ := bind_ok h
  obtain ⟨I1, -⟩ := sincReload_safe Q I h1
  have L1 := sincReload_lev hu Q I (I.inOk Q hm hd) L h1
  dsimp only at h
  split at h
  · have h := ok_inj h; simp only [Prod.mk.injEq] at h; obtain ⟨rfl, rfl⟩ := h
    exact L1
  split at h
  · have h := ok_inj h; simp only [Prod.mk.injEq] at h; obtain ⟨rfl, rfl⟩ := h
    exact L1
  have hgo' : g < o := by
    rw [not_not, I.gen, I.ocount] at hgo
    have : ch * g < ch * o := by exact_mod_cast hgo
    exact lt_of_mul_lt_mul_left this (Nat.zero_le _)
  obtain ⟨sum, hsum, h⟩ := bind_ok h
  obtain ⟨mem, hmem, h⟩ := bind_ok h
  obtain ⟨⟨f1, i1⟩, h2, h⟩ := bind_ok h
  have h := ok_inj h; simp only [Prod.mk.injEq] at h; obtain ⟨rfl, rfl⟩ := h
  have hf1 : ∃ c, f1 = { s1.f with outGen := s1.f.outGen + v.w st.channels, bCurrent := c } := by
    unfold sincNorm at h2
    dsimp only at h2
    obtain ⟨_, _, h2⟩ := bind_ok h2
    obtain ⟨_, _, h2⟩ := bind_ok h2
    obtain ⟨c, _, h2⟩ := bind_ok h2
    have h2 := ok_inj h2; simp only [Prod.mk.injEq] at h2
    exact ⟨c, h2.1.symm⟩
  obtain ⟨c, hf1⟩ := hf1
  obtain ⟨r1, r2, r3⟩ := sincRatio_val (cur := s1.ratio) Q.hl Q.ht Q.vl Q.vt Q.C.ch1 hgo' (Q.hob.trans (by norm_num)) I1.same
  have er : sincRatio st.lastRatio d.srcRatio s1.f.outGen s1.f.outCount s1.ratio = sincRatio st.lastRatio d.srcRatio ((ch * g : ℕ) : ℤ) ((ch * o : ℕ) : ℤ) s1.ratio := by
    rw [I1.gen, I1.ocount]
  rw [er] at hmem
  obtain ⟨i, hi, i0, i1'⟩ := I1.idx
  rw [Q.hch, Q.fits.1, I1.gen, writeOutputs_spec Q.C.ch1 Q.ho hgo' (by have := Q.hout; omega), I1.safe.hinc,
    (Q.C.geo.step_vals r1 r2.1 hi i0 i1').2.2] at hmem
  have hmem := (Except.ok.inj hmem).symm
  obtain ⟨v1, v2, -⟩ := Q.C.geo.step_vals r1 r2.1 hi i0 i1'
  have hsum : calcOutput v s1.f st.channels (rne (sincInc inc (sincRatioAt l t ch o g) * 4096)) (rne (r64 (i * sincInc inc (sincRatioAt l t ch o g)) * 4096)) = .ok sum := by
    rw [← v1, ← v2, ← hsum, er, I1.safe.hinc]
  obtain ⟨a1, a2⟩ := Q.C.geo.incr_bounds r2.1
  obtain ⟨b1, b2⟩ := Q.C.geo.start_bounds r2.1 i0 i1'
  have n1 := Q.C.geo.n1
  have inc1 := Q.C.geo.inc1
  obtain ⟨k, hk, hw⟩ := calcOutput_w hu L1.co L1.buf (by omega) b1 b2 (by rw [I1.safe.hN]; omega) hsum
  rw [I1.safe.hN] at hk
  obtain ⟨w, w0, hsc, hwk⟩ := Q.C.geo.scale_w r2.1 hk
  have hu35 : (2 : ℚ) ^ 11 * u ≤ 2 ^ 120 := by have := hu.le; linarith
  refine ⟨?_, hgeo.coef L.co, ?_⟩
  · dsimp only
    rw [hf1]
    exact L1.buf
  · dsimp only
    rw [hf1]
    dsimp only
    intro k k0 k1
    rw [Q.hch, Q.fits.1, I1.gen] at k1
    by_cases hk : k < ((ch * g : ℕ) : ℤ)
    · rw [hmem, Mem.setRange_out (by omega)]
      exact L1.out k k0 (by rw [I1.gen]; exact hk)
    · obtain ⟨j, hj⟩ := Int.eq_ofNat_of_zero_le (show 0 ≤ k - ((ch * g : ℕ) : ℤ) by omega)
      rw [hmem, show d.dataOut + k = d.dataOut + ((ch * g : ℕ) : ℤ) + (j : ℤ) by omega, Mem.setRange_in (by omega)]
      refine conv_within (hsc.mul (hw j) w0 (by have := hu.rep (n := 2 ^ 11) (by norm_num); push_cast at this; exact this)
        (by rw [← mul_assoc]; exact mul_le_mul_of_nonneg_right hwk hu.nonneg) hu35)
        (hu.rep32 (by norm_num)) hu35

theorem sincVari_lev {st : SrcState} {d : SrcData} {l t : ℚ} {n o : ℕ} {f : SincFilter} (Q : SafeCall N inc B ch st d (sincVariantOf ch) l t n o)
    (hnb : ch * n ≤ 2 ^ 52) (hpv : st.priv = .sinc f) (S : SafeF N inc B ch f) {i : ℚ} (hpos : st.lastPosition.val = some i) (hi0 : 0 ≤ i) (hi1 : i < 1)
    (hm : InOk u m d ch)
    (hd : (d.dataIn < d.dataOut ∧ d.dataIn + ((ch * n : ℕ) : ℤ) ≤ d.dataOut) ∨ (d.dataOut ≤ d.dataIn ∧ d.dataOut + ((ch * o : ℕ) : ℤ) ≤ d.dataIn))
    (hb : BufOk u f) (hc : CoefOk f)
    {r : ProcRes} (h : sincVariProcess (sincVariantOf ch) m st d = .ok r) :
    ∃ s, LevL u d s ∧ r.mem = s.mem ∧ r.st.priv = .sinc s.f ∧ (r.err = 0 → r.data.outputFramesGen * ch = s.f.outGen) := by
  unfold sincVariProcess at h
  rw [hpv] at h
  dsimp only at h
  rw [Q.hch, chk64_frames Q.hn hnb, chk64_frames Q.ho Q.hob] at h
  obtain ⟨_, e1, h⟩ := bind_ok h
  obtain ⟨_, e2, h⟩ := bind_ok h
  have e1 := Except.ok.inj e1
  have e2 := Except.ok.inj e2
  subst e1 e2
  rw [if_neg (by rw [(isBad_false_iff Q.hl).2 Q.vl]; decide)] at h
  obtain ⟨half, hh, h⟩ := bind_ok h
  rw [Q.C.geo.half_val (by exact S.hN) (by exact S.hinc) Q.C.ch1 Q.C.chM Q.hl Q.ht Q.vl Q.vt] at hh
  have hh := Except.ok.inj hh
  subst hh
  obtain ⟨⟨f1, i1⟩, h1, h⟩ := bind_ok h
  have hfl : ⌊i⌋ = 0 := Int.floor_eq_zero_iff.2 ⟨hi0, hi1⟩
  have S0 : SafeF N inc B ch { f with inCount := ((ch * n : ℕ) : ℤ), outCount := ((ch * o : ℕ) : ℤ), inUsed := 0, outGen := 0 } :=
    ⟨S.hN, S.hinc, S.hlen, S.dvdC, S.c0, S.lt, S.le, S.be, S.z, S.dvdE⟩
  obtain ⟨n1, n2⟩ := sincNorm_safe S0 Q.C hpos hi0 (by linarith) (by rw [hfl, mul_zero, add_zero]; exact S0.lt)
  rw [hfl, mul_zero, add_zero] at n1
  rw [n1] at h1
  have h1 := Except.ok.inj h1
  simp only [Prod.mk.injEq] at h1
  obtain ⟨rfl, rfl⟩ := h1
  rw [Int.fract_eq_self.2 ⟨hi0, hi1⟩] at n2
  obtain ⟨s, hs, h⟩ := bind_ok h
  have I := whileM_inv (fun s : SincLoop => (∃ g, SafeL N inc B ch m d l t n o g s) ∧ LevL u d s)
    (fun s b s' hI h => by
      obtain ⟨⟨g, hI⟩, hst⟩ := hI
      exact ⟨(sincStep_safe Q hI h).1, sincStep_lev hu Q hI hm hd hst h⟩) _ _ _ (by
      refine ⟨⟨0, ⟨S0, rfl, rfl, dvd_zero _, le_refl _, by positivity, by simp, Nat.zero_le _, ⟨fun _ => zero32, ?_⟩, ⟨i, n2, hi0, hi1⟩, ⟨l, Q.hl, Q.vl⟩,
        fun _ => Q.hl⟩⟩, ⟨hb, hc, fun i i0 i1 => ?_⟩⟩
      · rw [Nat.mul_zero, Mem.setRange_zero]
      · dsimp only at i1; omega) hs
  obtain ⟨⟨g, I⟩, L⟩ := I
  refine ⟨s, L, ?_⟩
  have hch0 : (ch : ℤ) ≠ 0 := by have := Q.C.ch1; omega
  split at h
  · rename_i hne
    have := ok_inj h
    subst this
    exact ⟨rfl, rfl, fun h0 => absurd h0 hne⟩
  · rw [divM_ok hch0, divM_ok hch0, I.gen] at h
    have := ok_inj h
    subst this
    refine ⟨rfl, rfl, fun _ => ?_⟩
    dsimp only
    rw [I.gen]
    push_cast
    rw [Int.mul_tdiv_cancel_left _ hch0, mul_comm]

end

/-- Samples held by a handle are within `u`. -/
def LevS (u : ℚ) (st : SrcState) : Prop := ∃ f, st.priv = .sinc f ∧ BufOk u f ∧ CoefOk f

section
variable {N inc B : ℤ} {ch : ℕ} {m : Mem} {st : SrcState}

theorem process_lev (S : SafeS N inc B ch st) (L : LevS u st) (hmode : st.mode = .process) (x : Option SrcData) (hO : ∀ d, x = some d → Ordinary 1 ch d)
    (hm : ∀ d, x = some d → InOk u m d ch)
    {e : ℤ} {m' : Mem} {st1 : Option SrcState} {x' : Option SrcData} (h : srcProcess m (some st) x = .ok (e, m', st1, x')) :
    ∃ st', st1 = some st' ∧ LevS u st' ∧ (e = 0 → ∀ d, x = some d → ∃ d', x' = some d' ∧
      ∀ i, 0 ≤ i → i < d'.outputFramesGen * ch → Within (2 ^ 11 * u) (m' (d.dataOut + i))) := by
  cases x with
  | none =>
    simp only [srcProcess] at h
    rw [if_neg (by simp [hmode])] at h
    have h := ok_inj h
    simp only [Prod.mk.injEq] at h
    obtain ⟨rfl, rfl, rfl, rfl⟩ := h
    exact ⟨st, rfl, L, fun _ d hd => by cases hd⟩
  | some d =>
    have hO := hO d rfl
    rcases ordinary_cases S.hch hmode hO with ⟨e1, hf⟩ | ⟨_, _, _, t, g⟩
    · obtain ⟨d', hd'⟩ := process_rejects (m := m) hf (by
        rintro s y h1 h2; cases h1; cases h2
        have b1 := hO.inSize
        have b2 := hO.outSize
        rw [S.hch]
        exact ⟨by positivity, by omega, by omega⟩)
      rw [hd'] at h
      have h := Except.ok.inj h
      simp only [Prod.mk.injEq] at h
      obtain ⟨rfl, rfl, rfl, rfl⟩ := h
      refine ⟨st, rfl, L, fun h0 => ?_⟩
      have := firstFailing_arg hf
      rw [h0] at this
      simp [ArgError] at this
    · obtain ⟨l, hl, vl⟩ := S.hrat
      obtain ⟨i, hpos, hi0, hi1⟩ := S.hpos
      obtain ⟨f, hp, SF⟩ := S.hpriv
      obtain ⟨f', hp', hb, hc⟩ := L
      rw [hp] at hp'
      cases hp'
      obtain ⟨st1', h1, h2, h3⟩ := process_enters (m := m) hmode S.hch g hl vl
      rw [h1] at h
      obtain ⟨r, hr, h⟩ := bind_ok h
      have h := ok_inj h
      simp only [Prod.mk.injEq] at h
      obtain ⟨rfl, rfl, rfl, rfl⟩ := h
      rw [variProcess_sinc (ch := ch) (by rw [h2]; exact S.hvt)] at hr
      have vs := startRatio_valid vl g.vt
      have hn : ({ clampFrames d with inputFramesUsed := 0, outputFramesGen := 0 } : SrcData).inputFrames = (d.inputFrames.toNat : ℤ) := by
        simp only [clampFrames]; rw [clamp_toNat]
      have ho : ({ clampFrames d with inputFramesUsed := 0, outputFramesGen := 0 } : SrcData).outputFrames = (d.outputFrames.toNat : ℤ) := by
        simp only [clampFrames]; rw [clamp_toNat]
      have Q : SafeCall N inc B ch st1' { clampFrames d with inputFramesUsed := 0, outputFramesGen := 0 } (sincVariantOf ch) (startRatio l t) t
          d.inputFrames.toNat d.outputFrames.toNat :=
        ⟨geom_ctx S.geo S.hch1 S.hchM (validMin vs g.vt), sincVariant_fits S.hchM, by rw [h2]; exact S.hch, h3, g.ht, vs, g.vt, hn, ho, g.hout, g.hob⟩
      have hin : InOk u m { clampFrames d with inputFramesUsed := 0, outputFramesGen := 0 } ch := by
        intro k k0 k1
        rw [hn] at k1
        refine hm d rfl k k0 ?_
        by_cases hneg : 0 ≤ d.inputFrames
        · rw [Int.toNat_of_nonneg hneg] at k1; exact k1
        · rw [Int.toNat_of_nonpos (by omega)] at k1; omega
      obtain ⟨s, L', a1, a2, a3⟩ := sincVari_lev hu Q g.hnb (by rw [h2]; exact hp) SF (by rw [h2]; exact hpos) hi0 hi1 hin g.hdisj hb hc hr
      refine ⟨r.st, rfl, ⟨s.f, a2, L'.buf, L'.co⟩, fun h0 d1 hd1 => ⟨r.data, rfl, fun k k0 k1 => ?_⟩⟩
      cases hd1
      rw [a1]
      exact L'.out k k0 (by rw [← a3 h0]; exact k1)

theorem op_lev (S : SafeS N inc B ch st) (L : LevS u st) (hmode : st.mode = .process) {op : Op} (hO : OrdinaryOp 1 ch op) (hI : InputWithin u ch op)
    {o : Obs} {st1 : SrcState} (h : op.run st = .ok (o, st1)) : OutputWithin (2 ^ 11 * u) ch op o ∧ LevS u st1 := by
  cases hO with
  | process m d hd =>
    obtain ⟨⟨e, m', s1, d'⟩, h1, h⟩ := bind_ok h
    obtain ⟨s', rfl, L', hR⟩ := process_lev hu S L hmode d hd (fun x hx => hI m x (by rw [hx])) h1
    have h := ok_inj h
    simp only [Prod.mk.injEq] at h
    obtain ⟨rfl, rfl⟩ := h
    refine ⟨?_, L'⟩
    intro m0 d0 hop h0
    cases hop
    obtain ⟨x', a, b⟩ := hR h0 d0 rfl
    exact ⟨x', m', a, rfl, b⟩
  | setRatio r hr =>
    obtain ⟨e, st', h1, h2, h3, h4⟩ := setRatio_safe S hr
    simp only [Op.run, h1] at h
    have h := ok_inj h
    simp only [Prod.mk.injEq] at h
    obtain ⟨rfl, rfl⟩ := h
    refine ⟨fun _ _ hop => (by cases hop), ?_⟩
    show LevS u st'
    rw [h4]; exact L
  | reset =>
    have h := ok_inj h
    simp only [Prod.mk.injEq] at h
    obtain ⟨rfl, rfl⟩ := h
    refine ⟨fun _ _ hop => (by cases hop), ?_⟩
    obtain ⟨f, hp, hb, hc⟩ := L
    refine ⟨sincReset ch f, ?_, ?_, hc⟩
    · show resetPriv st = _
      rw [resetPriv_sinc S.hvt hp, S.hch]
    · intro i i0 i1
      simp only [sincReset] at i1 ⊢
      rw [if_pos ⟨i0, i1⟩]
      exact ⟨0, Fl.val_ofInt (f := f32) (n := 0) (by norm_num), by simpa using hu.nonneg⟩

theorem sinc_history_lev : ∀ (ops : List Op) {st : SrcState}, SafeS N inc B ch st → LevS u st → st.mode = .process →
    (∀ op ∈ ops, OrdinaryOp 1 ch op) → (∀ op ∈ ops, InputWithin u ch op) →
    ∀ {os : List Obs} {st1 : SrcState}, run ops st = .ok (os, st1) → List.Forall₂ (OutputWithin (2 ^ 11 * u) ch) ops os := by
  intro ops
  induction ops with
  | nil =>
    intro st S L hm _ _ os st1 h
    have h := ok_inj h; simp only [Prod.mk.injEq] at h
    obtain ⟨rfl, rfl⟩ := h
    exact .nil
  | cons op ops ih =>
    intro st S L hm hO hI os st1 h
    obtain ⟨⟨o, s1⟩, h1, h⟩ := bind_ok h
    obtain ⟨⟨os', s2⟩, h2, h⟩ := bind_ok h
    have h := ok_inj h; simp only [Prod.mk.injEq] at h
    obtain ⟨rfl, rfl⟩ := h
    obtain ⟨a1, a2, a3⟩ := op_safe S hm (hO op (by simp)) h1
    obtain ⟨b1, b2⟩ := op_lev hu S L hm (hO op (by simp)) (hI op (by simp)) h1
    exact .cons b1 (ih a2 b2 a3 (fun o ho => hO o (by simp [ho])) (fun o ho => hI o (by simp [ho])) h2)

/-- A new sinc handle holds silence. -/
theorem new_lev {cfg : Config} {type e : ℤ} {t : CoeffTable} (hT : cfg.table type = some t) (hc : ∀ i, 0 ≤ i → i < t.count → Within 1 (t.coeffs i))
    (h : srcNew cfg type ch = .ok (e, some st)) : LevS u st := by
  unfold srcNew at h
  rw [hT] at h
  dsimp only at h
  unfold sincStateNew at h
  obtain ⟨_, ha, h⟩ := bind_ok h
  split at h
  · have h := ok_inj h
    simp at h
  obtain ⟨bl, hbl, h⟩ := bind_ok h
  have h := ok_inj h
  simp only [Prod.mk.injEq, Option.some.injEq] at h
  rw [← h.2]
  refine ⟨sincReset ch (sincFilterInit t bl), ?_, ?_, ?_⟩
  · dsimp only
    rw [resetPriv_sinc (ch := ch) rfl rfl]
    rfl
  · intro i i0 i1
    simp only [sincReset] at i1 ⊢
    rw [if_pos ⟨i0, i1⟩]
    exact ⟨0, Fl.val_ofInt (f := f32) (n := 0) (by norm_num), by simpa using hu.nonneg⟩
  · intro i i0 i1
    simp only [sincReset, sincFilterInit] at i1 ⊢
    exact hc i i0 (by omega)

end

end Verif
