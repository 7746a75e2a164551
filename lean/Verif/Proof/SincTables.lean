import Verif.Proof.SincCall
import Verif.Proof.Frame
import Verif.Spec.SincHistory

/-! The filter tables of the library satisfy the geometric conditions, and new and reset sinc handles. -/

namespace Verif
open Spec

/-- Buffer length in frames, for a table of `c` entries with step `inc`, when `256 * c / inc + 1` is close to the integer `k`. -/
theorem table_num {c inc k : ℤ} (hi : 1 ≤ inc) (hiM : inc ≤ 4096) (hc : 6 * inc ≤ c) (hcM : c ≤ 366213) (hk : |(256 * c : ℚ) / inc + 1 - k| ≤ 49 / 100)
    (hkM : k ≤ 1000000) :
    sincReach (c - 2) inc (1 / 256) = k ∧
    lrint (Fl.add (Fl.mul (Fl.div (Fl.add (dbl (c - 2)) (dbl 2)) (dbl inc)) (dbl 256)) one64) = k := by
  have hiq : (1 : ℚ) ≤ inc := by exact_mod_cast hi
  have hcq : (6 : ℚ) * inc ≤ c := by exact_mod_cast hc
  have hcq2 : (c : ℚ) ≤ 366213 := by exact_mod_cast hcM
  have hkq : (k : ℚ) ≤ 1000000 := by exact_mod_cast hkM
  have hq6 : (6 : ℚ) ≤ c / inc := by rw [le_div_iff₀ (by linarith)]; exact hcq
  have e256 : (256 * c : ℚ) / inc = 256 * (c / inc) := by ring
  rw [e256] at hk
  generalize hx : (c : ℚ) / inc = x at *
  rw [abs_le] at hk
  have hxM : x ≤ 4000 := by linarith
  have e1 := abs_rq_sub_le_of_lt (f := f64) (q := x) (k := 12) (by rw [abs_of_nonneg (by linarith), show p2 12 = 4096 by norm_num [p2]]; linarith) (by decide)
  have e1' : |r64 x - x| ≤ 1 / 1000000000 := e1.trans (by norm_num [f64, p2])
  rw [abs_le] at e1'
  have hn0 : 0 ≤ r64 x := rq_nonneg (by linarith)
  have e2 := abs_rq_sub_le_of_lt (f := f64) (q := r64 x * 256) (k := 20) (by rw [abs_of_nonneg (by linarith), show p2 20 = 1048576 by norm_num [p2]]; linarith) (by decide)
  have e2' : |r64 (r64 x * 256) - r64 x * 256| ≤ 1 / 1000000 := e2.trans (by norm_num [f64, p2])
  rw [abs_le] at e2'
  have hm0 : 0 ≤ r64 (r64 x * 256) := rq_nonneg (by linarith)
  constructor
  · unfold sincReach
    have ec : ((c - 2 + 2 : ℤ) : ℚ) / inc = x := by rw [← hx]; congr 1; push_cast; ring
    rw [ec]
    dsimp only
    rw [if_pos (by norm_num)]
    have ed : r64 x / (1 / 256) = r64 x * 256 := by ring
    rw [ed]
    have hr := abs_rne_sub_le (r64 (r64 x * 256))
    rw [abs_le] at hr
    have h1 : (rne (r64 (r64 x * 256)) : ℚ) < ((k : ℤ) : ℚ) := by linarith
    have h2 : (((k - 2 : ℤ)) : ℚ) < (rne (r64 (r64 x * 256)) : ℚ) := by push_cast; linarith
    have h1' : rne (r64 (r64 x * 256)) < k := by exact_mod_cast h1
    have h2' : k - 2 < rne (r64 (r64 x * 256)) := by exact_mod_cast h2
    omega
  · have v1 := dbl_ofInt_small (n := c - 2) (by omega) (by omega)
    have v2 := dbl_ofInt_small (n := 2) (by norm_num) (by norm_num)
    have v3 := dbl_ofInt_small (n := inc) (by omega) (by omega)
    have v4 := dbl_ofInt_small (n := 256) (by norm_num) (by norm_num)
    have w1 := add64 v1 v2 (by
      have : ((c - 2 : ℤ) : ℚ) + ((2 : ℤ) : ℚ) = c := by push_cast; ring
      rw [this, abs_of_nonneg (by linarith)]; linarith)
    have ec : ((c - 2 : ℤ) : ℚ) + ((2 : ℤ) : ℚ) = ((c : ℤ) : ℚ) := by push_cast; ring
    rw [ec, rq_of_rep (rep64_int (n := c) (by rw [abs_of_nonneg (by omega)]; omega))] at w1
    have w2 := div64 w1 v3 (by linarith) (by rw [hx, abs_of_nonneg (by linarith)]; linarith)
    rw [hx] at w2
    have w3 := mul64 w2 v4 (by push_cast; rw [abs_of_nonneg (by linarith)]; linarith)
    rw [show r64 x * ((256 : ℤ) : ℚ) = r64 x * 256 by push_cast; ring] at w3
    have w4 := add64 w3 one64_val (by rw [abs_of_nonneg (by linarith)]; linarith)
    have e3 := abs_rq_sub_le_of_lt (f := f64) (q := r64 (r64 x * 256) + 1) (k := 21)
      (by rw [abs_of_nonneg (by linarith), show p2 21 = 2097152 by norm_num [p2]]; linarith) (by decide)
    have e3' : |r64 (r64 (r64 x * 256) + 1) - (r64 (r64 x * 256) + 1)| ≤ 1 / 1000000 := e3.trans (by norm_num [f64, p2])
    rw [abs_le] at e3'
    rw [lrint_val w4 (by rw [abs_of_nonneg (by linarith)]; linarith)]
    have hr := abs_rne_sub_le (r64 (r64 (r64 x * 256) + 1))
    rw [abs_le] at hr
    have h1 : (rne (r64 (r64 (r64 x * 256) + 1)) : ℚ) < ((k + 1 : ℤ) : ℚ) := by push_cast; linarith
    have h2 : (((k - 1 : ℤ)) : ℚ) < (rne (r64 (r64 (r64 x * 256) + 1)) : ℚ) := by push_cast; linarith
    have h1' : rne (r64 (r64 (r64 x * 256) + 1)) < k + 1 := by exact_mod_cast h1
    have h2' : k - 1 < rne (r64 (r64 (r64 x * 256) + 1)) := by exact_mod_cast h2
    omega

/-- A table with known dimensions: reach at the smallest ratio, geometric conditions and buffer length. -/
theorem table_geom {t : CoeffTable} (h : (t.increment = 128 ∧ t.count = 2464) ∨ (t.increment = 491 ∧ t.count = 22438) ∨
    (t.increment = 2381 ∧ t.count = 340239)) :
    ∃ B, Geom (t.count - 2) t.increment B ∧ B = 3 * sincReach (t.count - 2) t.increment (1 / 256) ∧ 4929 ≤ sincReach (t.count - 2) t.increment (1 / 256) ∧
      ∀ ch : ℕ, ch ≤ 128 → sincBLen t ch = .ok (ch * B + 1) := by
  have key : ∀ inc c k : ℤ, 1 ≤ inc → inc ≤ 4096 → 6 * inc ≤ c → c ≤ 366213 → |(256 * c : ℚ) / inc + 1 - k| ≤ 49 / 100 → 4929 ≤ k → k ≤ 300000 →
      128 * c ≤ inc * (8000 + 7 * inc) → t.increment = inc → t.count = c →
      ∃ B, Geom (t.count - 2) t.increment B ∧ B = 3 * sincReach (t.count - 2) t.increment (1 / 256) ∧ 4929 ≤ sincReach (t.count - 2) t.increment (1 / 256) ∧
      ∀ ch : ℕ, ch ≤ 128 → sincBLen t ch = .ok (ch * B + 1) := by
    intro inc c k a1 a2 a3 a4 a5 a6 a7 a8 h1 h2
    obtain ⟨n1, n2⟩ := table_num a1 a2 a3 a4 a5 (by omega)
    rw [h1, h2]
    refine ⟨3 * k, ⟨a1, a2, by omega, by omega, by rw [show c - 2 + 2 = c by ring]; exact a8, by rw [n1], by omega⟩, by rw [n1], by omega, fun ch hch => ?_⟩
    unfold sincBLen
    have hc : (ch : ℤ) ≤ 128 := by exact_mod_cast hch
    have hc0 : (0 : ℤ) ≤ ch := by positivity
    have hb : (3 * k) * (ch : ℤ) ≤ 3 * 300000 * 128 := mul_le_mul (by omega) hc hc0 (by norm_num)
    have hb0 : 0 ≤ (3 * k) * (ch : ℤ) := mul_nonneg (by omega) hc0
    rw [h1, h2]
    dsimp only
    rw [n2, chkI32_ok (by omega) (by omega)]
    simp only [bind, Except.bind]
    rw [max_eq_left (by omega), chkI32_ok (by omega) (by omega)]
    simp only
    rw [chkI32_ok (by omega) (by omega), mul_comm]
  rcases h with ⟨h1, h2⟩ | ⟨h1, h2⟩ | ⟨h1, h2⟩
  · exact key 128 2464 4929 (by norm_num) (by norm_num) (by norm_num) (by norm_num) (by norm_num) (by norm_num) (by norm_num) (by norm_num) h1 h2
  · exact key 491 22438 11700 (by norm_num) (by norm_num) (by norm_num) (by norm_num) (by norm_num [abs_le]) (by norm_num) (by norm_num) (by norm_num) h1 h2
  · exact key 2381 340239 36583 (by norm_num) (by norm_num) (by norm_num) (by norm_num) (by norm_num [abs_le]) (by norm_num) (by norm_num) (by norm_num) h1 h2

/-- The state of a reset sinc handle. -/
theorem reset_buf {sg : Guard} {co : ℤ → F32} {N inc B : ℤ} {ch : ℕ} {f : SincFilter} (hN : f.coeffHalfLen = N) (hinc : f.indexInc = inc) (hco : f.coeffs = co)
    (hlen : f.bLen = ch * B + 1) (hB : 0 ≤ B) {y : ℤ → ℕ → F32} (hy : ∀ z : ℤ, z < 0 → ∀ c, y z c = zero32) (h : ℤ) :
    SBuf sg co N inc B ch y (sincReset ch f) 0 0 0 h := by
  have hl : 0 < f.bLen := by
    rw [hlen]
    have : 0 ≤ (ch : ℤ) * B := mul_nonneg (by positivity) hB
    omega
  refine ⟨hN, hinc, hco, hlen, by simp [sincReset], le_refl _, Or.inl ⟨by simp [sincReset], le_refl _, by simp [sincReset]⟩, by simp [sincReset],
    by simp only [sincReset]; omega, by simp only [sincReset]; exact hl, Or.inl ⟨rfl, by simp [sincReset], rfl, rfl, fun b h0 h1 => ?_⟩, hy, fun z c hz hc hb => ?_⟩
  · simp only [sincReset] at h1 ⊢
    rw [if_pos ⟨h0, h1⟩]
  · exfalso
    simp only [sincReset] at hb
    have : 0 ≤ (ch : ℤ) * z + c := by positivity
    omega

theorem resetPriv_sinc {st : SrcState} {f : SincFilter} {ch : ℤ} (hvt : st.vt = sincVt ch) (hp : st.priv = .sinc f) :
    resetPriv st = .sinc (sincReset st.channels f) := by
  unfold resetPriv
  rw [hvt, hp]
  unfold sincVt
  split_ifs <;> rfl

/-- Resetting a sinc handle. -/
theorem sinc_reset_view {sg sg' : Guard} {co : ℤ → F32} {N inc B : ℤ} {st : SrcState} {ch : ℕ} {l : ℚ} {y y' : ℤ → ℕ → F32} {f : SincFilter} {D : ℤ} {k R : ℕ} {i : ℚ} {h : ℤ}
    (V : SView sg co N inc B st ch l y f D k R i h) (hy : ∀ z : ℤ, z < 0 → ∀ c, y' z c = zero32) (h' : ℤ) :
    SView sg' co N inc B (srcResetState st) ch 0 y' (sincReset ch f) 0 0 0 0 h' := by
  refine ⟨V.geo, V.hvt, V.hch, V.hch1, V.hchM, ?_, reset_buf V.buf.hN V.buf.hinc V.buf.hco V.buf.hlen ?_ hy h', zero64_val, ⟨le_refl _, by norm_num⟩, zero64_val, Or.inl rfl⟩
  · unfold srcResetState
    dsimp only
    rw [resetPriv_sinc V.hvt V.hpriv, V.hch]
  · have := V.geo.room
    have := V.geo.reach_ge (r := 1 / 256) (by norm_num)
    omega

/-- A new sinc handle. -/
theorem sinc_new_view {sg : Guard} {cfg : Config} {type : ℤ} {ch : ℕ} {e : ℤ} {st : SrcState} {t : CoeffTable} (hT : cfg.table type = some t)
    (hd : (t.increment = 128 ∧ t.count = 2464) ∨ (t.increment = 491 ∧ t.count = 22438) ∨ (t.increment = 2381 ∧ t.count = 340239))
    (h : srcNew cfg type ch = .ok (e, some st)) {y : ℤ → ℕ → F32} (hy : ∀ z : ℤ, z < 0 → ∀ c, y z c = zero32) (h' : ℤ) :
    ∃ B f, Geom (t.count - 2) t.increment B ∧ B = 3 * sincReach (t.count - 2) t.increment (1 / 256) ∧ 4929 ≤ sincReach (t.count - 2) t.increment (1 / 256) ∧
      SView sg t.coeffs (t.count - 2) t.increment B st ch 0 y f 0 0 0 0 h' ∧ st.mode = .process ∧ st.error = 0 := by
  obtain ⟨B, G, hB, hk, hbl⟩ := table_geom hd
  unfold srcNew at h
  rw [hT] at h
  dsimp only at h
  unfold sincStateNew at h
  obtain ⟨u, ha, h⟩ := bind_ok h
  have hp := assertM_true ha
  simp only [gt_iff_lt, decide_eq_true_eq] at hp
  by_cases hM : (ch : ℤ) > 128
  · rw [if_pos hM] at h
    have h := ok_inj h
    simp at h
  rw [if_neg hM] at h
  have hM' : ch ≤ 128 := by exact_mod_cast (not_lt.1 hM)
  rw [hbl ch hM'] at h
  simp only [bind, Except.bind] at h
  have h := ok_inj h
  simp only [Prod.mk.injEq, Option.some.injEq] at h
  rw [← h.2]
  have hB0 : 0 ≤ B := by omega
  refine ⟨B, sincReset ch (sincFilterInit t (ch * B + 1)), G, hB, hk, ⟨G, rfl, rfl, by omega, hM', ?_, ?_, zero64_val, ⟨le_refl _, by norm_num⟩, zero64_val, Or.inl rfl⟩, rfl, rfl⟩
  · dsimp only
    rw [resetPriv_sinc (ch := ch) rfl rfl]
    rfl
  · exact reset_buf (f := sincFilterInit t (ch * B + 1)) rfl rfl rfl rfl hB0 hy h'

end Verif
