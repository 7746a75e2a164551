import Verif.Proof.SincBuf
import Verif.Proof.Interp

/-! The parts of one iteration of the sinc processing loop. -/

namespace Verif
open Spec

/-! ### dependence of the filter sums on the data -/

theorem sincLeft_congr {co : ℤ → F32} {N incr start D : ℤ} {x x' : ℤ → F64} (hi : 1 ≤ incr) (hs0 : 0 ≤ start) (hs1 : start ≤ incr)
    (hD : 0 ≤ D) (hN : start ≤ 4096 * N) (h : ∀ z, -D ≤ z → z ≤ 1 → x z = x' z) :
    sincLeft co N incr start D x = sincLeft co N incr start D x' := by
  unfold sincLeft
  dsimp only
  have ha0 : 0 ≤ min ((4096 * N - start) / incr) D := le_min (Int.ediv_nonneg (by omega) (by omega)) hD
  have haD : min ((4096 * N - start) / incr) D ≤ D := min_le_right _ _
  generalize min ((4096 * N - start) / incr) D = a at *
  refine tapSum_congr (fun _ _ => rfl) (fun j hj => ?_)
  apply h
  · omega
  · have : (start + a * incr) / incr ≤ a + 1 := by
      rw [Int.add_mul_ediv_right _ _ (by omega)]
      have : start / incr ≤ 1 := Int.ediv_le_of_le_mul (by omega) (by omega)
      omega
    omega

theorem sincRight_congr {co : ℤ → F32} {N incr start : ℤ} {x x' : ℤ → F64} (hi : 1 ≤ incr) (hs0 : 0 ≤ start) (hs1 : start ≤ incr)
    (hN : incr ≤ 4096 * N) (h : ∀ z, 0 ≤ z → z ≤ 1 + (4096 * N - (incr - start)) / incr → x z = x' z) :
    sincRight co N incr start x = sincRight co N incr start x' := by
  unfold sincRight
  dsimp only
  have ha0 : 0 ≤ (4096 * N - (incr - start)) / incr := Int.ediv_nonneg (by omega) (by omega)
  generalize (4096 * N - (incr - start)) / incr = a at *
  refine tapSum_congr (fun _ _ => rfl) (fun j hj => ?_)
  apply h
  · have : (incr - start + a * incr + incr - 1) / incr ≤ a + 1 := by
      have e : incr - start + a * incr + incr - 1 = (2 * incr - start - 1) + a * incr := by ring
      rw [e, Int.add_mul_ediv_right _ _ (by omega)]
      have : (2 * incr - start - 1) / incr ≤ 1 := by
        have : (2 * incr - start - 1) / incr < 2 := Int.ediv_lt_of_lt_mul (by omega) (by omega)
        omega
      omega
    omega
  · omega

/-- History beyond the filter length does not matter. -/
theorem sincLeft_hist {co : ℤ → F32} {N incr start D D' : ℤ} {x : ℤ → F64} (h : (4096 * N - start) / incr ≤ D) (h' : (4096 * N - start) / incr ≤ D') :
    sincLeft co N incr start D x = sincLeft co N incr start D' x := by
  unfold sincLeft
  rw [min_eq_left h, min_eq_left h']

/-! ### samples in hand -/

section
variable {sg : Guard} {co : ℤ → F32} {N inc B : ℤ} {ch : ℕ} {H : ℤ} {y : ℤ → ℕ → F32} {f : SincFilter} {D : ℤ} {k R : ℕ} {h : ℤ}

theorem SBuf.cur_nonneg (S : SBuf sg co N inc B ch y f D k R h) : 0 ≤ f.bCurrent := by
  rw [S.hcur]; exact mul_nonneg (by positivity) S.hD0

theorem SBuf.inHand_lt (S : SBuf sg co N inc B ch y f D k R h) (C : SincCtx N inc B ch H) : f.bEnd - f.bCurrent < f.bLen := by
  have hbe := S.hbe
  have hb := C.half_bounds
  have hlen := S.hlen
  have hch1 : (1 : ℤ) ≤ ch := by exact_mod_cast C.ch1
  rcases S.hD with ⟨h1, h2, h3, h4, _⟩ | ⟨h1, _⟩
  · have hE : f.bEnd = 0 := by
      rcases S.hend with ⟨_, _, e⟩ | ⟨e, _⟩
      · rw [e, h1, h3, h4]; simp
      · omega
    have := S.hcur
    rw [h1, mul_zero] at this
    omega
  · have : (1 : ℤ) * 1 ≤ ch * D := mul_le_mul hch1 h1 (by norm_num) (by positivity)
    have := S.hcur
    omega

theorem SBuf.inHand (S : SBuf sg co N inc B ch y f D k R h) (C : SincCtx N inc B ch H) : samplesInHand f = .ok (f.bEnd - f.bCurrent) := by
  have hL := S.len_bound C
  have hle := S.hle
  have hbe := S.hbe
  have h0 := S.cur_nonneg
  have hlt := S.inHand_lt C
  unfold samplesInHand
  rw [chkI32_ok (by omega) (by omega)]
  simp only [bind, Except.bind]
  rw [chkI32_ok (by omega) (by omega)]
  simp only
  rw [modM_ok (by omega), Int.tmod_eq_emod_of_nonneg (by omega)]
  congr 1
  rw [Int.add_emod_right, Int.emod_eq_of_lt (by omega) hlt]

/-! ### termination test -/

theorem terminate_val {last : F64} {l : ℚ} (hl : last.val = some l) (vl : ValidRatio l) :
    ∃ τ, (Fl.add (Fl.div one64 last) SRC_MIN_RATIO_DIFF).val = some τ ∧ |τ - 1 / l| ≤ 1 / 10000000000 := by
  have hl0 : (0 : ℚ) < l := lt_of_lt_of_le (by norm_num) vl.1
  have hd0 : 0 < 1 / l := by positivity
  have hd : 1 / l ≤ 256 := by rw [div_le_iff₀ hl0]; linarith [vl.1]
  have h1 := div64 one64_val hl hl0.ne' (by rw [abs_of_pos hd0]; linarith)
  obtain ⟨e, he, he0, he1⟩ := min_ratio_diff_val
  have he2 : e ≤ 1 / 1000000000000 := he1.trans (by norm_num [p2])
  have e1 := abs_rq_sub_le_of_lt (f := f64) (q := 1 / l) (k := 9)
    (by rw [abs_of_pos hd0]; norm_num [p2] at hd ⊢; linarith) (by decide)
  have e1' : |r64 (1 / l) - 1 / l| ≤ 1 / 1000000000000 := e1.trans (by norm_num [f64, p2])
  rw [abs_le] at e1'
  have hr0 : 0 ≤ r64 (1 / l) := rq_nonneg hd0.le
  have h2 := add64 h1 he (by rw [abs_of_nonneg (by linarith)]; linarith)
  have e2 := abs_rq_sub_le_of_lt (f := f64) (q := r64 (1 / l) + e) (k := 9)
    (by rw [abs_of_nonneg (by linarith), show p2 9 = 512 by norm_num [p2]]; linarith) (by decide)
  have e2' : |r64 (r64 (1 / l) + e) - (r64 (1 / l) + e)| ≤ 1 / 1000000000000 := e2.trans (by norm_num [f64, p2])
  rw [abs_le] at e2'
  refine ⟨_, h2, ?_⟩
  rw [abs_le]
  constructor <;> linarith

/-- The termination test, up to rounding. -/
theorem sincDone_spec (v : SincVariant) (S : SBuf sg co N inc B ch y f D k R h) (C : SincCtx N inc B ch H) (he : 0 ≤ f.bRealEnd) {idx τv : F64} {i τ l : ℚ}
    (hi : idx.val = some i) (i0 : 0 ≤ i) (i1 : i < 1) (hτ : τv.val = some τ) (vl : ValidRatio l) (hτl : |τ - 1 / l| ≤ 1 / 10000000000) :
    (sincDone v f idx τv = true → ((ch * ((R : ℤ) - k) : ℤ) : ℚ) ≤ i + 1 / l + 1 / 1000000) ∧
    (sincDone v f idx τv = false → i + 1 / l - 1 / 1000000 ≤ ((ch * ((R : ℤ) - k) : ℤ) : ℚ)) := by
  have hL := S.len_bound C
  have hle := S.hle
  have hbe := S.hbe
  have h0 := S.cur_nonneg
  have hl0 : (0 : ℚ) < l := lt_of_lt_of_le (by norm_num) vl.1
  have hd0 : 0 < 1 / l := by positivity
  have hd : 1 / l ≤ 256 := by rw [div_le_iff₀ hl0]; linarith [vl.1]
  have hd1 : 1 / 256 ≤ 1 / l := one_div_le_one_div_of_le hl0 vl.2
  obtain ⟨hRE, hREe⟩ : f.bRealEnd = ch * (D + R - k) ∧ f.bRealEnd ≤ f.bEnd := by
    rcases S.hend with ⟨a, _⟩ | ⟨_, b, c, _⟩
    · omega
    · exact ⟨b, c⟩
  have hc := dbl_ofInt_small (n := f.bCurrent) h0 (by omega)
  have hr := dbl_ofInt_small (n := f.bRealEnd) he (by omega)
  have hcq : (0 : ℚ) ≤ f.bCurrent := by exact_mod_cast h0
  have hcq2 : (f.bCurrent : ℚ) ≤ 128000001 := by exact_mod_cast (by omega : f.bCurrent ≤ 128000001)
  rw [abs_le] at hτl
  have h1 := add64 hc hi (by rw [abs_of_nonneg (by linarith)]; linarith)
  have e1 := abs_rq_sub_le_of_lt (f := f64) (q := (f.bCurrent : ℚ) + i) (k := 28)
    (by rw [abs_of_nonneg (by linarith)]; norm_num [p2]; linarith) (by decide)
  have e1' : |r64 ((f.bCurrent : ℚ) + i) - ((f.bCurrent : ℚ) + i)| ≤ 1 / 10000000 := e1.trans (by norm_num [f64, p2])
  have hs0 : 0 ≤ r64 ((f.bCurrent : ℚ) + i) := rq_nonneg (by linarith)
  rw [abs_le] at e1'
  have h2 := add64 h1 hτ (by rw [abs_of_nonneg (by linarith)]; linarith)
  have e2 := abs_rq_sub_le_of_lt (f := f64) (q := r64 ((f.bCurrent : ℚ) + i) + τ) (k := 28)
    (by rw [abs_of_nonneg (by linarith)]; norm_num [p2]; linarith) (by decide)
  have e2' : |r64 (r64 ((f.bCurrent : ℚ) + i) + τ) - (r64 ((f.bCurrent : ℚ) + i) + τ)| ≤ 1 / 10000000 := e2.trans (by norm_num [f64, p2])
  rw [abs_le] at e2'
  have hdiff : ((ch * ((R : ℤ) - k) : ℤ) : ℚ) = (f.bRealEnd : ℚ) - f.bCurrent := by
    rw [hRE, S.hcur]; push_cast; ring
  rw [hdiff]
  unfold sincDone
  rw [if_pos he]
  simp only [Fl.gt, Fl.ge]
  cases v.strict
  · simp only [Bool.false_eq_true, if_false]
    rw [Fl.le_val hr h2]
    constructor
    · intro hh
      have hh := of_decide_eq_true hh
      linarith
    · intro hh
      have hh := of_decide_eq_false hh
      push Not at hh
      linarith
  · simp only [if_true]
    rw [Fl.lt_val hr h2]
    constructor
    · intro hh
      have hh := of_decide_eq_true hh
      linarith
    · intro hh
      have hh := of_decide_eq_false hh
      push Not at hh
      linarith

/-! ### advancing the position -/

theorem sincNorm_spec (C : SincCtx N inc B ch H) (S : SBuf sg co N inc B ch y f D k R h) {idx : F64} {T : ℚ} (hv : idx.val = some T) (h0 : 0 ≤ T)
    (h1 : T ≤ 300) (hfit : f.bCurrent + ch * ⌊T⌋ < f.bLen) :
    sincNorm ch f idx = .ok ({ f with bCurrent := f.bCurrent + ch * ⌊T⌋ }, fmodOne idx) ∧ (fmodOne idx).val = some (Int.fract T) := by
  have hL := S.len_bound C
  have hc0 := S.cur_nonneg
  have hfl0 : 0 ≤ ⌊T⌋ := Int.floor_nonneg.2 h0
  have hcf : 0 ≤ (ch : ℤ) * ⌊T⌋ := mul_nonneg (by positivity) hfl0
  refine ⟨?_, fmodOne_val hv h0 (by linarith)⟩
  unfold sincNorm
  simp only
  rw [lrint_sub_fmodOne hv h0 (by linarith), chkI32_ok (by omega) (by omega)]
  simp only [bind, Except.bind]
  rw [chkI32_ok (by omega) (by omega)]
  simp only
  rw [modM_ok (by omega), Int.tmod_eq_of_lt (by omega) hfit]
  rfl

/-- The buffer after the position moved by `s` frames. -/
theorem SBuf.advance (S : SBuf sg co N inc B ch y f D k R h) (C : SincCtx N inc B ch H) {s : ℕ} (hin : ch * H < f.bEnd - f.bCurrent) (hs : (s : ℤ) ≤ H) (x : ℤ) :
    SBuf sg co N inc B ch y { f with outGen := x, bCurrent := f.bCurrent + ch * s } (D + s) (k + s) R h := by
  have hcs : (ch : ℤ) * s ≤ ch * H := mul_le_mul_of_nonneg_left hs (by positivity)
  have hD1 : 1 ≤ D ∧ h ≤ D := by
    rcases S.hD with ⟨h1, h2, h3, h4, _⟩ | h1
    · exfalso
      have hE : f.bEnd = 0 := by
        rcases S.hend with ⟨_, _, e⟩ | ⟨e, _⟩
        · rw [e, h1, h3, h4]; simp
        · omega
      have := S.hcur
      rw [h1, mul_zero] at this
      have := C.half_bounds
      omega
    · exact h1
  refine ⟨S.hN, S.hinc, S.hco, S.hlen, ?_, by have := S.hD0; omega, ?_, ?_, S.hbe, by have := S.hbe; dsimp only; omega, Or.inr ⟨by omega, by omega⟩, S.hneg, ?_⟩
  · dsimp only; rw [S.hcur]; ring
  · rcases S.hend with ⟨a, b, c⟩ | ⟨a, b, c, d, e⟩
    · refine Or.inl ⟨a, ?_, ?_⟩
      · have : (ch : ℤ) * H < ch * (R - k) := by rw [c, S.hcur] at hin; rw [show (ch : ℤ) * (R - k) = ch * (D + R - k) - ch * D by ring]; exact hin
        have := lt_of_mul_lt_mul_left this (by positivity)
        omega
      · dsimp only; rw [c]; push_cast; ring
    · refine Or.inr ⟨a, ?_, c, d, e⟩
      dsimp only; rw [b]; push_cast; ring
  · dsimp only; omega
  · intro z c hz hc hb
    dsimp only at hb ⊢
    rw [S.hbuf z c hz hc hb]
    congr 1; push_cast; ring

end

/-! ### writing one output frame -/

theorem writeOutputs_spec {m : Mem} {d : SrcData} {ch o g : ℕ} (hch1 : 1 ≤ ch) (ho : d.outputFrames = o) (hg : g < o) (hout : d.dataOut ≠ 0)
    {scale : F64} {sum : ℕ → F64} :
    writeOutputs m d ch ch ((ch * g : ℕ) : ℤ) scale sum =
      .ok (m.setRange (d.dataOut + ((ch * g : ℕ) : ℤ)) ch (fun c => Fl.conv f32 (Fl.mul scale (sum c)))) := by
  unfold writeOutputs
  rw [Int.toNat_natCast]
  have hle : ch * (g + 1) ≤ ch * o := Nat.mul_le_mul_left _ hg
  have key : ∀ n ≤ ch, forM' n (fun c mem => wrOut mem d ch (((ch * g : ℕ) : ℤ) + c) (Fl.conv f32 (Fl.mul scale (sum c)))) m =
      (.ok (m.setRange (d.dataOut + ((ch * g : ℕ) : ℤ)) n (fun c => Fl.conv f32 (Fl.mul scale (sum c)))) : M Mem) := by
    intro n
    induction n with
    | zero => intro _; rw [forM'_zero, Mem.setRange_zero]
    | succ n ih =>
      intro hn
      rw [forM'_succ, ih (by omega)]
      simp only [bind, Except.bind, wrOut, hout, if_false]
      have hb : ((ch * g : ℕ) : ℤ) + n < d.outputFrames * ch := by
        rw [ho]
        have : ch * g + n < ch * o := by
          have e : ch * (g + 1) = ch * g + ch := by ring
          omega
        have : ((ch * g + n : ℕ) : ℤ) < ((ch * o : ℕ) : ℤ) := by exact_mod_cast this
        push_cast at this ⊢
        rw [mul_comm (o : ℤ)]; exact this
      rw [if_pos ⟨by positivity, hb⟩]
      simp only [pure, Except.pure]
      rw [← add_assoc, Mem.set_setRange _ _ _ (fun c => Fl.conv f32 (Fl.mul scale (sum c)))]
  exact key ch le_rfl

/-! ### evaluating one output frame -/

section
variable {sg : Guard} {co : ℤ → F32} {N inc B : ℤ} {ch : ℕ} {y : ℤ → ℕ → F32} {f : SincFilter} {D : ℤ} {k R : ℕ} {h : ℤ} {r : ℚ}

/-- The filter evaluation computes the specified sample. -/
theorem output_spec (C : SincCtx N inc B ch (sincReach N inc r)) (S : SBuf sg co N inc B ch y f D k R h) {v : SincVariant} (hv : v.Fits ch)
    (hr : 1 / 256 ≤ r) {ρ i : ℚ} (hρ : (1 - p2 (-36)) * r ≤ ρ) (hρ' : 1 / 256 ≤ ρ) (i0 : 0 ≤ i) (i1 : i < 1)
    (hin : ch * sincReach N inc r < f.bEnd - f.bCurrent)
    (hroom : ch * (D + sincReach N inc r + 1) ≤ f.bEnd ∨
      calcOutput v f ch (rne (sincInc inc ρ * 4096)) (rne (r64 (i * sincInc inc ρ) * 4096)) ≠ .error .assertFailed) :
    ∃ sum, calcOutput v f ch (rne (sincInc inc ρ * 4096)) (rne (r64 (i * sincInc inc ρ) * 4096)) = .ok sum ∧
      ∀ c < ch, Fl.conv f32 (Fl.mul (Fl.round f64 (sincInc inc ρ / inc)) (sum c)) = sincAt co N inc ρ i D (fun z => y (k + z) c) := by
  have G := C.geo
  obtain ⟨b1, b2⟩ := G.incr_bounds hρ'
  obtain ⟨s0, s1⟩ := G.start_bounds hρ' i0 i1
  have hreach := G.incr_reach hr hρ hρ'
  have hinc1 := G.inc1
  have hincM := G.incM
  have hn1 := G.n1
  have hnM := G.nM
  have hL := S.len_bound C
  set incr := rne (sincInc inc ρ * 4096) with hincr
  set start := rne (r64 (i * sincInc inc ρ) * 4096) with hstart
  set H := sincReach N inc r with hH
  have hcr : (4096 * N - (incr - start)) / incr ≤ H - 1 := by
    have : (4096 * N - (incr - start)) / incr < H := Int.ediv_lt_of_lt_mul (by omega) (by rw [mul_comm H]; omega)
    omega
  set cr := (4096 * N - (incr - start)) / incr with hcrd
  have hcr0 : 0 ≤ cr := Int.ediv_nonneg (by omega) (by omega)
  have hend : (ch : ℤ) * (D + cr + 2) ≤ f.bEnd := by
    rcases hroom with hroom | hne
    · have hmono : (ch : ℤ) * (D + cr + 2) ≤ ch * (D + H + 1) := mul_le_mul_of_nonneg_left (by omega) (by positivity)
      omega
    · by_contra hh
      push Not at hh
      have hmono : (ch : ℤ) * (D + cr + 1) ≤ ch * (D + H) := mul_le_mul_of_nonneg_left (by omega) (by positivity)
      have e : (ch : ℤ) * (D + H) = ch * D + ch * H := by ring
      have := S.hcur
      refine hne (calcOutput_short hv C.ch1 (by have := C.chM; omega) (by omega) (by rw [S.hN]; omega) (by omega) s0 s1 (by rw [S.hN]; exact hnM)
        (by omega) S.hbe S.hD0 S.hcur ?_ ?_)
      · rw [S.hN, ← hcrd]; omega
      · rw [S.hN, ← hcrd]; exact hh
  have T : TapPre v f ch incr start D := {
    hv := hv
    hch := C.ch1
    hchM := by have := C.chM; omega
    hinc := by omega
    hincM := by rw [S.hN]; omega
    hincB := by omega
    hs0 := s0
    hs1 := s1
    hcl := by rw [S.hN]; exact hnM
    hB := by omega
    hbe := S.hbe
    hD := S.hD0
    hcur := S.hcur
    hend := by rw [S.hN]; exact hend }
  obtain ⟨sum, e, hs⟩ := calcOutput_ok T
  refine ⟨sum, e, fun c hc => ?_⟩
  rw [hs c hc, S.hN, S.hco]
  unfold sincAt sincOut
  dsimp only
  rw [← hincr, ← hstart]
  have hbufz : ∀ z, -D ≤ z → z ≤ 1 + cr → f.buffer (ch * (D + z) + (c : ℤ)) = y (k + z) c := by
    intro z h1 h2
    have hlt : ch * (D + z) + (c : ℤ) < f.bEnd := by
      have : (ch : ℤ) * (D + z + 1) ≤ ch * (D + cr + 2) := mul_le_mul_of_nonneg_left (by omega) (by positivity)
      have e : (ch : ℤ) * (D + z + 1) = ch * (D + z) + ch := by ring
      have : (c : ℤ) < ch := by exact_mod_cast hc
      omega
    rw [S.hbuf (D + z) c (by omega) hc hlt]
    congr 1; ring
  have hD0 := S.hD0
  have hH6 := C.H6
  rw [sincLeft_congr (x' := fun z => Fl.conv f64 (y (k + z) c)) (by omega) s0 s1 hD0 (by omega) (fun z h1 h2 => by
      rw [hbufz z h1 (by omega)]),
    sincRight_congr (x' := fun z => Fl.conv f64 (y (k + z) c)) (by omega) s0 s1 (by omega) (fun z h1 h2 => by
      rw [hbufz z (by omega) (by omega)])]

end
end Verif
