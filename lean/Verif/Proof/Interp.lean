import Verif.Proof.Skeleton

/-! Behaviour of the common skeleton of the interpolating converters. -/

namespace Verif
open Spec

/-- Circumstances of one call of a process function of an interpolating converter. -/
structure Ctx (m : Mem) (st : SrcState) (d : SrcData) (ch n o : ℕ) (l t p : ℚ) : Prop where
  hch : st.channels = ch
  hch1 : 1 ≤ ch
  hchM : ch ≤ 8355967
  hn : d.inputFrames = n
  hn1 : 1 ≤ n
  ho : d.outputFrames = o
  hnb : ch * n ≤ 2 ^ 52
  hob : ch * o ≤ 2 ^ 52
  hin : d.dataIn ≠ 0
  hout : o = 0 ∨ d.dataOut ≠ 0
  hdisj : ∀ i < ch * n, ∀ j < ch * o, d.dataIn + (i : ℤ) ≠ d.dataOut + (j : ℤ)
  hl : st.lastRatio.val = some l
  ht : d.srcRatio.val = some t
  vl : ValidRatio l
  vt : ValidRatio t
  hp : st.lastPosition.val = some p
  hp0 : 0 ≤ p
  hp1 : p ≤ 257

/-! ### ratio schedule -/

theorem interpRatio_eq {last target : F64} {l t : ℚ} (hl : last.val = some l) (ht : target.val = some t)
    (vl : ValidRatio l) (vt : ValidRatio t) (g n : ℤ) (hn : 0 < n) (cur : F64) :
    interpRatio last target g n cur =
      if l = t then cur else Fl.add last (Fl.div (Fl.mul (dbl g) (Fl.sub target last)) (dbl n)) := by
  obtain ⟨e, he, he0, he1⟩ := min_ratio_diff_val
  have hlp : 0 < l := lt_of_lt_of_le (by norm_num) vl.1
  have htp : 0 < t := lt_of_lt_of_le (by norm_num) vt.1
  have hdabs : |l - t| ≤ 256 := by rw [abs_le]; constructor <;> linarith [vl.2, vt.2]
  have s1 := Fl.val_abs (sub64 hl ht (hdabs.trans (by norm_num)))
  have hc : Fl.gt (Fl.abs (Fl.sub last target)) SRC_MIN_RATIO_DIFF = decide (l ≠ t) := by
    rw [Fl.gt, Fl.lt_val he s1]
    congr 1
    rw [eq_iff_iff]
    constructor
    · intro h hlt
      rw [hlt] at h
      simp at h
      linarith
    · intro h
      have h60 := ratio_diff (rep64_val hl) (rep64_val ht) vl vt h
      have : p2 (-60) ≤ |r64 (l - t)| := by
        rcases le_total 0 (l - t) with h0 | h0
        · rw [abs_of_nonneg (rq_nonneg h0)]
          rw [abs_of_nonneg h0] at h60
          exact le_rq (rep0_p2 (by decide)) h60
        · rw [abs_of_nonpos (rq_nonpos h0), ← rq_neg]
          rw [abs_of_nonpos h0] at h60
          exact le_rq (rep0_p2 (by decide)) h60
      exact lt_of_lt_of_le (lt_of_le_of_lt he1 (p2_lt (by norm_num))) this
  unfold interpRatio
  rw [hc]
  by_cases h : l = t
  · rw [if_neg (by simp [h]), if_pos h]
  · rw [if_pos ⟨hn, by simp [h]⟩, if_neg h]

theorem ratioAt_valid {l t : ℚ} {ch o g : ℕ} (hl : Rep0 f64 l) (ht : Rep0 f64 t) (vl : ValidRatio l) (vt : ValidRatio t)
    (hch : 1 ≤ ch) (hg : g < o) (hb : ch * o ≤ 2 ^ 52) : ValidRatio (ratioAt l t ch o g) := by
  unfold ratioAt
  split_ifs with h
  · exact vl
  · have hlt : ch * g < ch * o := Nat.mul_lt_mul_of_pos_left hg (by omega)
    have := interpQ_valid (g := (ch * g : ℕ)) (n := (ch * o : ℕ)) hl ht vl vt (by positivity) (by exact_mod_cast hlt)
      (by have : ch * o ≤ 2 ^ 53 := hb.trans (by norm_num)
          exact_mod_cast this)
    unfold interpQ at this
    rwa [Int.cast_natCast, Int.cast_natCast] at this

theorem ratioAt_between {l t : ℚ} {ch o g : ℕ} (hl : Rep0 f64 l) (ht : Rep0 f64 t) (vl : ValidRatio l) (vt : ValidRatio t)
    (hch : 1 ≤ ch) (hg : g < o) (hb : ch * o ≤ 2 ^ 50) : min l t ≤ ratioAt l t ch o g ∧ ratioAt l t ch o g ≤ max l t := by
  unfold ratioAt
  split_ifs with h
  · exact ⟨min_le_left _ _, le_max_left _ _⟩
  · have hlt : ch * g < ch * o := Nat.mul_lt_mul_of_pos_left hg (by omega)
    have := interpQ_between (g := (ch * g : ℕ)) (n := (ch * o : ℕ)) hl ht vl vt (by positivity) (by exact_mod_cast hlt) (by exact_mod_cast hb)
    unfold interpQ at this
    rwa [Int.cast_natCast, Int.cast_natCast] at this

section
variable {m : Mem} {st : SrcState} {d : SrcData} {ch n o : ℕ} {l t p : ℚ} (C : Ctx m st d ch n o l t p)
include C

theorem Ctx.pos : 0 < ch := C.hch1

theorem Ctx.ratio_val {g : ℕ} (hg : g < o) {cur : F64} (hcur : l = t → cur.val = some l) :
    (interpRatio st.lastRatio d.srcRatio ((ch * g : ℕ) : ℤ) ((ch * o : ℕ) : ℤ) cur).val = some (ratioAt l t ch o g) := by
  have hpos : 0 < ch * o := Nat.mul_pos C.pos (by omega)
  rw [interpRatio_eq C.hl C.ht C.vl C.vt _ _ (by exact_mod_cast hpos)]
  unfold ratioAt
  split_ifs with h
  · exact hcur h
  · have hlt : ch * g < ch * o := Nat.mul_lt_mul_of_pos_left hg C.pos
    have hb := C.hob
    have := interp_val (g := (ch * g : ℕ)) (n := (ch * o : ℕ)) C.hl C.ht C.vl C.vt (by positivity) (by exact_mod_cast hlt)
      (by have : ch * o ≤ 2 ^ 53 := hb.trans (by norm_num)
          exact_mod_cast this)
    unfold interpQ at this
    rwa [Int.cast_natCast, Int.cast_natCast] at this

theorem Ctx.rho_valid {g : ℕ} (hg : g < o) : ValidRatio (ratioAt l t ch o g) :=
  ratioAt_valid (rep64_val C.hl) (rep64_val C.ht) C.vl C.vt C.hch1 hg C.hob

end

/-- positions of a call -/
abbrev posOf (l t p : ℚ) (ch o : ℕ) (j : ℕ) : Pos := posAt (Pos.ofQ p) (ratioAt l t ch o) j

/-- ratio after `g` frames -/
def ratioAfter (l t : ℚ) (ch o : ℕ) : ℕ → ℚ
  | 0 => l
  | g + 1 => ratioAt l t ch o g

theorem ratioAfter_eq {l t : ℚ} {ch o g : ℕ} (h : l = t) : ratioAfter l t ch o g = l := by
  cases g with
  | zero => rfl
  | succ g => simp [ratioAfter, ratioAt, h]

/-! ### one step of the position -/

theorem inv_bounds {r : ℚ} (h : ValidRatio r) : 1 / 256 ≤ r64 (1 / r) ∧ r64 (1 / r) ≤ 256 := by
  have hr : 0 < r := lt_of_lt_of_le (by norm_num) h.1
  constructor
  · apply le_rq rep64_inv256
    rw [div_le_div_iff₀ (by norm_num) hr]; linarith [h.2]
  · apply rq_le rep64_256
    rw [div_le_iff₀ hr]; linarith [h.1]

theorem advance_bounds {i r : ℚ} (h0 : 0 ≤ i) (h1 : i < 1) (h : ValidRatio r) :
    1 / 256 ≤ r64 (i + r64 (1 / r)) ∧ r64 (i + r64 (1 / r)) ≤ 257 := by
  obtain ⟨a, b⟩ := inv_bounds h
  exact ⟨le_rq rep64_inv256 (by linarith), rq_le rep64_257 (by linarith)⟩

/-- computed `input_index += 1.0 / src_ratio` -/
theorem advance_val {idx ratio : F64} {i r : ℚ} (hi : idx.val = some i) (hr : ratio.val = some r) (h0 : 0 ≤ i) (h1 : i < 1)
    (h : ValidRatio r) : (Fl.add idx (Fl.div one64 ratio)).val = some (r64 (i + r64 (1 / r))) := by
  have hrp : 0 < r := lt_of_lt_of_le (by norm_num) h.1
  obtain ⟨a, b⟩ := inv_bounds h
  have hle : 1 / r ≤ 256 := by rw [div_le_iff₀ hrp]; linarith [h.1]
  have s := div64 one64_val hr hrp.ne' (by rw [abs_of_pos (by positivity)]; exact hle.trans (by norm_num))
  exact add64 hi s (by rw [abs_of_nonneg (by linarith)]; linarith [(by norm_num : (257 : ℚ) ≤ 2 ^ 100)])

theorem posAt_frac {start : Pos} {ρ : ℕ → ℚ} (h : 0 ≤ start.i ∧ start.i < 1) (j : ℕ) :
    0 ≤ (posAt start ρ j).i ∧ (posAt start ρ j).i < 1 := by
  cases j with
  | zero => exact h
  | succ j => exact ⟨Int.fract_nonneg _, Int.fract_lt_one _⟩

theorem ofQ_frac (p : ℚ) : 0 ≤ (Pos.ofQ p).i ∧ (Pos.ofQ p).i < 1 := ⟨Int.fract_nonneg _, Int.fract_lt_one _⟩

theorem ofQ_lt_one {x : ℚ} (h0 : 0 ≤ x) (h1 : x < 1) : Pos.ofQ x = ⟨0, x⟩ := by
  have hf : ⌊x⌋ = 0 := Int.floor_eq_iff.2 ⟨by simpa using h0, by simpa using h1⟩
  simp [Pos.ofQ, Int.fract, hf]

theorem ofQ_advance {x r : ℚ} (h0 : 0 ≤ x) (h1 : x < 1) :
    (Pos.ofQ x).advance r = Pos.ofQ (r64 (x + r64 (1 / r))) := by
  rw [ofQ_lt_one h0 h1]; simp [Pos.advance, Pos.ofQ]

theorem ofQ_k_zero {x : ℚ} (h0 : 0 ≤ x) : (Pos.ofQ x).k = 0 ↔ x < 1 := by
  have h : 0 ≤ ⌊x⌋ := Int.floor_nonneg.2 h0
  simp only [Pos.ofQ]
  constructor
  · intro hk
    have : ⌊x⌋ = 0 := by omega
    have := Int.lt_floor_add_one x
    rw [‹⌊x⌋ = 0›] at this; simpa using this
  · intro hx
    have : ⌊x⌋ < 1 := Int.floor_lt.2 (by simpa using hx)
    omega

/-- Effect of `normIdx`. -/
theorem normIdx_spec {s : LoopSt} {x : ℚ} {ch : ℕ} (hx : s.idx.val = some x) (h0 : 0 ≤ x) (h1 : x ≤ 257)
    (hch : ch ≤ 8355967) :
    ∃ s', normIdx ch s = .ok s' ∧ s'.mem = s.mem ∧ s'.inUsed = s.inUsed + ch * (⌊x⌋.toNat : ℤ) ∧ s'.outGen = s.outGen ∧
      s'.idx.val = some (Int.fract x) ∧ s'.ratio = s.ratio := by
  have hl := lrint_sub_fmodOne hx h0 (h1.trans (by norm_num))
  have hf := fmodOne_val hx h0 (h1.trans (by norm_num))
  have hfl : 0 ≤ ⌊x⌋ := Int.floor_nonneg.2 h0
  have hfl2 : ⌊x⌋ ≤ 257 := by
    have : (⌊x⌋ : ℚ) ≤ 257 := (Int.floor_le x).trans h1
    exact_mod_cast this
  have hmul : (ch : ℤ) * ⌊x⌋ ≤ 8355967 * 257 := by
    apply mul_le_mul (by exact_mod_cast hch) hfl2 hfl (by norm_num)
  have hmul0 : 0 ≤ (ch : ℤ) * ⌊x⌋ := mul_nonneg (by positivity) hfl
  refine ⟨{ s with inUsed := s.inUsed + ch * ⌊x⌋, idx := fmodOne s.idx }, ?_, rfl, ?_, rfl, hf, rfl⟩
  · simp only [normIdx, hl, chkI32]
    rw [if_pos (by constructor <;> omega)]
    rfl
  · simp only; congr 2; omega

/-- Memory `m'` has the same input samples as `m`. -/
def SameInput (d : SrcData) (ch n : ℕ) (m m' : Mem) : Prop := ∀ i < ch * n, m' (d.dataIn + (i : ℤ)) = m (d.dataIn + (i : ℤ))

/-- Behaviour of a kernel, in terms of an emission function `em` and a continuation test `G` on positions. -/
structure KSpec (k : Kernel) (m : Mem) (d : SrcData) (ch n : ℕ) (lv : List F32) (em : Pos → ℕ → F32) (G : Pos → Prop)
    (Dom : Pos → Prop) : Prop where
  brk : ∀ (s : LoopSt) (P : Pos), P.k = 0 → s.inUsed = 0 → s.idx.val = some P.i → 0 ≤ P.i → P.i < 1 →
    (k.brk ch ((ch * n : ℕ) : ℤ) s = false ↔ Dom P)
  late : ∀ P : Pos, 1 ≤ P.k → Dom P
  guard : ∀ (s : LoopSt) (P : Pos), P.k ≤ n + 257 → s.inUsed = ((ch * P.k : ℕ) : ℤ) → s.idx.val = some P.i → 0 ≤ P.i →
    P.i < 1 → (k.guard ch ((ch * n : ℕ) : ℤ) s = true ↔ G P)
  bound : ∀ P : Pos, G P → 0 ≤ P.i → P.k ≤ n
  first : ∀ (P : Pos) (idx : F64) (m' : Mem) (c : ℕ), P.k = 0 → idx.val = some P.i → SameInput d ch n m m' → c < ch →
    k.firstV d ch lv idx m' c = .ok (em P c)
  main : ∀ (P : Pos) (idx : F64) (m' : Mem) (c : ℕ), 1 ≤ P.k → G P → 0 ≤ P.i → idx.val = some P.i → SameInput d ch n m m' →
    c < ch → k.mainV d ch ((ch * P.k : ℕ) : ℤ) idx m' c = .ok (em P c)
  short : ∀ (s : LoopSt) (P : Pos), ¬ Dom P → P.k = 0 → s.inUsed = 0 → s.idx.val = some P.i → 0 ≤ P.i → P.i < 1 →
    k.guard ch ((ch * n : ℕ) : ℤ) s = true ∧ ∀ m', k.mainV d ch s.inUsed s.idx m' 0 = .error .oobRead

/-- Samples written by `g` frames. -/
def outSamples (ch : ℕ) (P : ℕ → Pos) (em : Pos → ℕ → F32) (i : ℕ) : F32 := em (P (i / ch)) (i % ch)

theorem outSamples_frame {ch : ℕ} {P : ℕ → Pos} {em : Pos → ℕ → F32} {g c : ℕ} (hc : c < ch) :
    outSamples ch P em (ch * g + c) = em (P g) c := by
  have hpos : 0 < ch := by omega
  have h1 : (ch * g + c) / ch = g := by
    rw [Nat.mul_add_div hpos, Nat.div_eq_of_lt hc, Nat.add_zero]
  have h2 : (ch * g + c) % ch = c := by
    rw [Nat.mul_add_mod, Nat.mod_eq_of_lt hc]
  simp only [outSamples, h1, h2]

theorem Ctx.sameInput {m : Mem} {st : SrcState} {d : SrcData} {ch n o : ℕ} {l t p : ℚ} (C : Ctx m st d ch n o l t p)
    {k : ℕ} (hk : k ≤ ch * o) (f : ℕ → F32) : SameInput d ch n m (m.setRange d.dataOut k f) := by
  intro i hi
  apply Mem.setRange_out
  intro h
  have := C.hdisj i hi (d.dataIn + i - d.dataOut).toNat (by omega)
  apply this
  omega

/-- Emission of one frame. -/
theorem Ctx.emit {m : Mem} {st : SrcState} {d : SrcData} {ch n o : ℕ} {l t p : ℚ} (C : Ctx m st d ch n o l t p)
    {P : ℕ → Pos} {em : Pos → ℕ → F32} {g : ℕ} (hg : g < o) {v : Mem → ℕ → M F32}
    (hv : ∀ m', SameInput d ch n m m' → ∀ c < ch, v m' c = .ok (em (P g) c)) :
    forM' st.channels.toNat (fun c (q : Mem × ℤ) => do
      let x ← v q.1 c
      let mem ← wrOut q.1 d st.channels q.2 x
      pure (mem, q.2 + 1)) (m.setRange d.dataOut (ch * g) (outSamples ch P em), ((ch * g : ℕ) : ℤ)) =
    (.ok (m.setRange d.dataOut (ch * (g + 1)) (outSamples ch P em), ((ch * (g + 1) : ℕ) : ℤ)) : M (Mem × ℤ)) := by
  have hle : ch * (g + 1) ≤ ch * o := Nat.mul_le_mul_left _ hg
  have ht : st.channels.toNat = ch := by rw [C.hch]; simp
  have hout : d.dataOut ≠ 0 := by
    rcases C.hout with h | h
    · omega
    · exact h
  rw [ht]
  have key := emit_spec (d := d) (channels := st.channels) (v := v)
    (m0 := m.setRange d.dataOut (ch * g) (outSamples ch P em)) (f := fun c => outSamples ch P em (ch * g + c))
    ch (ch * g) hout (by
      rw [C.ho, C.hch]
      have : ((ch * g : ℕ) : ℤ) + (ch : ℤ) = ((ch * (g + 1) : ℕ) : ℤ) := by push_cast; ring
      rw [this]
      have h3 : ((ch * (g + 1) : ℕ) : ℤ) ≤ ((ch * o : ℕ) : ℤ) := by exact_mod_cast hle
      rw [mul_comm (o : ℤ)]
      exact_mod_cast h3)
    (by
      intro c hc
      rw [Mem.setRange_append _ _ _ _ (outSamples ch P em) _ (fun i _ => rfl)]
      rw [outSamples_frame hc]
      apply hv _ _ c hc
      apply C.sameInput
      have : ch * (g + 1) = ch * g + ch := by ring
      omega)
  rw [key, Mem.setRange_append _ _ _ _ (outSamples ch P em) _ (fun i _ => rfl)]
  have e : ch * g + ch = ch * (g + 1) := by ring
  rw [e]

end Verif
