import Verif.Proof.SincNum
import Verif.Proof.SincTaps

/-! The history buffer of the sinc converters: how `prepare_data` keeps it in step with the input stream. -/

namespace Verif
open Spec

/-- Fixed parameters of a handle and of a call: filter table geometry, channel count, reach of the filter in frames. -/
structure SincCtx (N inc B : ℤ) (ch : ℕ) (H : ℤ) : Prop where
  geo : Geom N inc B
  ch1 : 1 ≤ ch
  chM : ch ≤ 128
  H6 : 6 ≤ H
  HB : 3 * H ≤ B

/-- What is claimed of a sinc handle besides the contents of its buffer.  `none`: nothing.  `some P`: the next call cannot fail, and after
the end of the input the buffer of a handle with several channels has at least `P` frames of silence. -/
abbrev Guard := Option ℤ

/-- The buffer of filter `f` holds the stream `y` (frame number, channel): frame `k` is the current one and lies `D` frames into the
buffer, frames up to `R` have been taken in, and at least `h` frames of history are there.  After the end of input frames from `R` on
are silence, and the buffer has as many frames of it as the guard `sg` says. -/
structure SBuf (sg : Guard) (co : ℤ → F32) (N inc B : ℤ) (ch : ℕ) (y : ℤ → ℕ → F32) (f : SincFilter) (D : ℤ) (k R : ℕ) (h : ℤ) : Prop where
  hN : f.coeffHalfLen = N
  hinc : f.indexInc = inc
  hco : f.coeffs = co
  hlen : f.bLen = ch * B + 1
  hcur : f.bCurrent = ch * D
  hD0 : 0 ≤ D
  hend : (f.bRealEnd < 0 ∧ k ≤ R ∧ f.bEnd = ch * (D + R - k)) ∨
    (0 ≤ f.bRealEnd ∧ f.bRealEnd = ch * (D + R - k) ∧ f.bRealEnd ≤ f.bEnd ∧ (∀ P, sg = some P → ch = 1 ∨ f.bRealEnd + ch * P ≤ f.bEnd) ∧
      ∀ z : ℤ, R ≤ z → ∀ c, y z c = zero32)
  hle : f.bCurrent ≤ f.bEnd
  hbe : f.bEnd ≤ f.bLen
  hlt : f.bCurrent < f.bLen
  hD : (D = 0 ∧ f.bRealEnd < 0 ∧ k = 0 ∧ R = 0 ∧ ∀ b, 0 ≤ b → b < f.bLen → f.buffer b = zero32) ∨ (1 ≤ D ∧ h ≤ D)
  hneg : ∀ z : ℤ, z < 0 → ∀ c, y z c = zero32
  hbuf : ∀ (z : ℤ) (c : ℕ), 0 ≤ z → c < ch → ch * z + c < f.bEnd → f.buffer (ch * z + c) = y (k + z - D) c

/-- The buffer is not short of room for reasons of a previous, different ratio. -/
def Roomy (H D : ℤ) (k R : ℕ) : Prop := D = 0 ∨ D = H ∨ H ≤ 2 * ((R : ℤ) - k)

theorem mul_lt_one {c : ℕ} {a b : ℤ} (hc : 1 ≤ c) (h : (c : ℤ) * a < c * b + 1) : a ≤ b :=
  le_of_mul_le_mul_left (by omega : (c : ℤ) * a ≤ c * b) (by exact_mod_cast hc)

theorem frame_lt {c : ℕ} {z a : ℤ} {i : ℕ} (h : (c : ℤ) * z + i < c * a) : z < a := by
  by_contra hh
  push Not at hh
  have : (c : ℤ) * a ≤ c * z := mul_le_mul_of_nonneg_left hh (by positivity)
  have : (0 : ℤ) ≤ i := by positivity
  omega

theorem frame_ge {c : ℕ} {z a : ℤ} {i : ℕ} (hi : i < c) (h : (c : ℤ) * a ≤ c * z + i) : a ≤ z := by
  by_contra hh
  push Not at hh
  have h1 : (c : ℤ) * (z + 1) ≤ c * a := mul_le_mul_of_nonneg_left (by omega) (by positivity)
  have h2 : (i : ℤ) < c := by exact_mod_cast hi
  have : (c : ℤ) * (z + 1) = c * z + c := by ring
  omega

section
variable {sg : Guard} {co : ℤ → F32} {N inc B : ℤ} {ch : ℕ} {H : ℤ} {y : ℤ → ℕ → F32} {f : SincFilter} {D : ℤ} {k R : ℕ} {h : ℤ}

theorem SBuf.mono {h' : ℤ} (S : SBuf sg co N inc B ch y f D k R h) (hh : h' ≤ h) : SBuf sg co N inc B ch y f D k R h' := by
  refine ⟨S.hN, S.hinc, S.hco, S.hlen, S.hcur, S.hD0, ?_, S.hle, S.hbe, S.hlt, ?_, S.hneg, S.hbuf⟩
  · rcases S.hend with h1 | ⟨a, b, c, d, e⟩
    · exact Or.inl h1
    · exact Or.inr ⟨a, b, c, d, e⟩
  · rcases S.hD with h1 | ⟨a, b⟩
    · exact Or.inl h1
    · exact Or.inr ⟨a, by omega⟩

/-- Only the frames taken in matter. -/
theorem SBuf.congr {y' : ℤ → ℕ → F32} (S : SBuf sg co N inc B ch y f D k R h) (hy : ∀ z : ℤ, (z < R ∨ 0 ≤ f.bRealEnd) → y' z = y z) :
    SBuf sg co N inc B ch y' f D k R h := by
  refine ⟨S.hN, S.hinc, S.hco, S.hlen, S.hcur, S.hD0, ?_, S.hle, S.hbe, S.hlt, S.hD, ?_, ?_⟩
  · rcases S.hend with h1 | ⟨a, b, c, d, e⟩
    · exact Or.inl h1
    · refine Or.inr ⟨a, b, c, d, fun z hz c => ?_⟩
      rw [hy z (Or.inr a)]; exact e z hz c
  · intro z hz c
    rw [hy z (Or.inl (by omega))]; exact S.hneg z hz c
  · intro z c hz hc hb
    rw [S.hbuf z c hz hc hb, hy]
    rcases S.hend with ⟨a, b, e⟩ | h1
    · left
      rw [e] at hb
      have := frame_lt hb
      omega
    · exact Or.inr h1.1

theorem SBuf.len_bound (S : SBuf sg co N inc B ch y f D k R h) (C : SincCtx N inc B ch H) : f.bLen ≤ 128000001 := by
  rw [S.hlen]
  have h1 : (ch : ℤ) ≤ 128 := by exact_mod_cast C.chM
  have := mul_le_mul h1 C.geo.bM (by have := C.HB; have := C.H6; omega) (by norm_num)
  omega

theorem SincCtx.half_bounds (C : SincCtx N inc B ch H) : 6 ≤ (ch : ℤ) * H ∧ 3 * ((ch : ℤ) * H) ≤ ch * B ∧ (ch : ℤ) * B ≤ 128000000 := by
  have h0 : (1 : ℤ) ≤ ch := by exact_mod_cast C.ch1
  have h1 : (ch : ℤ) ≤ 128 := by exact_mod_cast C.chM
  refine ⟨?_, ?_, ?_⟩
  · have := mul_le_mul h0 C.H6 (by norm_num) (by positivity); omega
  · have := mul_le_mul_of_nonneg_left C.HB (show (0 : ℤ) ≤ ch by positivity)
    have e : (ch : ℤ) * (3 * H) = 3 * (ch * H) := by ring
    omega
  · have := mul_le_mul h1 C.geo.bM (by have := C.HB; have := C.H6; omega) (by norm_num)
    omega

theorem bufMove_ok {channels src len : ℤ} (h0 : 0 ≤ len) (h1 : 0 ≤ src) (h2 : src + len ≤ f.bLen + channels) :
    bufMove f channels src len = .ok { f with buffer := fun i => if 0 ≤ i ∧ i < len then f.buffer (src + i) else f.buffer i } := by
  unfold bufMove
  rw [if_neg (by omega), if_pos ⟨h1, h2⟩]
  rfl

/-- Moving the data down so that `H` frames of history remain. -/
theorem move_spec (C : SincCtx N inc B ch H) (S : SBuf sg co N inc B ch y f D k R h) (hne : f.bRealEnd < 0) (hHD : H ≤ D) :
    SBuf sg co N inc B ch y { f with
        buffer := fun i => if 0 ≤ i ∧ i < ch * H + (f.bEnd - f.bCurrent) then f.buffer (f.bCurrent - ch * H + i) else f.buffer i
        bCurrent := ch * H, bEnd := ch * H + (f.bEnd - f.bCurrent) } H k R (min h H) ∧
      bufMove f ch (f.bCurrent - ch * H) (ch * H + (f.bEnd - f.bCurrent)) = .ok { f with
        buffer := fun i => if 0 ≤ i ∧ i < ch * H + (f.bEnd - f.bCurrent) then f.buffer (f.bCurrent - ch * H + i) else f.buffer i } := by
  have hb := C.half_bounds
  have hle := S.hle
  have hbe := S.hbe
  have hcur := S.hcur
  have hchD : (ch : ℤ) * H ≤ ch * D := mul_le_mul_of_nonneg_left hHD (by positivity)
  obtain ⟨hkR, hE⟩ : k ≤ R ∧ f.bEnd = ch * (D + R - k) := by
    rcases S.hend with ⟨a, b, c⟩ | ⟨a, b⟩
    · exact ⟨b, c⟩
    · omega
  have hE' : ch * H + (f.bEnd - f.bCurrent) = ch * (H + R - k) := by rw [hE, hcur]; ring
  constructor
  · refine ⟨S.hN, S.hinc, S.hco, S.hlen, rfl, by have := C.H6; omega, Or.inl ⟨hne, hkR, hE'⟩, ?_, ?_, by have := S.hlen; dsimp only; omega, Or.inr ⟨by have := C.H6; omega, min_le_right _ _⟩, S.hneg, ?_⟩
    · dsimp only; omega
    · dsimp only; omega
    · intro z c hz hc hb2
      dsimp only at hb2 ⊢
      have h0 : 0 ≤ (ch : ℤ) * z + c := by positivity
      rw [if_pos ⟨h0, hb2⟩]
      have e : f.bCurrent - ch * H + (ch * z + c) = ch * (z + (D - H)) + c := by rw [hcur]; ring
      rw [e, S.hbuf (z + (D - H)) c (by omega) hc (by
        rw [← e]; omega)]
      congr 1; ring
  · exact bufMove_ok (by omega) (by omega) (by have : (0:ℤ) ≤ ch := by positivity
                                               omega)

/-- Making room. -/
theorem prepRoom_spec (C : SincCtx N inc B ch H) (S : SBuf sg co N inc B ch y f D k R h) (hne : f.bRealEnd < 0)
    (hlow : (R : ℤ) - k ≤ H) :
    ∃ (bc be : ℤ) (bu : ℤ → F32) (D1 len : ℤ), prepRoom f ch (ch * H) = .ok ({ f with bCurrent := bc, bEnd := be, buffer := bu }, len) ∧
      SBuf sg co N inc B ch y { f with bCurrent := bc, bEnd := be, buffer := bu } D1 k R (min h H) ∧ 1 ≤ D1 ∧
      0 ≤ len ∧ be + len ≤ f.bLen ∧ (Roomy H D k R → ch = 1 ∨ 3 * H + 1 ≤ B → ch * (H + 1 - ((R : ℤ) - k)) ≤ len) ∧
      (Roomy H D k R → Roomy H D1 k R) ∧ (ch : ℤ) ≤ len := by
  have hb := C.half_bounds
  have hcH6 : (ch : ℤ) * 6 ≤ ch * H := mul_le_mul_of_nonneg_left C.H6 (by positivity)
  have hL := S.len_bound C
  have hle := S.hle
  have hbe := S.hbe
  have hcur := S.hcur
  have hlen := S.hlen
  have h6 := C.H6
  have hch1 : (1 : ℤ) ≤ ch := by exact_mod_cast C.ch1
  have hchM : (ch : ℤ) ≤ 128 := by exact_mod_cast C.chM
  obtain ⟨hkR, hE⟩ : k ≤ R ∧ f.bEnd = ch * (D + R - k) := by
    rcases S.hend with ⟨a, b, c⟩ | ⟨a, b⟩
    · exact ⟨b, c⟩
    · omega
  have hD0 := S.hD0
  have hchD : 0 ≤ (ch : ℤ) * D := mul_nonneg (by positivity) hD0
  -- room after data sits `H` frames into the buffer
  have hroomH : ch = 1 ∨ 3 * H + 1 ≤ B → (ch : ℤ) * (H + 1 - ((R : ℤ) - k)) ≤ f.bLen - ch * H - ch * H := by
    intro hr
    have h1 : (ch : ℤ) * (H + 1 - ((R : ℤ) - k)) ≤ ch * (H + 1) := mul_le_mul_of_nonneg_left (by omega) (by positivity)
    have h2 : (ch : ℤ) * (H + 1) ≤ ch * (B - 2 * H) + 1 := by
      rcases hr with hr | hr
      · rw [hr]; push_cast; have := C.HB; omega
      · have := mul_le_mul_of_nonneg_left (show H + 1 ≤ B - 2 * H by omega) (show (0 : ℤ) ≤ ch by positivity)
        omega
    have e : (ch : ℤ) * (B - 2 * H) = ch * B - ch * H - ch * H := by ring
    omega
  unfold prepRoom
  by_cases h0 : f.bCurrent = 0
  · rw [if_pos h0]
    have hDz : D = 0 := by
      have : (ch : ℤ) * D = 0 := by omega
      rcases mul_eq_zero.1 this with h | h
      · omega
      · exact h
    obtain ⟨_, _, hk0, hR0, hz⟩ : D = 0 ∧ f.bRealEnd < 0 ∧ k = 0 ∧ R = 0 ∧ ∀ b, 0 ≤ b → b < f.bLen → f.buffer b = zero32 := by
      rcases S.hD with h | ⟨h, _⟩
      · exact h
      · omega
    rw [chkI32_ok (by omega) (by omega)]
    refine ⟨ch * H, ch * H, f.buffer, H, f.bLen - 2 * (ch * H), rfl, ?_, by omega, by omega, by omega, ?_, fun _ => Or.inr (Or.inl rfl), by omega⟩
    · refine ⟨S.hN, S.hinc, S.hco, S.hlen, rfl, by omega, Or.inl ⟨hne, hkR, ?_⟩, le_refl _, ?_, by dsimp only; omega, Or.inr ⟨by omega, min_le_right _ _⟩, S.hneg, ?_⟩
      · rw [hk0, hR0]; simp
      · dsimp only; omega
      · intro z c hz' hc hb2
        dsimp only at hb2 ⊢
        have h0 : 0 ≤ (ch : ℤ) * z + c := by positivity
        have hzH := frame_lt hb2
        rw [hz _ h0 (by omega), S.hneg _ (by omega)]
    · intro _ hr
      have := hroomH hr
      omega
  · rw [if_neg h0]
    obtain ⟨hD1, hhD⟩ : 1 ≤ D ∧ h ≤ D := by
      rcases S.hD with h | h
      · rw [hcur, h.1, mul_zero] at h0; exact absurd rfl h0
      · exact h
    rw [chkI32_ok (by omega) (by omega)]
    simp only [bind, Except.bind]
    by_cases h1 : f.bEnd + ch * H + ch < f.bLen
    · rw [if_pos h1, chkI32_ok (by omega) (by omega)]
      have hroom2 : D + R - k + H + 1 ≤ B := by
        rw [hE, hlen] at h1
        apply mul_lt_one C.ch1
        have e : (ch : ℤ) * (D + R - k + H + 1) = ch * (D + R - k) + ch * H + ch := by ring
        omega
      refine ⟨f.bCurrent, f.bEnd, f.buffer, D, max (f.bLen - f.bCurrent - ch * H) 0, rfl, S.mono (min_le_left _ _), hD1, le_max_right _ _, ?_, ?_, id, le_trans (by omega) (le_max_left _ _)⟩
      · have : f.bEnd - f.bCurrent ≤ ch * H := by
          rw [hE, hcur, show (ch : ℤ) * (D + R - k) - ch * D = ch * (R - k) by ring]
          exact mul_le_mul_of_nonneg_left hlow (by positivity)
        omega
      · intro hw hr
        rcases hw with hw | hw | hw
        · omega
        · have := hroomH hr
          rw [hcur, hw]
          omega
        · refine le_trans ?_ (le_max_left _ _)
          rw [hlen, hcur]
          have h1 : (ch : ℤ) * (H + 1 - ((R : ℤ) - k)) ≤ ch * (B - D - H) := mul_le_mul_of_nonneg_left (by omega) (by positivity)
          have e : (ch : ℤ) * (B - D - H) = ch * B - ch * D - ch * H := by ring
          omega
    · rw [if_neg h1, chkI32_ok (by omega) (by omega)]
      simp only
      rw [chkI32_ok (by omega) (by omega)]
      simp only
      have hHD : H ≤ D := by
        have h2 : f.bEnd - f.bCurrent ≤ ch * H := by
          rw [hE, hcur, show (ch : ℤ) * (D + R - k) - ch * D = ch * (R - k) by ring]
          exact mul_le_mul_of_nonneg_left hlow (by positivity)
        have h3 : B - 2 * H ≤ D + 0 := by
          rw [add_zero]
          by_contra hh
          push Not at hh
          have := mul_le_mul_of_nonneg_left (show D + 1 ≤ B - 2 * H by omega) (show (0 : ℤ) ≤ ch by positivity)
          have e1 : (ch : ℤ) * (B - 2 * H) = ch * B - 2 * (ch * H) := by ring
          have e2 : (ch : ℤ) * (D + 1) = ch * D + ch := by ring
          omega
        have := C.HB
        omega
      obtain ⟨m1, m2⟩ := move_spec C S hne hHD
      rw [m2]
      simp only
      rw [chkI32_ok (by omega) (by omega)]
      refine ⟨ch * H, ch * H + (f.bEnd - f.bCurrent), _, H, max (f.bLen - ch * H - ch * H) 0, rfl, m1, by omega, le_max_right _ _, ?_, ?_, fun _ => Or.inr (Or.inl rfl), le_trans (by omega) (le_max_left _ _)⟩
      · have : f.bEnd - f.bCurrent ≤ ch * H := by
          rw [hE, hcur, show (ch : ℤ) * (D + R - k) - ch * D = ch * (R - k) by ring]
          exact mul_le_mul_of_nonneg_left hlow (by positivity)
        omega
      · intro _ hr
        exact (hroomH hr).trans (le_max_left _ _)

/-- Appending input frames. -/
theorem load_spec (C : SincCtx N inc B ch H) (S : SBuf sg co N inc B ch y f D k R h) (hne : f.bRealEnd < 0) (hD1 : 1 ≤ D) {m : Mem} {d : SrcData}
    {n u R0 L : ℕ} (hn : d.inputFrames = n) (hR : R = R0 + u) (hL : u + L ≤ n) (hfit : f.bEnd + ch * L ≤ f.bLen)
    (hdata : ∀ j c : ℕ, j < n → c < ch → m (d.dataIn + ((ch * j + c : ℕ) : ℤ)) = y ((R0 + j : ℕ) : ℤ) c) :
    ∃ bu, bufLoad m d f ch f.bEnd (ch * u) (ch * L) = .ok { f with buffer := bu } ∧
      ∀ x, SBuf sg co N inc B ch y { f with buffer := bu, bEnd := f.bEnd + ch * L, inUsed := x } D k (R + L) h := by
  have hle := S.hle
  have hcur := S.hcur
  have hlen := S.hlen
  obtain ⟨hkR, hE⟩ : k ≤ R ∧ f.bEnd = ch * (D + R - k) := by
    rcases S.hend with ⟨a, b, c⟩ | ⟨a, b⟩
    · exact ⟨b, c⟩
    · omega
  have hchD : 0 ≤ (ch : ℤ) * D := mul_nonneg (by positivity) S.hD0
  have hcL : 0 ≤ (ch : ℤ) * L := by positivity
  have hcu : 0 ≤ (ch : ℤ) * u := by positivity
  have hE0 : 0 ≤ f.bEnd := by omega
  refine ⟨fun i => if f.bEnd ≤ i ∧ i < f.bEnd + ch * L then m (d.dataIn + ch * u + (i - f.bEnd)) else f.buffer i, ?_, fun x => ?_⟩
  · unfold bufLoad
    have hsrc : (ch : ℤ) * u + ch * L ≤ d.inputFrames * ch := by
      rw [hn]
      have : (ch : ℤ) * (u + L) ≤ ch * n := mul_le_mul_of_nonneg_left (by exact_mod_cast hL) (by positivity)
      have e : (ch : ℤ) * (u + L) = ch * u + ch * L := by ring
      rw [mul_comm (n : ℤ)]; omega
    have hch0 : (0 : ℤ) ≤ ch := by positivity
    rw [if_neg (by omega), if_neg (by rw [not_not]; constructor <;> omega), if_neg (by rw [not_not]; constructor <;> omega)]
    rfl
  · refine ⟨S.hN, S.hinc, S.hco, S.hlen, S.hcur, S.hD0, Or.inl ⟨hne, by omega, ?_⟩, ?_, hfit, S.hlt, ?_, S.hneg, ?_⟩
    · dsimp only
      rw [hE]; push_cast; ring
    · dsimp only; omega
    · rcases S.hD with h1 | h1
      · omega
      · exact Or.inr h1
    · intro z c hz hc hb
      dsimp only at hb ⊢
      by_cases h1 : f.bEnd ≤ ch * z + c
      · rw [if_pos ⟨h1, hb⟩]
        have hz1 : D + R - k ≤ z := frame_ge hc (by rw [← hE]; exact h1)
        have hz2 : z < D + R - k + L := by
          apply frame_lt (c := ch) (i := c)
          have e : (ch : ℤ) * (D + R - k + L) = ch * (D + R - k) + ch * L := by ring
          rw [e, ← hE]; exact hb
        obtain ⟨j, hj⟩ : ∃ j : ℕ, (j : ℤ) = u + (z - (D + R - k)) := ⟨(u + (z - (D + R - k))).toNat, by omega⟩
        have e : d.dataIn + ch * u + (ch * z + c - f.bEnd) = d.dataIn + ((ch * j + c : ℕ) : ℤ) := by
          push_cast
          rw [hj, hE]; ring
        rw [e, hdata j c (by omega) hc]
        congr 1
        push_cast
        rw [hj, hR]; push_cast; ring
      · rw [if_neg (by omega)]
        exact S.hbuf z c hz hc (by omega)

/-- Appending silence at the end of input. -/
theorem prepTail_spec (C : SincCtx N inc B ch H) (S : SBuf sg co N inc B ch y f D k R h) (hne : f.bRealEnd < 0) (hD1 : 1 ≤ D) {d : SrcData}
    (hz : d.endOfInput ≠ 0 → f.inUsed = f.inCount → (∀ P, sg = some P → P ≤ H ∧ ((ch = 1 ∧ H ≤ h) ∨ 4 * (ch * H) + 5 ≤ f.bLen)) ∧ ∀ z : ℤ, R ≤ z → ∀ c, y z c = zero32)
    (hcond : sg.isSome ∨ d.endOfInput = 0 ∨ prepTail f ch (ch * H) d ≠ .error .oobRead) :
    ∃ (bc be br : ℤ) (bu : ℤ → F32) (D1 : ℤ), prepTail f ch (ch * H) d =
        .ok { f with bCurrent := bc, bEnd := be, bRealEnd := br, buffer := bu } ∧
      SBuf sg co N inc B ch y { f with bCurrent := bc, bEnd := be, bRealEnd := br, buffer := bu } D1 k R (min h H) ∧ 1 ≤ D1 ∧
      (D1 = D ∨ D1 = H) ∧
      (br < 0 ∨ (f.inUsed = f.inCount ∧ d.endOfInput ≠ 0 ∧ (4 * (ch * H) + 5 ≤ f.bLen → be = br + ch * H + 5))) ∧
      (br < 0 → d.endOfInput ≠ 0 → f.inUsed = f.inCount → 2 * H ≤ (R : ℤ) - k) := by
  have hb := C.half_bounds
  have hL := S.len_bound C
  have hle := S.hle
  have hbe := S.hbe
  have hcur := S.hcur
  have hlen := S.hlen
  have h6 := C.H6
  have hch1 : (1 : ℤ) ≤ ch := by exact_mod_cast C.ch1
  have hchM : (ch : ℤ) ≤ 128 := by exact_mod_cast C.chM
  obtain ⟨hkR, hE⟩ : k ≤ R ∧ f.bEnd = ch * (D + R - k) := by
    rcases S.hend with ⟨a, b, c⟩ | ⟨a, b⟩
    · exact ⟨b, c⟩
    · omega
  have hchD : 0 ≤ (ch : ℤ) * D := mul_nonneg (by positivity) S.hD0
  have hhD : h ≤ D := by
    rcases S.hD with h1 | h1
    · omega
    · exact h1.2
  have hEC : f.bEnd - f.bCurrent = ch * (R - k) := by rw [hE, hcur]; ring
  unfold prepTail
  by_cases hc : f.inUsed = f.inCount ∧ f.bEnd - f.bCurrent < 2 * (ch * H) ∧ d.endOfInput ≠ 0
  · rw [if_pos hc]
    obtain ⟨hc1, hc2, hc3⟩ := hc
    obtain ⟨hstrong, hzero⟩ := hz hc3 hc1
    have hHD : f.bLen - f.bEnd < ch * H + 5 → H ≤ D := by
      intro h1
      rcases hcond with hs | h0 | hr
      · obtain ⟨P, hP⟩ := Option.isSome_iff_exists.1 hs
        rcases (hstrong P hP).2 with ⟨_, h2⟩ | h2
        · omega
        · have h3 : (ch : ℤ) * H ≤ ch * D := by rw [← hcur]; omega
          exact le_of_mul_le_mul_left h3 (by omega)
      · exact absurd h0 hc3
      · have hsrc : 0 ≤ f.bCurrent - ch * H := by
          by_contra hh
          apply hr
          have ht : tailMove f ch (ch * H) = .error .oobRead := by
            unfold tailMove
            rw [if_pos h1, chkI32_ok (by omega) (by omega)]
            simp only [bind, Except.bind]
            rw [chkI32_ok (by omega) (by omega)]
            simp only
            unfold bufMove
            rw [if_neg (by omega), if_neg (fun hc => hh hc.1)]
            rfl
          unfold prepTail
          rw [if_pos ⟨hc1, hc2, hc3⟩, ht]
          rfl
        rw [hcur] at hsrc
        exact le_of_mul_le_mul_left (show (ch : ℤ) * H ≤ ch * D by omega) (by omega)
    -- after the move
    obtain ⟨bc, be, bu, D1, e1, S1, hD1', hor, hroom1⟩ : ∃ (bc be : ℤ) (bu : ℤ → F32) (D1 : ℤ), tailMove f ch (ch * H) = .ok { f with bCurrent := bc, bEnd := be, buffer := bu } ∧
        SBuf sg co N inc B ch y { f with bCurrent := bc, bEnd := be, buffer := bu } D1 k R (min h H) ∧ 1 ≤ D1 ∧ (D1 = D ∨ D1 = H) ∧
        (ch * H + 5 ≤ f.bLen - be ∨ be + 1 ≤ 3 * (ch * H)) := by
      unfold tailMove
      by_cases h1 : f.bLen - f.bEnd < ch * H + 5
      · rw [if_pos h1, chkI32_ok (by omega) (by omega)]
        simp only [bind, Except.bind]
        rw [chkI32_ok (by omega) (by omega)]
        simp only
        obtain ⟨m1, m2⟩ := move_spec C S hne (hHD h1)
        rw [m2]
        exact ⟨ch * H, ch * H + (f.bEnd - f.bCurrent), _, H, rfl, m1, by omega, Or.inr rfl, Or.inr (by omega)⟩
      · rw [if_neg h1]
        exact ⟨f.bCurrent, f.bEnd, f.buffer, D, rfl, S.mono (min_le_left _ _), hD1, Or.inl rfl, Or.inl (by omega)⟩
    rw [e1]
    have hbe1 := S1.hbe
    have hle1 := S1.hle
    have hcur1 := S1.hcur
    have hE1 : be = ch * (D1 + R - k) := by
      rcases S1.hend with ⟨a, b, c⟩ | ⟨a, b⟩
      · exact c
      · dsimp only at a; omega
    dsimp only at hbe1 hle1 hcur1
    have hchD1 : 0 ≤ (ch : ℤ) * D1 := mul_nonneg (by positivity) S1.hD0
    simp only [bind, Except.bind]
    rw [chkI32_ok (by omega) (by omega)]
    simp only
    rw [chkI32_ok (by omega) (by omega)]
    simp only
    set L := if ch * H + 5 < 0 ∨ be + (ch * H + 5) > f.bLen then f.bLen - be else ch * H + 5 with hLdef
    have hLval : L = min (ch * H + 5) (f.bLen - be) := by
      rw [hLdef]; split_ifs <;> omega
    have hz0 : bufZero { f with bCurrent := bc, bEnd := be, buffer := bu, bRealEnd := be } ch be L =
        .ok { f with bCurrent := bc, bEnd := be, bRealEnd := be, buffer := fun i => if be ≤ i ∧ i < be + L then zero32 else bu i } := by
      unfold bufZero
      rw [if_neg (by omega), if_pos (by dsimp only; omega)]
      rfl
    rw [hz0]
    refine ⟨bc, be + L, be, _, D1, rfl, ?_, hD1', hor, Or.inr ⟨hc1, hc3, fun h4 => by omega⟩, fun hb => by omega⟩
    refine ⟨S1.hN, S1.hinc, S1.hco, S1.hlen, S1.hcur, S1.hD0, Or.inr ⟨by dsimp only; omega, hE1, by dsimp only; omega, ?_, hzero⟩, by dsimp only; omega, by dsimp only; omega, S1.hlt,
      ?_, S1.hneg, ?_⟩
    · intro P hs
      obtain ⟨hPH, hroom⟩ := hstrong P hs
      rcases hroom with ⟨h1, _⟩ | h1
      · exact Or.inl h1
      · refine Or.inr ?_
        dsimp only
        have : (ch : ℤ) * P ≤ ch * H := mul_le_mul_of_nonneg_left hPH (by omega)
        omega
    · rcases S1.hD with h1 | h1
      · omega
      · exact Or.inr h1
    · intro z c hz hc hb
      dsimp only at hb ⊢
      by_cases h1 : be ≤ ch * z + c
      · rw [if_pos ⟨h1, hb⟩]
        have hz1 : D1 + R - k ≤ z := frame_ge hc (by rw [← hE1]; exact h1)
        rw [hzero _ (by omega)]
      · rw [if_neg (by omega)]
        exact S1.hbuf z c hz hc (by dsimp only; omega)
  · rw [if_neg hc]
    refine ⟨f.bCurrent, f.bEnd, f.bRealEnd, f.buffer, D, rfl, S.mono (min_le_left _ _), hD1, Or.inl rfl, Or.inl hne, fun _ h1 h2 => ?_⟩
    have : 2 * (ch * H) ≤ ch * (R - k) := by
      by_contra hh
      exact hc ⟨h2, by omega, h1⟩
    have : (ch : ℤ) * (2 * H) ≤ ch * (R - k) := by
      rw [show (ch : ℤ) * (2 * H) = 2 * (ch * H) by ring]; exact this
    exact le_of_mul_le_mul_left this (by omega)

theorem truncI32_id {a : ℤ} (h0 : 0 ≤ a) (h1 : a < 2147483648) : truncI32 a = a := by
  unfold truncI32; omega

/-- `prepare_data` when the buffer runs low. -/
theorem prepare_spec (C : SincCtx N inc B ch H) (S : SBuf sg co N inc B ch y f D k R h) (hne : f.bRealEnd < 0) (hlow : (R : ℤ) - k ≤ H)
    {m : Mem} {d : SrcData} {n u R0 : ℕ} (hd : d.dataIn ≠ 0) (hn : d.inputFrames = n) (hR : R = R0 + u) (hu : u ≤ n)
    (hused : f.inUsed = ch * u) (hcount : f.inCount = ch * n) (hsmall : ch * n < 2147483648)
    (hdata : ∀ j c : ℕ, j < n → c < ch → m (d.dataIn + ((ch * j + c : ℕ) : ℤ)) = y ((R0 + j : ℕ) : ℤ) c)
    (hz : d.endOfInput ≠ 0 → (∀ P, sg = some P → P ≤ H ∧ ((ch = 1 ∧ H ≤ h) ∨ 4 * (ch * H) + 5 ≤ f.bLen)) ∧ ∀ z : ℤ, ((R0 + n : ℕ) : ℤ) ≤ z → ∀ c, y z c = zero32)
    (hcond : sg.isSome ∨ d.endOfInput = 0 ∨ prepareData m f ch d (ch * H) ≠ .error .oobRead) :
    ∃ (bc be br : ℤ) (bu : ℤ → F32) (D1 : ℤ) (L : ℕ), prepareData m f ch d (ch * H) =
        .ok (0, { f with bCurrent := bc, bEnd := be, bRealEnd := br, buffer := bu, inUsed := ch * ((u + L : ℕ) : ℤ) }) ∧
      SBuf sg co N inc B ch y { f with bCurrent := bc, bEnd := be, bRealEnd := br, buffer := bu, inUsed := ch * ((u + L : ℕ) : ℤ) }
        D1 k (R + L) (min h H) ∧ 1 ≤ D1 ∧ u + L ≤ n ∧
      (br < 0 ∨ (u + L = n ∧ d.endOfInput ≠ 0 ∧ (4 * (ch * H) + 5 ≤ f.bLen → be = br + ch * H + 5))) ∧
      (br < 0 → d.endOfInput ≠ 0 → u + L = n → 2 * H ≤ ((R + L : ℕ) : ℤ) - k) ∧
      (Roomy H D k R → Roomy H D1 k (R + L)) ∧
      (Roomy H D k R → ch = 1 ∨ 3 * H + 1 ≤ B → ((R + L : ℕ) : ℤ) - k ≤ H → u + L = n) ∧ (u < n → 0 < L) := by
  have hb := C.half_bounds
  have hLb := S.len_bound C
  have hch1 : (1 : ℤ) ≤ ch := by exact_mod_cast C.ch1
  obtain ⟨bc, be, bu, D1, len, e1, S1, hD1, hl0, hfit, hroom, hRm, hlen1⟩ := prepRoom_spec C S hne hlow
  have hbe1 : 0 ≤ be := by
    have := S1.hle; have := S1.hcur
    have h0 : 0 ≤ (ch : ℤ) * D1 := mul_nonneg (by positivity) S1.hD0
    dsimp only at *; omega
  -- frames to load
  set A := min ((n - u : ℕ) : ℤ) (len / ch) with hA
  have hlch : 0 ≤ len / ch := Int.ediv_nonneg hl0 (by omega)
  obtain ⟨L, hL⟩ : ∃ L : ℕ, (L : ℤ) = A := ⟨A.toNat, by omega⟩
  have hrem : truncI32 (f.inCount - f.inUsed) = ch * ((n - u : ℕ) : ℤ) := by
    have e : f.inCount - f.inUsed = ch * ((n - u : ℕ) : ℤ) := by
      rw [hused, hcount]; push_cast [hu]; ring
    rw [e]
    apply truncI32_id (by positivity)
    have : ch * (n - u) ≤ ch * n := Nat.mul_le_mul_left _ (by omega)
    have : ((ch * (n - u) : ℕ) : ℤ) < 2147483648 := by exact_mod_cast lt_of_le_of_lt this hsmall
    push_cast at this; exact this
  have hmin0 : 0 ≤ min ((ch : ℤ) * ((n - u : ℕ) : ℤ)) len := le_min (by positivity) hl0
  have hlenL : min ((ch : ℤ) * ((n - u : ℕ) : ℤ)) len - (min ((ch : ℤ) * ((n - u : ℕ) : ℤ)) len).tmod ch = ch * L := by
    rw [Int.tmod_eq_emod_of_nonneg hmin0]
    have := Int.mul_ediv_add_emod (min ((ch : ℤ) * ((n - u : ℕ) : ℤ)) len) ch
    have e : min ((ch : ℤ) * ((n - u : ℕ) : ℤ)) len / ch = L := by
      rw [hL, hA]
      rcases le_total ((ch : ℤ) * ((n - u : ℕ) : ℤ)) len with h1 | h1
      · rw [min_eq_left h1, Int.mul_ediv_cancel_left _ (by omega), min_eq_left]
        rw [Int.le_ediv_iff_mul_le (by omega), mul_comm]; exact h1
      · rw [min_eq_right h1, min_eq_right]
        have := Int.ediv_le_ediv (show (0 : ℤ) < ch by omega) h1
        rwa [Int.mul_ediv_cancel_left _ (by omega)] at this
    rw [e] at this
    omega
  have hcLlen : (ch : ℤ) * L ≤ len := by
    have h1 : (L : ℤ) ≤ len / ch := by rw [hL]; exact min_le_right _ _
    have := (Int.le_ediv_iff_mul_le (show (0 : ℤ) < ch by omega)).1 h1
    rw [mul_comm]; exact this
  have huL : u + L ≤ n := by
    have h1 : (L : ℤ) ≤ ((n - u : ℕ) : ℤ) := by rw [hL]; exact min_le_left _ _
    have : L ≤ n - u := by exact_mod_cast h1
    omega
  have hcL0 : 0 ≤ (ch : ℤ) * L := by positivity
  obtain ⟨bu2, e2, S2⟩ := load_spec C S1 hne hD1 (L := L) hn hR huL (by dsimp only; omega) hdata
  have S2' := S2 (ch * ((u + L : ℕ) : ℤ))
  dsimp only at S2' e2
  have key : prepareData m f ch d (ch * H) = (prepTail { f with
      bCurrent := bc, bEnd := be + ch * L, buffer := bu2, inUsed := ch * ((u + L : ℕ) : ℤ) } ch (ch * H) d).bind (fun f => .ok (0, f)) := by
    unfold prepareData
    rw [if_neg (by omega), if_neg hd, e1]
    simp only [bind, Except.bind]
    rw [hrem, modM_ok (by omega)]
    simp only
    rw [hlenL, chkI32_ok (by omega) (by omega)]
    simp only
    rw [← hused] at e2
    rw [if_neg (by omega), e2]
    simp only
    rw [hused]
    have e : (ch : ℤ) * u + ch * L = ch * ((u + L : ℕ) : ℤ) := by push_cast; ring
    rw [e]
    rfl
  have hcond3 : sg.isSome ∨ d.endOfInput = 0 ∨ prepTail { f with
      bCurrent := bc, bEnd := be + ch * L, buffer := bu2, inUsed := ch * ((u + L : ℕ) : ℤ) } ch (ch * H) d ≠ .error .oobRead := by
    refine hcond.imp_right (Or.imp_right fun hr ht => hr ?_)
    rw [key, ht]
    rfl
  obtain ⟨bc3, be3, br3, bu3, D3, e3, S3, hD3, hor3, hend3, hne3⟩ := prepTail_spec C S2' hne hD1 (d := d) (hcond := hcond3) (fun h1 h2 => by
    dsimp only at h2
    obtain ⟨a, c⟩ := hz h1
    refine ⟨fun P hs => ⟨(a P hs).1, (a P hs).2.imp_left fun h => ⟨h.1, le_min h.2 le_rfl⟩⟩, fun z hz => c z ?_⟩
    have : u + L = n := by
      rw [hcount] at h2
      have := mul_left_cancel₀ (show (ch : ℤ) ≠ 0 by omega) h2
      exact_mod_cast this
    rw [← this]; rw [hR] at hz; push_cast at hz ⊢; omega)
  dsimp only at e3 S3 hend3 hne3
  have hfin : ∀ x y : ℕ, (ch : ℤ) * (x : ℤ) = ch * (y : ℤ) → x = y := fun x y h => by
    have := mul_left_cancel₀ (show (ch : ℤ) ≠ 0 by omega) h
    exact_mod_cast this
  refine ⟨bc3, be3, br3, bu3, D3, L, ?_, ?_, hD3, huL, ?_, ?_, ?_, ?_, ?_⟩
  · rw [key, e3]
    rfl
  · have e : min (min h H) H = min h H := by omega
    rw [e] at S3
    exact S3
  · rcases hend3 with h1 | ⟨h1, h2, h3⟩
    · exact Or.inl h1
    · exact Or.inr ⟨hfin _ _ (by rw [h1, hcount]), h2, h3⟩
  · intro h1 h2 h3
    exact hne3 h1 h2 (by rw [hcount, h3])
  · intro hw
    rcases hor3 with h1 | h1
    · rw [h1]
      rcases hRm hw with h2 | h2 | h2
      · exact Or.inl h2
      · exact Or.inr (Or.inl h2)
      · exact Or.inr (Or.inr (by push_cast; omega))
    · exact Or.inr (Or.inl h1)
  · intro hw hr hle
    by_contra hh
    have hlt : L < n - u := by omega
    have hLd : (L : ℤ) = len / ch := by
      rw [hL, hA]
      apply min_eq_right
      by_contra h2
      push Not at h2
      have : (L : ℤ) = ((n - u : ℕ) : ℤ) := by rw [hL, hA]; exact min_eq_left h2.le
      have : L = n - u := by exact_mod_cast this
      omega
    have h1 := hroom hw hr
    have h2 : H + 1 - ((R : ℤ) - k) ≤ len / ch := by
      rw [Int.le_ediv_iff_mul_le (by omega), mul_comm]; exact h1
    push_cast at hle
    omega
  · intro hlt
    have h1 : 1 ≤ len / ch := by rw [Int.le_ediv_iff_mul_le (by omega), one_mul]; exact hlen1
    have h2 : (1 : ℤ) ≤ ((n - u : ℕ) : ℤ) := by omega
    have : (1 : ℤ) ≤ L := by rw [hL]; exact le_min h2 h1
    omega

end
end Verif
