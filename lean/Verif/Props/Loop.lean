import Verif.Props.Shift

/-! C88: a loop stays a loop (constant ratio that is a power of two). -/

namespace Verif

open Spec

/-- The first `L` frames of `x` repeat with period `N`, in channel `c`. -/
def Repeats (x : ℕ → ℕ → F32) (c N L : ℕ) : Prop := ∀ k, k + N < L → x (k + N) c = x k c

theorem repeats_agree {x : ℕ → ℕ → F32} {c N L : ℕ} (h : Repeats x c N L) {τ R : ℚ} (h0 : R ≤ τ) (h1 : τ + R + N < L) : AgreeShifted x x N c τ R := by
  intro k hk
  rw [abs_le] at hk
  have k0 : 0 ≤ k := by
    have : (0 : ℚ) ≤ k := by linarith [hk.1]
    exact_mod_cast this
  obtain ⟨n, rfl⟩ := Int.eq_ofNat_of_zero_le k0
  have hn : n + N < L := by
    have : ((n + N : ℕ) : ℚ) < L := by
      push_cast
      have := hk.2
      push_cast at this
      linarith
    exact_mod_cast this
  unfold signal
  rw [if_neg (by omega), if_neg (by omega)]
  exact (h n hn).symm

/-- C88, zero order hold and linear: while the stream repeats with period `N` frames, the output repeats with period `N r` frames, bit by bit, from the third input frame on. -/
theorem C88_interp (cfg : Config) (type : ℤ) (ht : type = SRC_ZERO_ORDER_HOLD ∨ type = SRC_LINEAR) (ch : ℕ) (hc : ch ≤ 8355967) (e : ℤ) (st st1 : SrcState)
    (h : srcNew cfg type ch = .ok (e, some st)) (x : ℕ → ℕ → F32) (r : ℚ) (hp : PowerOfTwo r)
    (ops : List Op) (os : List Obs) (V : ℕ) (hO : ∀ op ∈ ops, OrdinaryOp 1 ch op ∧ AtRatio r op) (hr : run ops st = .ok (os, st1)) (hF : Fed x ch 0 ops os V)
    (c N L : ℕ) (hx : Repeats x c N L) (j j' : ℕ) (f f' : List F32) (hj : (j' : ℚ) = j + N * r) (hf : (outputs ch os)[j]? = some f) (hf' : (outputs ch os)[j']? = some f')
    (h0 : 2 ≤ (j : ℚ) / r) (h1 : (j' : ℚ) / r < L) : f[c]? = f'[c]? := by
  have hr0 := hp.pos
  refine C77_interp cfg cfg type ht ch hc e e st st st1 st1 h h x x r hp ops ops os os V V hO hO hr hr hF hF N j j' c f f' hj hf hf' (by linarith) (repeats_agree hx (by linarith) ?_)
  rw [hj, add_div, mul_div_cancel_right₀ _ hr0.ne'] at h1
  linarith

/-- C88, sinc: the same, for the output frames whose filter lies within the frames that repeat. -/
theorem C88_sinc (cfg : Config) (hL : LibraryTables cfg) (type : ℤ) (ht : SincType type) (ch : ℕ) (e : ℤ) (st st1 : SrcState)
    (h : srcNew cfg type ch = .ok (e, some st)) (x : ℕ → ℕ → F32) (len : Option ℕ) (hx : EndsAt x len)
    (r : ℚ) (hp : PowerOfTwo r) (ops : List Op) (os : List Obs) (V : ℕ) (hO : ∀ op ∈ ops, SizedOp ch op ∧ AtRatio r op) (hr : run ops st = .ok (os, st1))
    (hF : FedTo x ch len 0 ops os V) :
    ∃ t, cfg.table type = some t ∧ ∀ c N L, Repeats x c N L → ∀ (j j' : ℕ) (f f' : List F32), (j' : ℚ) = j + N * r →
      (outputs ch os)[j]? = some f → (outputs ch os)[j']? = some f' → filterReach t r ≤ j / r → j' / r + filterReach t r < L → f[c]? = f'[c]? := by
  obtain ⟨t, hT, key⟩ := C77_sinc cfg hL type ht ch e e st st st1 st1 h h x x len len hx hx r hp ops ops os os V V hO hO hr hr hF hF
  have hr0 := hp.pos
  refine ⟨t, hT, fun c N L hR j j' f f' hj hf hf' h0 h1 => key N j j' c f f' hj hf hf' (repeats_agree hR h0 ?_)⟩
  rw [hj, add_div, mul_div_cancel_right₀ _ hr0.ne'] at h1
  linarith

theorem quarter_repeats (c : ℕ) : Repeats quarter c 4 100 := by
  intro k hk
  unfold quarter
  rw [if_pos hk, if_pos (show k < 100 by omega), Nat.add_mod_right]

theorem quarter_ends : EndsAt quarter (some 100) := by
  intro n hn k hk c
  cases hn
  unfold quarter
  rw [if_neg (by omega)]

/-- The hypotheses of C88 are met by hundred frames of a tone with a period of four frames: output frame 40 is output frame 44. -/
example : ∃ (st st1 : SrcState) (os : List Obs), srcNew libCfg SRC_SINC_FASTEST (2 : ℕ) = .ok (0, some st) ∧
    run [.process (stereoMem quarter) (some sincCall)] st = .ok (os, st1) ∧ ∃ f f', (outputs 2 os)[40]? = some f ∧ (outputs 2 os)[44]? = some f' ∧ f[0]? = f'[0]? := by
  obtain ⟨st, st1, os, h1, h2, h3, h4⟩ := stereo_call quarter
  have hO : ∀ op ∈ [Op.process (stereoMem quarter) (some sincCall)], SizedOp (2 : ℕ) op ∧ AtRatio 1 op := by
    intro op hop
    rw [List.mem_singleton.1 hop]
    exact ⟨sincCall_sized, one64_val⟩
  have a := List.getElem?_eq_getElem (show 40 < (outputs 2 os).length by omega)
  have b := List.getElem?_eq_getElem (show 44 < (outputs 2 os).length by omega)
  refine ⟨st, st1, os, h1, h2, _, _, a, b, ?_⟩
  obtain ⟨t, hT, key⟩ := C88_sinc libCfg libCfg_tables _ (Or.inr (Or.inr rfl)) 2 0 st st1 h1 quarter _ quarter_ends 1 ⟨0, by norm_num, by norm_num⟩ _ os _ hO h2 h3
  obtain rfl : Fastest.table = t := by
    simpa [Config.table, libCfg, SRC_SINC_FASTEST, SRC_SINC_MEDIUM_QUALITY, SRC_SINC_BEST_QUALITY] using hT
  have hR : filterReach Fastest.table 1 = 81 / 4 := by
    unfold filterReach
    rw [show Fastest.table.count = 2464 from rfl, show Fastest.table.increment = 128 from rfl]
    norm_num
  exact key 0 4 100 (quarter_repeats 0) 40 44 _ _ (by norm_num) a b (by rw [hR]; norm_num) (by rw [hR]; norm_num)

end Verif
