import Verif.Props.Timewarp
import Verif.Props.Recording

/-! Signals in the files of the time warp program (C74). -/

namespace Verif
open Spec

/-- The samples of the file around a time are those of the signal. -/
theorem file_sampled {f : SndFile} {c : ℕ} {s : ℝ → ℝ} {η : ℝ} {τ R : ℚ} (h : FileOf f c s η) (hR : τ + R ≤ f.len) : SampledFrom (streamOf f) c τ R s η := by
  intro k hk
  have hk' := (_root_.abs_lt.1 hk).2
  have : (k : ℚ) < f.len := by linarith
  have hlt : k < f.len := by exact_mod_cast this
  unfold streamOf
  rw [if_pos hlt]
  exact h k hlt

section
variable {cfg : Config} {type : ℤ} {t : CoeffTable} {ch : ℕ} {f : SndFile} {m : Mem} {inp out : ℤ}

/-- The frames of the output file and their times. -/
theorem warp_frames (hL : LibraryTables cfg) (ht : SincType type) (hT : cfg.table type = some t) (hinp : 0 < inp) (hout : 0 < out) (hdis : inp + 1024 ≤ out ∨ out + 1024 ≤ inp)
    (h1 : 1 ≤ ch) (h128 : ch ≤ 128) :
    ∃ (n G : ℕ) (file : List (List F32)) (τ : ℕ → ℚ), (∀ fuel, n ≤ fuel → timewarpConvert cfg f m inp out type ch fuel = .ok (some (G, file))) ∧ file.length = G ∧ (∀ fr ∈ file, fr.length = ch) ∧
      (f.len - (G : ℚ) / 2 ^ 44 - 1 / 10 ^ 6) - 1 ≤ G ∧ (G : ℚ) ≤ 1 + (f.len + (G : ℚ) / 2 ^ 44) * (3 / 2) ∧
      τ 0 = 0 ∧ (∀ j, j < G → 2 / 3 - 1 / 2 ^ 44 ≤ τ (j + 1) - τ j ∧ τ (j + 1) - τ j ≤ 1 + 1 / 2 ^ 44) ∧ (∀ j < G, τ j < f.len) ∧
      ∀ (j : ℕ) fr (c : ℕ) s, file[j]? = some fr → fr[c]? = some s → ∃ ρ : ℚ, 1 ≤ ρ ∧ s = sincIdeal t (streamOf f) (allHistory t) ρ (τ j) c := by
  obtain ⟨n, G, file, a1, ⟨ops, os, st, st', ρ, -, -, -, -, -, -, a2, a3⟩, g1, g2⟩ := C57 cfg hL type ht t hT f m inp out hinp hout hdis ch h1 h128
  refine ⟨n, G, file, timeAt ρ, a1, by rw [a3]; simp, fun fr h => by rw [a3] at h; obtain ⟨j, -, rfl⟩ := List.mem_map.1 h; simp [frameOf], g1, g2, by simp [timeAt, posAt], fun j hj => ?_, fun j hj => (a2 j hj).2.2, fun j fr c s hf hs => ?_⟩
  · obtain ⟨b1, b2, -⟩ := a2 j hj
    have := _root_.abs_le.1 (time_step (ρ := ρ) (j := j) ⟨by linarith, by linarith⟩)
    have e : p2 (-44) = 1 / 2 ^ 44 := by norm_num [p2]
    rw [e] at this
    have c1 : (1 : ℚ) / (3 / 2) ≤ 1 / ρ j := one_div_le_one_div_of_le (by linarith) b2
    have c2 : 1 / ρ j ≤ 1 := by rw [div_le_one (by linarith)]; exact b1
    constructor <;> linarith
  · obtain ⟨hj, rfl⟩ := getElem?_of_map a3 hf
    obtain ⟨-, rfl⟩ := getElem?_of_map (n := ch) rfl hs
    exact ⟨ρ j, (a2 j hj).1, rfl⟩

end

/-- C74, fast sinc converter: the time warp program turns a file of tones into a file of the same tones, played at varying speed.  The frames of the output file are at times `τ j` of the input: from 0 on, at steps
between 2/3 of a frame and one frame, up to the end of the input file.  Wherever channel `c` of the input is a sum of tones up to 2 radians per frame, up to `η`, frame `j` of the output is its value at `τ j`, up to 1/10000 of the loudness and twice `η`,
except for 21 frames at each end of the input. -/
theorem C74_fastest (cfg : Config) (hL : LibraryTables cfg) (hP : ShippedTables cfg) (hF : (cfg.table SRC_SINC_FASTEST).isSome) (f : SndFile) (m : Mem)
    (inp out : ℤ) (hinp : 0 < inp) (hout : 0 < out) (hdis : inp + 1024 ≤ out ∨ out + 1024 ≤ inp) (ch : ℕ) (h1 : 1 ≤ ch) (h128 : ch ≤ 128) :
    ∃ (n G : ℕ) (file : List (List F32)) (τ : ℕ → ℚ), (∀ fuel, n ≤ fuel → timewarpConvert cfg f m inp out SRC_SINC_FASTEST ch fuel = .ok (some (G, file))) ∧ file.length = G ∧ (∀ fr ∈ file, fr.length = ch) ∧
      (f.len - (G : ℚ) / 2 ^ 44 - 1 / 10 ^ 6) - 1 ≤ G ∧ (G : ℚ) ≤ 1 + (f.len + (G : ℚ) / 2 ^ 44) * (3 / 2) ∧
      τ 0 = 0 ∧ (∀ j, j < G → 2 / 3 - 1 / 2 ^ 44 ≤ τ (j + 1) - τ j ∧ τ (j + 1) - τ j ≤ 1 + 1 / 2 ^ 44) ∧ (∀ j < G, τ j < f.len) ∧
      ∀ (j : ℕ) fr (c : ℕ) s n A ω θ η, file[j]? = some fr → fr[c]? = some s → ToneLimits n A ω 2 → 0 ≤ η → loudness n A + η ≤ 2 ^ 62 → FileOf f c (tones n A ω θ) η → 21 ≤ τ j → τ j + 21 ≤ f.len →
        ∃ y : ℚ, s.val = some y ∧ |(y : ℝ) - tones n A ω θ (τ j)| ≤ loudness n A * (1 / 10000) + 2 * η + 1 / 2 ^ 148 := by
  obtain ⟨t, hT⟩ := Option.isSome_iff_exists.1 hF
  have := (shipped_good hP hT).1 rfl
  subst this
  obtain ⟨n, G, file, τ, a1, a2, g0, g1, g2, a3, a4, a5, a6⟩ := warp_frames (f := f) (m := m) hL (Or.inr (Or.inr rfl)) hT hinp hout hdis h1 h128
  refine ⟨n, G, file, τ, a1, a2, g0, g1, g2, a3, a4, a5, fun j fr c s n A ω θ η hf hs hLim η0 hsum hs' hE1 hE2 => ?_⟩
  obtain ⟨ρ, b1, rfl⟩ := a6 j fr c s hf hs
  exact tones_sample fastest_good (by norm_num) fastest_reach fastest_tones (by norm_num) (by norm_num) (by unfold allHistory; decide) (by decide +kernel) b1 hE1 hLim η0 hsum (file_sampled hs' hE2)

/-- C74, medium sinc converter (the program's default): tones up to 2.6 radians per frame, 1/30000 of the loudness, 2.4 times `η`, 47 frames at each end. -/
theorem C74_medium (cfg : Config) (hL : LibraryTables cfg) (hP : ShippedTables cfg) (hF : (cfg.table SRC_SINC_MEDIUM_QUALITY).isSome) (f : SndFile) (m : Mem)
    (inp out : ℤ) (hinp : 0 < inp) (hout : 0 < out) (hdis : inp + 1024 ≤ out ∨ out + 1024 ≤ inp) (ch : ℕ) (h1 : 1 ≤ ch) (h128 : ch ≤ 128) :
    ∃ (n G : ℕ) (file : List (List F32)) (τ : ℕ → ℚ), (∀ fuel, n ≤ fuel → timewarpConvert cfg f m inp out SRC_SINC_MEDIUM_QUALITY ch fuel = .ok (some (G, file))) ∧ file.length = G ∧ (∀ fr ∈ file, fr.length = ch) ∧
      (f.len - (G : ℚ) / 2 ^ 44 - 1 / 10 ^ 6) - 1 ≤ G ∧ (G : ℚ) ≤ 1 + (f.len + (G : ℚ) / 2 ^ 44) * (3 / 2) ∧
      τ 0 = 0 ∧ (∀ j, j < G → 2 / 3 - 1 / 2 ^ 44 ≤ τ (j + 1) - τ j ∧ τ (j + 1) - τ j ≤ 1 + 1 / 2 ^ 44) ∧ (∀ j < G, τ j < f.len) ∧
      ∀ (j : ℕ) fr (c : ℕ) s n A ω θ η, file[j]? = some fr → fr[c]? = some s → ToneLimits n A ω (13 / 5) → 0 ≤ η → loudness n A + η ≤ 2 ^ 62 → FileOf f c (tones n A ω θ) η → 47 ≤ τ j → τ j + 47 ≤ f.len →
        ∃ y : ℚ, s.val = some y ∧ |(y : ℝ) - tones n A ω θ (τ j)| ≤ loudness n A * (1 / 30000) + 12 / 5 * η + 1 / 2 ^ 148 := by
  obtain ⟨t, hT⟩ := Option.isSome_iff_exists.1 hF
  have := (shipped_good hP hT).2 rfl
  subst this
  obtain ⟨n, G, file, τ, a1, a2, g0, g1, g2, a3, a4, a5, a6⟩ := warp_frames (f := f) (m := m) hL (Or.inr (Or.inl rfl)) hT hinp hout hdis h1 h128
  refine ⟨n, G, file, τ, a1, a2, g0, g1, g2, a3, a4, a5, fun j fr c s n A ω θ η hf hs hLim η0 hsum hs' hE1 hE2 => ?_⟩
  obtain ⟨ρ, b1, rfl⟩ := a6 j fr c s hf hs
  exact tones_sample mid_good (by norm_num) mid_reach mid_tones (by norm_num) (by norm_num) (by unfold allHistory; decide) (by decide +kernel) b1 hE1 hLim η0 hsum (file_sampled hs' hE2)

/-- Non-vacuity of C74: a file of 100 frames of the tone of `quarter`.  Frame 40 of the output is the tone at a time between 26 and 41 frames, up to 1/9000. -/
example : ∃ (n G : ℕ) (file : List (List F32)) (fr : List F32) (s : F32) (y τ : ℚ), (∀ fuel, n ≤ fuel →
    timewarpConvert libCfg ⟨100, quarter⟩ (fun _ => zero32) 1 1025 SRC_SINC_FASTEST (2 : ℕ) fuel = .ok (some (G, file))) ∧ file[40]? = some fr ∧ fr[1]? = some s ∧
    s.val = some y ∧ 26 ≤ τ ∧ τ ≤ 41 ∧ |(y : ℝ) - Real.cos (Real.pi / 2 * τ)| ≤ 1 / 9000 := by
  obtain ⟨n, G, file, τ, a1, a2, g0, g1, -, a3, a4, -, a6⟩ := C74_fastest libCfg libCfg_tables libCfg_shipped rfl ⟨100, quarter⟩ (fun _ => zero32) 1 1025 (by norm_num) (by norm_num) (by norm_num) 2 (by norm_num) (by norm_num)
  dsimp only at g1 a6
  have h0 : (0 : ℚ) ≤ G := by positivity
  have hG : (41 : ℚ) < G := by
    push_cast at g1
    by_contra hc
    push Not at hc
    have : (G : ℚ) / 2 ^ 44 ≤ 1 / 10 := by rw [div_le_iff₀ (by norm_num)]; linarith
    linarith
  have hG : 41 < G := by exact_mod_cast hG
  have hτ : ∀ j : ℕ, j ≤ 41 → (j : ℚ) * (2 / 3 - 1 / 2 ^ 44) ≤ τ j ∧ τ j ≤ j * (1 + 1 / 2 ^ 44) := by
    intro j
    induction j with
    | zero => intro _; rw [a3]; norm_num
    | succ j ih =>
      intro hj
      obtain ⟨b1, b2⟩ := ih (by omega)
      obtain ⟨b3, b4⟩ := a4 j (by omega)
      push_cast
      constructor <;> linarith
  obtain ⟨c1, c2⟩ := hτ 40 (by norm_num)
  norm_num at c1 c2
  have hj : 40 < file.length := by omega
  have hc : 1 < (file[40]'hj).length := by rw [g0 _ (List.getElem_mem hj)]; norm_num
  have hpi := Real.pi_lt_d2
  have hpi0 := Real.pi_pos
  have hrec : FileOf ⟨100, quarter⟩ 1 (tones 1 (fun _ => 1) (fun _ => Real.pi / 2) (fun _ => 0)) 0 := by
    intro k hk
    obtain ⟨q, q1, q2⟩ := quarter_val hk 1
    exact ⟨q, q1, by simp [tones, q2]⟩
  obtain ⟨y, y1, y2⟩ := a6 40 _ 1 _ 1 _ _ _ 0 (List.getElem?_eq_getElem hj) (List.getElem?_eq_getElem hc) (fun k _ => ⟨by norm_num, by positivity, by linarith⟩) le_rfl
    (by simp [loudness]; norm_num) hrec (by linarith) (by push_cast; linarith)
  refine ⟨n, G, file, _, _, y, τ 40, a1, List.getElem?_eq_getElem hj, List.getElem?_eq_getElem hc, y1, by linarith, by linarith, ?_⟩
  simp only [tones, loudness, Finset.sum_range_one, one_mul, add_zero, mul_zero] at y2
  exact y2.trans (by norm_num)

end Verif
