import Verif.Props.Level
import Verif.Proof.FilterFloat
import Verif.Proof.TableAt
import Verif.Proof.TableFastest
import Verif.Proof.TableMid

/-! The sinc converters as filters: accuracy (C51), gain (C52) and response to constant input (C53). -/

namespace Verif
open Spec

theorem zero32_val : zero32.val = some 0 := by simpa [zero32] using Fl.val_ofInt (f := f32) (n := 0) (by norm_num [f32])

theorem valOf_eq {x : F32} {q : ℚ} (h : x.val = some q) : valOf x = q := by simp [valOf, h]

/-- Frames under the filter are within its reach. -/
theorem Geom.under_near {N inc B : ℤ} (G : Geom N inc B) (hN : N ≤ 143 * inc) (h128 : 128 ≤ inc) {ρ i : ℚ} (hρ : 1 / 256 ≤ ρ) (i0 : 0 ≤ i) (i1 : i < 1)
    {D k : ℤ} (h : UnderFilter N inc ρ i D k) : |(k : ℚ) - i| < (((N + 2 : ℤ) : ℚ) / inc + 1) / min 1 ρ := by
  obtain ⟨-, h⟩ := h
  have q1 : (128 : ℚ) ≤ inc := by exact_mod_cast h128
  have q2 : (inc : ℚ) ≤ 4096 := by exact_mod_cast G.incM
  have qN : (N : ℚ) ≤ 143 * inc := by exact_mod_cast hN
  have hs1 : |sincInc inc ρ - inc * min ρ 1| ≤ 1 / 8192 := by
    have m0 : 0 ≤ min ρ 1 := le_min (by linarith) (by norm_num)
    have h1 : |(inc : ℚ) * min ρ 1| < p2 13 := by
      rw [abs_of_nonneg (by positivity)]
      have : (inc : ℚ) * min ρ 1 ≤ 4096 * 1 := mul_le_mul q2 (min_le_right _ _) m0 (by norm_num)
      norm_num [p2]
      linarith
    refine (abs_rq_sub_le_of_lt h1 (by norm_num [f64])).trans ?_
    norm_num [p2, f64]
  obtain ⟨c1, c2⟩ := G.sincInc_bounds hρ
  have hr : |rq f64 (i * sincInc inc ρ) - i * sincInc inc ρ| ≤ 1 / 8192 := by
    have h1 : |i * sincInc inc ρ| < p2 13 := by
      have h0 : 0 ≤ sincInc inc ρ := by linarith
      rw [abs_of_nonneg (by positivity)]
      have : i * sincInc inc ρ ≤ 1 * 4096 := mul_le_mul i1.le (by linarith) h0 (by norm_num)
      norm_num [p2]
      linarith
    refine (abs_rq_sub_le_of_lt h1 (by norm_num [f64])).trans ?_
    norm_num [p2, f64]
  have hn1 := abs_rne_sub_le (sincInc inc ρ * 4096)
  have hn2 := abs_rne_sub_le (rq f64 (i * sincInc inc ρ) * 4096)
  have hq : |(k : ℚ) * rne (sincInc inc ρ * 4096) - rne (rq f64 (i * sincInc inc ρ) * 4096)| ≤ 4096 * N := by exact_mod_cast h
  have m0 : 1 / 256 ≤ min 1 ρ := le_min (by norm_num) hρ
  have m1 : min 1 ρ ≤ 1 := min_le_left _ _
  rw [min_comm] at hs1
  generalize min 1 ρ = m at *
  generalize sincInc inc ρ = s at *
  generalize rq f64 (i * s) = st at *
  generalize (rne (st * 4096) : ℚ) = b at *
  generalize (rne (s * 4096) : ℚ) = a at *
  have ha : 4096 * (inc * m) - 1 ≤ a := by
    rw [abs_le] at hs1 hn1; linarith
  have him : 1 / 2 ≤ inc * m := by nlinarith
  have ha0 : 0 < a := by linarith
  have key : |(k : ℚ) - i| * a ≤ 4096 * N + 2 := by
    rw [show |(k : ℚ) - i| * a = |((k : ℚ) - i) * a| by rw [abs_mul, abs_of_pos ha0]]
    have e : ((k : ℚ) - i) * a = (k * a - b) + ((b - st * 4096) + 4096 * (st - i * s) + i * (s * 4096 - a)) := by ring
    have t1 : |i * (s * 4096 - a)| ≤ 1 * (1 / 2) := by
      rw [abs_mul, abs_of_nonneg i0]
      exact mul_le_mul i1.le (by rw [abs_sub_comm]; exact hn1) (abs_nonneg _) (by norm_num)
    rw [e]
    rw [abs_le] at hq hn2 hr t1 ⊢
    constructor <;> linarith
  rw [lt_div_iff₀ (by linarith)]
  by_contra hc
  push Not at hc
  have e1 : (((N + 2 : ℤ) : ℚ) / inc + 1) * inc = N + 2 + inc := by push_cast; field_simp
  have hx := mul_le_mul_of_nonneg_right hc (show (0 : ℚ) ≤ inc by linarith)
  rw [e1] at hx
  have hx2 := mul_le_mul_of_nonneg_right hx ha0.le
  have hx3 : |(k : ℚ) - i| * m * inc * a ≤ (4096 * N + 2) * (m * inc) := by
    calc _ = |(k : ℚ) - i| * a * (m * inc) := by ring
      _ ≤ _ := mul_le_mul_of_nonneg_right key (by positivity)
  have n0 : (0 : ℚ) ≤ N := by exact_mod_cast (by have := G.n1; have := G.inc1; omega : 0 ≤ N)
  have hx4 : (N + 2 + inc) * (4096 * (inc * m) - 1) ≤ (N + 2 + inc) * a := mul_le_mul_of_nonneg_left ha (by linarith)
  nlinarith

theorem signal_near {t : CoeffTable} {B : ℤ} (G : Geom (t.count - 2) t.increment B) (hN : t.count - 2 ≤ 143 * t.increment) (h128 : 128 ≤ t.increment)
    {ρ : ℚ} (hρ : 1 / 256 ≤ ρ) {τ : ℚ} {D k : ℤ} (h : UnderFilter (t.count - 2) t.increment ρ (Int.fract τ) D k) :
    |((⌊τ⌋ + k : ℤ) : ℚ) - τ| < filterReach t ρ := by
  have := G.under_near hN h128 hρ (Int.fract_nonneg τ) (Int.fract_lt_one τ) h
  have fl := Int.floor_add_fract τ
  rw [show ((⌊τ⌋ + k : ℤ) : ℚ) - τ = k - Int.fract τ by push_cast; linarith]
  rwa [show t.count - 2 + 2 = t.count by ring] at this

theorem signal_within {x : ℕ → ℕ → F32} {c : ℕ} {u τ R : ℚ} (u0 : 0 ≤ u) (hx : Around x c τ R (Within u)) {z : ℤ} (hz : |(z : ℚ) - τ| < R) :
    (signal x z c).val = some (valOf (signal x z c)) ∧ |valOf (signal x z c)| ≤ u := by
  unfold signal
  split_ifs with h
  · rw [valOf_eq zero32_val]
    exact ⟨zero32_val, by simpa using u0⟩
  · obtain ⟨q, h1, h2⟩ := hx z.toNat (by
      have : ((z.toNat : ℕ) : ℤ) = z := Int.toNat_of_nonneg (by omega)
      have : ((z.toNat : ℕ) : ℚ) = z := by exact_mod_cast this
      rwa [this])
    rw [valOf_eq h1]
    exact ⟨h1, h2⟩

/-- One output sample of a table with coefficients of magnitude at most 1. -/
theorem ideal_near {t : CoeffTable} {B : ℤ} (G : Geom (t.count - 2) t.increment B) (hN : t.count - 2 ≤ 143 * t.increment) (h128 : 128 ≤ t.increment)
    (hW : ∀ i, 0 ≤ i → i < t.count → Within 1 (t.coeffs i)) {x : ℕ → ℕ → F32} {c : ℕ} {u : ℚ} (u0 : 0 ≤ u) (u1 : u ≤ 2 ^ 63)
    {D : ℤ} (hD : 0 ≤ D) {ρ : ℚ} (hρ : 1 / 256 ≤ ρ) {τ : ℚ} (hx : Around x c τ (filterReach t ρ) (Within u)) :
    ∃ y, (sincIdeal t x D ρ τ c).val = some y ∧ |y - exactIdeal t x D ρ τ c| ≤ u / 4096 + p2 (-148) ∧ |exactIdeal t x D ρ τ c| ≤ 600 * u + p2 (-200) := by
  set co : ℤ → F32 := fun i => if 0 ≤ i ∧ i < t.count then t.coeffs i else zero32 with hco
  set q : ℤ → ℚ := fun i => valOf (co i) with hq
  have z0 := zero32_val
  have hv : ∀ i, (co i).val = some (q i) ∧ |q i| ≤ 1 := by
    intro i
    simp only [hq, hco]
    split_ifs with h
    · obtain ⟨v, h1, h2⟩ := hW i h.1 h.2
      rw [valOf_eq h1]
      exact ⟨h1, h2⟩
    · rw [valOf_eq z0]
      exact ⟨z0, by norm_num⟩
  have hcc : ∀ i, 0 ≤ i → i ≤ (t.count - 2) + 1 → t.coeffs i = co i := fun i h1 h2 => by
    simp only [hco]; rw [if_pos ⟨h1, by omega⟩]
  have f0 := Int.fract_nonneg τ
  have f1 := Int.fract_lt_one τ
  have e1 : sincIdeal t x D ρ τ c = sincAt co (t.count - 2) t.increment ρ (Int.fract τ) D (fun z => signal x (⌊τ⌋ + z) c) :=
    G.at_congr hcc hρ f0 f1 hD _
  have e2 : exactIdeal t x D ρ τ c = exactAt q (t.count - 2) t.increment ρ (Int.fract τ) D (fun z => valOf (signal x (⌊τ⌋ + z) c)) :=
    G.exact_congr (fun i h1 h2 => by simp only [hq]; rw [hcc i h1 h2]) hρ f0 f1 hD _
  have hc := coeff_val (fun i => (hv i).1) (fun i => (hv i).2) (δ := 2) (by norm_num) le_rfl (fun i => by
    have h1 := (hv (i + 1)).2
    have h2 := (hv i).2
    have := abs_sub (q (i + 1)) (q i)
    refine lt_of_le_of_lt (this.trans (add_le_add h1 h2)) ?_
    norm_num [p2])
  obtain ⟨y, h1, h2, h3⟩ := G.near hN (ε := p2 (2 - 24)) (p2_pos _).le (by norm_num [p2]) (fun j => (hv j).2) hc hρ f0 f1 hD u0 u1
    (x := fun z => signal x (⌊τ⌋ + z) c) (ξ := fun z => valOf (signal x (⌊τ⌋ + z) c)) (fun k hk => signal_within u0 hx (signal_near G hN h128 hρ hk))
  rw [e1, e2]
  generalize exactAt q (t.count - 2) t.increment ρ (Int.fract τ) D (fun z => valOf (signal x (⌊τ⌋ + z) c)) = E at *
  refine ⟨y, h1, h2.trans ?_, h3⟩
  have a1 : p2 (-148) = 2 * p2 (-149) := by norm_num [p2]
  have a2 : p2 (-200) ≤ p2 (-149) := p2_le (by norm_num)
  have a3 := p2_pos (-149)
  have a4 : 601 * (p2 (2 - 24) + p2 (-33)) + 600 / 16777216 ≤ 1 / 4096 := by norm_num [p2]
  have a5 := mul_le_mul_of_nonneg_right a4 u0
  rw [a1]
  generalize p2 (-149) = s at *
  generalize p2 (-200) = w at *
  generalize p2 (2 - 24) + p2 (-33) = g at *
  linarith

/-- What the shipped tables provide: a bound `g` on the gain, and a bound `g1` for ratios from 1 on. -/
structure Good (t : CoeffTable) (g g1 : ℚ) : Prop where
  near : ∀ (x : ℕ → ℕ → F32) (c : ℕ) (u : ℚ), 0 ≤ u → u ≤ 2 ^ 63 → ∀ (D : ℤ), 0 ≤ D → ∀ ρ : ℚ, 1 / 256 ≤ ρ → ∀ τ : ℚ, Around x c τ (filterReach t ρ) (Within u) →
    ∃ y, (sincIdeal t x D ρ τ c).val = some y ∧
      |y - exactIdeal t x D ρ τ c| ≤ 601 * (p2 (-30) + p2 (-33)) * u + |exactIdeal t x D ρ τ c| / 16777216 + p2 (-149) ∧
      |exactIdeal t x D ρ τ c| ≤ g * u ∧ (1 ≤ ρ → |exactIdeal t x D ρ τ c| ≤ g1 * u)
  const : ∀ (x : ℕ → ℕ → F32) (c : ℕ) (w : F32) (D : ℤ), sincReach (t.count - 2) t.increment 1 ≤ D → ∀ ρ : ℚ, 1 ≤ ρ → ∀ τ : ℚ, filterReach t 1 ≤ τ →
    Around x c τ (filterReach t 1) (· = w) → |exactIdeal t x D ρ τ c - valOf w| ≤ |valOf w| / 250000

theorem good_of {rows : List (List ℤ)} {inc cnt : ℕ} {lo hi top : ℤ} {S V d M z : ℕ} (C : Coeffs.Checked rows inc cnt lo hi top S V d M z) {B : ℤ}
    (G : Geom ((cnt : ℤ) - 2) inc B) (hN : (cnt : ℤ) - 2 ≤ 143 * inc) (hM : M ≤ 95 * 10 ^ 25) (hd : d ≤ 10 ^ 25) (hz : z ≤ 13 * 10 ^ 19) {g g1 b b1 : ℚ}
    (hg : 2 * (4097 / 4096 * ((S / 10 ^ 27 + cnt * (1 / 30000000)) / inc) + (V / 10 ^ 27 + cnt * (1 / 15000000))) ≤ g) (h128 : 128 ≤ inc)
    (hb1 : (top : ℚ) ≤ b1 * 10 ^ 27) (hg1 : b1 + rows.length / 15000000 ≤ g1) (hlo : (1 - b) * 10 ^ 27 ≤ lo) (hhi : (hi : ℚ) ≤ (1 + b) * 10 ^ 27)
    (hb : b + rows.length / 15000000 + 1 / 3000000 ≤ 1 / 250000) :
    Good (Coeffs.ofRows inc cnt rows) g g1 := by
  have hv : ∀ i, valOf ((Coeffs.ofRows inc cnt rows).coeffs i) = Coeffs.tabQ rows.flatten i := fun i => valOf_eq (C.val hM i)
  have he : ∀ x D ρ τ c, exactIdeal (Coeffs.ofRows inc cnt rows) x D ρ τ c =
      exactAt (Coeffs.tabQ rows.flatten) ((cnt : ℤ) - 2) inc ρ (Int.fract τ) D (fun z => valOf (signal x (⌊τ⌋ + z) c)) := by
    intro x D ρ τ c
    unfold exactIdeal
    rw [funext hv]
    rfl
  have h128' : (128 : ℤ) ≤ inc := by exact_mod_cast h128
  refine ⟨fun x c u u0 u1 D hD ρ hρ τ hx => ?_, fun x c w D hD ρ hρ τ hτ hx => ?_⟩
  · have f0 := Int.fract_nonneg τ
    have f1 := Int.fract_lt_one τ
    have hs := fun (k : ℤ) hk => signal_within u0 hx (signal_near (t := Coeffs.ofRows inc cnt rows) G hN h128' hρ (D := D) (k := k) hk)
    obtain ⟨y, h1, h2, -⟩ := G.near hN (ε := p2 (-30)) (p2_pos _).le (by norm_num [p2]) (C.mag hM) (C.coeff hM hd) hρ f0 f1 hD u0 u1
      (x := fun z => signal x (⌊τ⌋ + z) c) (ξ := fun z => valOf (signal x (⌊τ⌋ + z) c)) hs
    rw [he]
    refine ⟨y, h1, h2, C.gain_all G hM hg h128 hρ f0 f1 hD (fun k hk => (hs k hk).2), fun hρ' => ?_⟩
    refine (C.gain_up G hM hb1 hρ' f0 f1 hD (fun k hk => (hs k hk).2)).trans ?_
    gcongr
  · have f0 := Int.fract_nonneg τ
    have f1 := Int.fract_lt_one τ
    rw [he]
    refine (C.const_up G hM hz hlo hhi hρ f0 f1 hD (v := valOf w) (fun k hk => ?_)).trans ?_
    · have a := signal_near (t := Coeffs.ofRows inc cnt rows) G hN h128' (by linarith) hk
      rw [show filterReach (Coeffs.ofRows inc cnt rows) ρ = filterReach (Coeffs.ofRows inc cnt rows) 1 by
        unfold filterReach; rw [min_eq_left hρ, min_self]] at a
      have h0 : 0 ≤ ⌊τ⌋ + k := by
        have a := a
        rw [_root_.abs_lt] at a
        have : (0 : ℚ) < ((⌊τ⌋ + k : ℤ) : ℚ) := by linarith
        exact_mod_cast this.le
      unfold signal
      rw [if_neg (by omega), hx]
      have : (((⌊τ⌋ + k).toNat : ℕ) : ℚ) = ((⌊τ⌋ + k : ℤ) : ℚ) := by
        have : (((⌊τ⌋ + k).toNat : ℕ) : ℤ) = ⌊τ⌋ + k := Int.toNat_of_nonneg h0
        exact_mod_cast this
      rwa [this]
    · have := mul_le_mul_of_nonneg_right hb (abs_nonneg (valOf w))
      linarith

theorem fastest_good : Good Fastest.table (53 / 10) (18875 / 10000) := by
  obtain ⟨B, G, -⟩ := table_geom (t := Fastest.table) (Or.inl ⟨rfl, rfl⟩)
  exact good_of Fastest.checked G (by norm_num) (by norm_num) (by norm_num) (by norm_num) (b := 19 / 10 ^ 7) (b1 := 18871 / 10000) (by norm_num) (by norm_num)
    (by norm_num) (by rw [show Fastest.rows.length = 20 by decide +kernel]; norm_num) (by norm_num) (by norm_num)
    (by rw [show Fastest.rows.length = 20 by decide +kernel]; norm_num)

theorem mid_good : Good MidQual.table (702 / 100) (2364 / 1000) := by
  obtain ⟨B, G, -⟩ := table_geom (t := MidQual.table) (Or.inr (Or.inl ⟨rfl, rfl⟩))
  exact good_of MidQual.checked G (by norm_num) (by norm_num) (by norm_num) (by norm_num) (b := 1 / 10 ^ 7) (b1 := 2363 / 1000) (by norm_num) (by norm_num)
    (by norm_num) (by rw [show MidQual.rows.length = 46 by decide +kernel]; norm_num) (by norm_num) (by norm_num)
    (by rw [show MidQual.rows.length = 46 by decide +kernel]; norm_num)

theorem around_mono {x : ℕ → ℕ → F32} {c : ℕ} {τ R R' : ℚ} {P : F32 → Prop} (h : Around x c τ R P) (hR : R' ≤ R) : Around x c τ R' P :=
  fun k hk => h k (lt_of_lt_of_le hk hR)

/-- A sample of a frame of the output is a sample of the filter. -/
theorem sample_of {t : CoeffTable} {x : ℕ → ℕ → F32} {ch : ℕ} {D : ℕ → ℤ} {ρ τ : ℕ → ℚ} {l : List (List F32)} {n : ℕ}
    (hl : l = (List.range n).map (fun j => frameOf ch (sincIdeal t x (D j) (ρ j) (τ j)))) {j c : ℕ} {f : List F32} {s : F32}
    (hf : l[j]? = some f) (hs : f[c]? = some s) : j < n ∧ c < ch ∧ s = sincIdeal t x (D j) (ρ j) (τ j) c := by
  obtain ⟨hj, rfl⟩ := getElem?_of_map hl hf
  obtain ⟨hc, rfl⟩ := getElem?_of_map rfl hs
  exact ⟨hj, hc, rfl⟩

theorem reach_nonneg {t : CoeffTable} (hd : (t.increment = 128 ∧ t.count = 2464) ∨ (t.increment = 491 ∧ t.count = 22438) ∨
    (t.increment = 2381 ∧ t.count = 340239)) : 0 ≤ sincReach (t.count - 2) t.increment 1 := by
  obtain ⟨B, G, -⟩ := table_geom hd
  have := G.reach_ge (r := 1) (by norm_num)
  have := G.inc1
  have := G.n1
  omega

/-- C51, for every build with coefficients of magnitude at most 1: every output sample is finite and differs from the exact filter sum, at the time
and the ratio of this frame, by at most `u / 4096` (and `2^-148`), if the input samples within reach of the filter are finite and of magnitude at most
`u ≤ 2^63`.  Samples elsewhere may be anything. -/
theorem C51 (cfg : Config) (hL : LibraryTables cfg) (hW : TablesWithin cfg) (type : ℤ) (ht : SincType type) (ch : ℕ) (e : ℤ) (st st1 : SrcState)
    (h : srcNew cfg type ch = .ok (e, some st)) (x : ℕ → ℕ → F32) (len : Option ℕ) (hx : EndsAt x len) (ops : List Op) (os : List Obs) (V : ℕ)
    (hS : ∀ op ∈ ops, SizedOp ch op) (hr : run ops st = .ok (os, st1)) (hF : FedTo x ch len 0 ops os V) :
    ∃ (t : CoeffTable) (ρ : ℕ → ℚ) (D : ℕ → ℤ), cfg.table type = some t ∧
      (∀ j < (outputs ch os).length, 1 / 256 ≤ ρ j ∧ ρ j ≤ 256 ∧ sincReach (t.count - 2) t.increment 1 ≤ D j ∧ (1 ≤ ρ j ∨ SincUse 0 ch (.rising 0) ops → D j = allHistory t)) ∧
      (∀ a b, (∀ op ∈ ops, RatioIn a b op) → ∀ j < (outputs ch os).length, a ≤ ρ j ∧ ρ j ≤ b) ∧
      ratiosFrom sincRatioAt ch 0 ops os = (List.range (outputs ch os).length).map ρ ∧
      ∀ j f c s u, (outputs ch os)[j]? = some f → f[c]? = some s → 0 ≤ u → u ≤ 2 ^ 63 →
        Around x c (timeAt ρ j) (filterReach t (ρ j)) (Within u) →
        ∃ y, s.val = some y ∧ |y - exactIdeal t x (D j) (ρ j) (timeAt ρ j) c| ≤ u / 4096 + 1 / 2 ^ 148 := by
  obtain ⟨t, ρ, D, hT, h1, h2, hR, h3, -⟩ := C24_sinc cfg hL type ht ch e st st1 h x len hx ops os V hS hr hF
  refine ⟨t, ρ, D, hT, h1, h2, hR, fun j f c s u hf hs u0 u1 hu => ?_⟩
  obtain ⟨hj, hc, rfl⟩ := sample_of h3 hf hs
  obtain ⟨t', hT', hd⟩ := sinc_table hL ht h
  rw [hT] at hT'
  cases hT'
  obtain ⟨B, G, -⟩ := table_geom hd
  have hD : 0 ≤ D j := by have := reach_nonneg hd; have := (h1 j hj).2.2.1; omega
  obtain ⟨y, a1, a2, -⟩ := ideal_near G (by omega) (by omega) (table_within hW hT) u0 u1 hD (h1 j hj).1 hu
  exact ⟨y, a1, by rwa [show p2 (-148) = 1 / 2 ^ 148 by norm_num [p2]] at a2⟩

/-- The table of the fast or the medium converter. -/
theorem shipped_good {cfg : Config} (hP : ShippedTables cfg) {type : ℤ} {t : CoeffTable} (hT : cfg.table type = some t) :
    (type = SRC_SINC_FASTEST → t = Fastest.table) ∧ (type = SRC_SINC_MEDIUM_QUALITY → t = MidQual.table) := by
  constructor <;> rintro rfl
  · exact hP.fast t (by simpa [Config.table, SRC_SINC_FASTEST, SRC_SINC_MEDIUM_QUALITY, SRC_SINC_BEST_QUALITY] using hT)
  · exact hP.mid t (by simpa [Config.table, SRC_SINC_FASTEST, SRC_SINC_MEDIUM_QUALITY, SRC_SINC_BEST_QUALITY] using hT)

/-- C51 with the tables of the repository: the difference is at most `2^-19 u` (and `2^-148`). -/
theorem C51_shipped (cfg : Config) (hL : LibraryTables cfg) (hP : ShippedTables cfg) (type : ℤ) (ht : type = SRC_SINC_FASTEST ∨ type = SRC_SINC_MEDIUM_QUALITY)
    (ch : ℕ) (e : ℤ) (st st1 : SrcState)
    (h : srcNew cfg type ch = .ok (e, some st)) (x : ℕ → ℕ → F32) (len : Option ℕ) (hx : EndsAt x len) (ops : List Op) (os : List Obs) (V : ℕ)
    (hS : ∀ op ∈ ops, SizedOp ch op) (hr : run ops st = .ok (os, st1)) (hF : FedTo x ch len 0 ops os V) :
    ∃ (t : CoeffTable) (ρ : ℕ → ℚ) (D : ℕ → ℤ), cfg.table type = some t ∧
      (∀ j < (outputs ch os).length, 1 / 256 ≤ ρ j ∧ ρ j ≤ 256 ∧ sincReach (t.count - 2) t.increment 1 ≤ D j ∧ (1 ≤ ρ j ∨ SincUse 0 ch (.rising 0) ops → D j = allHistory t)) ∧
      (∀ a b, (∀ op ∈ ops, RatioIn a b op) → ∀ j < (outputs ch os).length, a ≤ ρ j ∧ ρ j ≤ b) ∧
      ratiosFrom sincRatioAt ch 0 ops os = (List.range (outputs ch os).length).map ρ ∧
      ∀ j f c s u, (outputs ch os)[j]? = some f → f[c]? = some s → 0 ≤ u → u ≤ 2 ^ 63 →
        Around x c (timeAt ρ j) (filterReach t (ρ j)) (Within u) →
        ∃ y, s.val = some y ∧ |y - exactIdeal t x (D j) (ρ j) (timeAt ρ j) c| ≤ u / 2 ^ 19 + 1 / 2 ^ 148 := by
  have ht' : SincType type := by rcases ht with rfl | rfl; exacts [Or.inr (Or.inr rfl), Or.inr (Or.inl rfl)]
  obtain ⟨t, ρ, D, hT, h1, h2, hR, h3, -⟩ := C24_sinc cfg hL type ht' ch e st st1 h x len hx ops os V hS hr hF
  refine ⟨t, ρ, D, hT, h1, h2, hR, fun j f c s u hf hs u0 u1 hu => ?_⟩
  obtain ⟨hj, hc, rfl⟩ := sample_of h3 hf hs
  obtain ⟨t', hT', hd⟩ := sinc_table hL ht' h
  rw [hT] at hT'
  cases hT'
  have hD : 0 ≤ D j := by have := reach_nonneg hd; have := (h1 j hj).2.2.1; omega
  obtain ⟨g, g1, hG, hg⟩ : ∃ g g1, Good t g g1 ∧ g ≤ 8 := by
    obtain ⟨hA, hB⟩ := shipped_good hP hT
    rcases ht with ht | ht
    · rw [hA ht]; exact ⟨_, _, fastest_good, by norm_num⟩
    · rw [hB ht]; exact ⟨_, _, mid_good, by norm_num⟩
  obtain ⟨y, a1, a2, a3, -⟩ := hG.near x c u u0 u1 _ hD _ (h1 j hj).1 _ hu
  refine ⟨y, a1, a2.trans ?_⟩
  have a4 : 601 * (p2 (-30) + p2 (-33)) + 8 / 16777216 ≤ 1 / 2 ^ 19 := by norm_num [p2]
  have a5 := mul_le_mul_of_nonneg_right a4 u0
  have a6 := mul_le_mul_of_nonneg_right hg u0
  have a7 : p2 (-149) ≤ 1 / 2 ^ 148 := by norm_num [p2]
  generalize p2 (-149) = q at *
  generalize p2 (-30) + p2 (-33) = r at *
  linarith

/-- The gain of one of the two converters. -/
theorem gain_of (cfg : Config) (hL : LibraryTables cfg) (type : ℤ) (ht : SincType type) (ch : ℕ) (e : ℤ) (st st1 : SrcState)
    (h : srcNew cfg type ch = .ok (e, some st)) (x : ℕ → ℕ → F32) (len : Option ℕ) (hx : EndsAt x len) (ops : List Op) (os : List Obs) (V : ℕ)
    (hS : ∀ op ∈ ops, SizedOp ch op) (hr : run ops st = .ok (os, st1)) (hF : FedTo x ch len 0 ops os V)
    {g g1 g' g1' : ℚ} {R : ℚ} {t : CoeffTable} (hT : cfg.table type = some t) (hG : Good t g g1) (hg : 601 * (p2 (-30) + p2 (-33)) + g + g / 16777216 ≤ g')
    (hg1 : 601 * (p2 (-30) + p2 (-33)) + g1 + g1 / 16777216 ≤ g1') (hR : filterReach t 1 ≤ R) :
    ∃ ρ : ℕ → ℚ, (∀ j < (outputs ch os).length, 1 / 256 ≤ ρ j ∧ ρ j ≤ 256) ∧
      (∀ a b, (∀ op ∈ ops, RatioIn a b op) → ∀ j < (outputs ch os).length, a ≤ ρ j ∧ ρ j ≤ b) ∧
      ratiosFrom sincRatioAt ch 0 ops os = (List.range (outputs ch os).length).map ρ ∧
      ∀ j f c s u, (outputs ch os)[j]? = some f → f[c]? = some s → 0 ≤ u → u ≤ 2 ^ 63 → Around x c (timeAt ρ j) (R / min 1 (ρ j)) (Within u) →
        Within (g' * u + 1 / 2 ^ 148) s ∧ (1 ≤ ρ j → Within (g1' * u + 1 / 2 ^ 148) s) := by
  obtain ⟨t', ρ, D, hT', h1, h2, hR', h3, -⟩ := C24_sinc cfg hL type ht ch e st st1 h x len hx ops os V hS hr hF
  rw [hT] at hT'
  cases hT'
  refine ⟨ρ, fun j hj => ⟨(h1 j hj).1, (h1 j hj).2.1⟩, h2, hR', fun j f c s u hf hs u0 u1 hu => ?_⟩
  obtain ⟨hj, hc, rfl⟩ := sample_of h3 hf hs
  obtain ⟨t', hT', hd⟩ := sinc_table hL ht h
  rw [hT] at hT'
  cases hT'
  have hD : 0 ≤ D j := by have := reach_nonneg hd; have := (h1 j hj).2.2.1; omega
  have hm : 0 < min 1 (ρ j) := lt_min (by norm_num) (by have := (h1 j hj).1; linarith)
  have hu' := around_mono hu (R' := filterReach t (ρ j)) (by
    unfold filterReach at hR ⊢
    rw [min_self, div_one] at hR
    gcongr)
  obtain ⟨y, a1, a2, a3, a4⟩ := hG.near x c u u0 u1 _ hD _ (h1 j hj).1 _ hu'
  have a7 : p2 (-149) ≤ 1 / 2 ^ 148 := by norm_num [p2]
  have key : ∀ G G' : ℚ, 601 * (p2 (-30) + p2 (-33)) + G + G / 16777216 ≤ G' → |exactIdeal t x (D j) (ρ j) (timeAt ρ j) c| ≤ G * u → |y| ≤ G' * u + 1 / 2 ^ 148 := by
    intro G G' hG hE
    have a5 := mul_le_mul_of_nonneg_right hG u0
    have a6 := abs_sub_abs_le_abs_sub y (exactIdeal t x (D j) (ρ j) (timeAt ρ j) c)
    generalize p2 (-149) = q at *
    generalize p2 (-30) + p2 (-33) = r at *
    generalize (1 : ℚ) / 2 ^ 148 = w at *
    linarith
  exact ⟨⟨y, a1, key g g' hg a3⟩, fun hρ => ⟨y, a1, key g1 g1' hg1 (a4 hρ)⟩⟩

theorem fastest_reach : filterReach Fastest.table 1 ≤ 21 := by
  unfold filterReach
  rw [show Fastest.table.count = 2464 from rfl, show Fastest.table.increment = 128 from rfl]
  norm_num

theorem mid_reach : filterReach MidQual.table 1 ≤ 47 := by
  unfold filterReach
  rw [show MidQual.table.count = 22438 from rfl, show MidQual.table.increment = 491 from rfl]
  norm_num

/-- C52, fast converter: if the input samples less than 21 frames from the output position (less than `21 / ρ` for ratios `ρ < 1`) are finite and
of magnitude at most `u`, the output sample is finite and of magnitude at most `5.4 u`, and at ratios `ρ ≥ 1` at most `1.9 u` (and `2^-148`). -/
theorem C52_fastest (cfg : Config) (hL : LibraryTables cfg) (hP : ShippedTables cfg) (ch : ℕ) (e : ℤ) (st st1 : SrcState)
    (h : srcNew cfg SRC_SINC_FASTEST ch = .ok (e, some st)) (x : ℕ → ℕ → F32) (len : Option ℕ) (hx : EndsAt x len) (ops : List Op) (os : List Obs) (V : ℕ)
    (hS : ∀ op ∈ ops, SizedOp ch op) (hr : run ops st = .ok (os, st1)) (hF : FedTo x ch len 0 ops os V) :
    ∃ ρ : ℕ → ℚ, (∀ j < (outputs ch os).length, 1 / 256 ≤ ρ j ∧ ρ j ≤ 256) ∧
      (∀ a b, (∀ op ∈ ops, RatioIn a b op) → ∀ j < (outputs ch os).length, a ≤ ρ j ∧ ρ j ≤ b) ∧
      ratiosFrom sincRatioAt ch 0 ops os = (List.range (outputs ch os).length).map ρ ∧
      ∀ j f c s u, (outputs ch os)[j]? = some f → f[c]? = some s → 0 ≤ u → u ≤ 2 ^ 63 → Around x c (timeAt ρ j) (21 / min 1 (ρ j)) (Within u) →
        Within (54 / 10 * u + 1 / 2 ^ 148) s ∧ (1 ≤ ρ j → Within (19 / 10 * u + 1 / 2 ^ 148) s) := by
  have ht : SincType SRC_SINC_FASTEST := Or.inr (Or.inr rfl)
  obtain ⟨t, hT, -⟩ := sinc_table hL ht h
  have := (shipped_good hP hT).1 rfl
  subst this
  exact gain_of cfg hL _ ht ch e st st1 h x len hx ops os V hS hr hF hT fastest_good (by norm_num [p2]) (by norm_num [p2]) fastest_reach

/-- C52, medium converter: 47 frames, `7.1 u`, and `2.4 u` at ratios `ρ ≥ 1`. -/
theorem C52_medium (cfg : Config) (hL : LibraryTables cfg) (hP : ShippedTables cfg) (ch : ℕ) (e : ℤ) (st st1 : SrcState)
    (h : srcNew cfg SRC_SINC_MEDIUM_QUALITY ch = .ok (e, some st)) (x : ℕ → ℕ → F32) (len : Option ℕ) (hx : EndsAt x len) (ops : List Op) (os : List Obs) (V : ℕ)
    (hS : ∀ op ∈ ops, SizedOp ch op) (hr : run ops st = .ok (os, st1)) (hF : FedTo x ch len 0 ops os V) :
    ∃ ρ : ℕ → ℚ, (∀ j < (outputs ch os).length, 1 / 256 ≤ ρ j ∧ ρ j ≤ 256) ∧
      (∀ a b, (∀ op ∈ ops, RatioIn a b op) → ∀ j < (outputs ch os).length, a ≤ ρ j ∧ ρ j ≤ b) ∧
      ratiosFrom sincRatioAt ch 0 ops os = (List.range (outputs ch os).length).map ρ ∧
      ∀ j f c s u, (outputs ch os)[j]? = some f → f[c]? = some s → 0 ≤ u → u ≤ 2 ^ 63 → Around x c (timeAt ρ j) (47 / min 1 (ρ j)) (Within u) →
        Within (71 / 10 * u + 1 / 2 ^ 148) s ∧ (1 ≤ ρ j → Within (24 / 10 * u + 1 / 2 ^ 148) s) := by
  have ht : SincType SRC_SINC_MEDIUM_QUALITY := Or.inr (Or.inl rfl)
  obtain ⟨t, hT, -⟩ := sinc_table hL ht h
  have := (shipped_good hP hT).2 rfl
  subst this
  exact gain_of cfg hL _ ht ch e st st1 h x len hx ops os V hS hr hF hT mid_good (by norm_num [p2]) (by norm_num [p2]) mid_reach

theorem const_of (cfg : Config) (hL : LibraryTables cfg) (type : ℤ) (ht : SincType type) (ch : ℕ) (e : ℤ) (st st1 : SrcState)
    (h : srcNew cfg type ch = .ok (e, some st)) (x : ℕ → ℕ → F32) (len : Option ℕ) (hx : EndsAt x len) (ops : List Op) (os : List Obs) (V : ℕ)
    (hS : ∀ op ∈ ops, SizedOp ch op) (hr : run ops st = .ok (os, st1)) (hF : FedTo x ch len 0 ops os V)
    {g g1 : ℚ} {R : ℚ} {t : CoeffTable} (hT : cfg.table type = some t) (hG : Good t g g1) (hg : g ≤ 8) (hR : filterReach t 1 ≤ R) :
    ∃ ρ : ℕ → ℚ, (∀ j < (outputs ch os).length, 1 / 256 ≤ ρ j ∧ ρ j ≤ 256) ∧
      (∀ a b, (∀ op ∈ ops, RatioIn a b op) → ∀ j < (outputs ch os).length, a ≤ ρ j ∧ ρ j ≤ b) ∧
      ratiosFrom sincRatioAt ch 0 ops os = (List.range (outputs ch os).length).map ρ ∧
      ∀ j f c s w v, (outputs ch os)[j]? = some f → f[c]? = some s → 1 ≤ ρ j → R ≤ timeAt ρ j → w.val = some v → |v| ≤ 2 ^ 63 →
        Around x c (timeAt ρ j) R (· = w) → ∃ y, s.val = some y ∧ |y - v| ≤ |v| / 200000 + 1 / 2 ^ 148 := by
  obtain ⟨t', ρ, D, hT', h1, h2, hR', h3, -⟩ := C24_sinc cfg hL type ht ch e st st1 h x len hx ops os V hS hr hF
  rw [hT] at hT'
  cases hT'
  refine ⟨ρ, fun j hj => ⟨(h1 j hj).1, (h1 j hj).2.1⟩, h2, hR', fun j f c s w v hf hs hρ hτ hw hv hu => ?_⟩
  obtain ⟨hj, hc, rfl⟩ := sample_of h3 hf hs
  obtain ⟨t', hT', hd⟩ := sinc_table hL ht h
  rw [hT] at hT'
  cases hT'
  have hD : 0 ≤ D j := by have := reach_nonneg hd; have := (h1 j hj).2.2.1; omega
  have hu' := around_mono hu hR
  have hu2 : Around x c (timeAt ρ j) (filterReach t (ρ j)) (Within |v|) := by
    rw [show filterReach t (ρ j) = filterReach t 1 by unfold filterReach; rw [min_eq_left hρ, min_self]]
    intro k hk
    rw [hu' k hk]
    exact ⟨v, hw, le_rfl⟩
  obtain ⟨y, a1, a2, a3, -⟩ := hG.near x c |v| (abs_nonneg _) hv _ hD _ (h1 j hj).1 _ hu2
  have a4 := hG.const x c w (D j) (h1 j hj).2.2.1 (ρ j) hρ _ (hR.trans hτ) hu'
  rw [valOf_eq hw] at a4
  refine ⟨y, a1, ?_⟩
  have a5 : 601 * (p2 (-30) + p2 (-33)) + 2 / 16777216 ≤ 1 / 1000000 := by norm_num [p2]
  have a6 := mul_le_mul_of_nonneg_right a5 (abs_nonneg v)
  have a7 : p2 (-149) ≤ 1 / 2 ^ 148 := by norm_num [p2]
  have a8 := abs_sub_abs_le_abs_sub (exactIdeal t x (D j) (ρ j) (timeAt ρ j) c) v
  have a9 := abs_sub_le y (exactIdeal t x (D j) (ρ j) (timeAt ρ j) c) v
  have a10 := abs_nonneg v
  generalize p2 (-149) = q at *
  generalize p2 (-30) + p2 (-33) = r at *
  generalize (1 : ℚ) / 2 ^ 148 = w at *
  linarith

/-- C53, fast converter: an output frame at a time `τ ≥ 21` and a ratio of at least 1, of a channel whose input samples less than 21 frames from `τ` all have the
value `v`, has the value `v`, up to `|v| / 200000` (and `2^-148`). -/
theorem C53_fastest (cfg : Config) (hL : LibraryTables cfg) (hP : ShippedTables cfg) (ch : ℕ) (e : ℤ) (st st1 : SrcState)
    (h : srcNew cfg SRC_SINC_FASTEST ch = .ok (e, some st)) (x : ℕ → ℕ → F32) (len : Option ℕ) (hx : EndsAt x len) (ops : List Op) (os : List Obs) (V : ℕ)
    (hS : ∀ op ∈ ops, SizedOp ch op) (hr : run ops st = .ok (os, st1)) (hF : FedTo x ch len 0 ops os V) :
    ∃ ρ : ℕ → ℚ, (∀ j < (outputs ch os).length, 1 / 256 ≤ ρ j ∧ ρ j ≤ 256) ∧
      (∀ a b, (∀ op ∈ ops, RatioIn a b op) → ∀ j < (outputs ch os).length, a ≤ ρ j ∧ ρ j ≤ b) ∧
      ratiosFrom sincRatioAt ch 0 ops os = (List.range (outputs ch os).length).map ρ ∧
      ∀ j f c s w v, (outputs ch os)[j]? = some f → f[c]? = some s → 1 ≤ ρ j → 21 ≤ timeAt ρ j → w.val = some v → |v| ≤ 2 ^ 63 →
        Around x c (timeAt ρ j) 21 (· = w) → ∃ y, s.val = some y ∧ |y - v| ≤ |v| / 200000 + 1 / 2 ^ 148 := by
  have ht : SincType SRC_SINC_FASTEST := Or.inr (Or.inr rfl)
  obtain ⟨t, hT, -⟩ := sinc_table hL ht h
  have := (shipped_good hP hT).1 rfl
  subst this
  exact const_of cfg hL _ ht ch e st st1 h x len hx ops os V hS hr hF hT fastest_good (by norm_num) fastest_reach

/-- C53, medium converter: the same with 47 frames. -/
theorem C53_medium (cfg : Config) (hL : LibraryTables cfg) (hP : ShippedTables cfg) (ch : ℕ) (e : ℤ) (st st1 : SrcState)
    (h : srcNew cfg SRC_SINC_MEDIUM_QUALITY ch = .ok (e, some st)) (x : ℕ → ℕ → F32) (len : Option ℕ) (hx : EndsAt x len) (ops : List Op) (os : List Obs) (V : ℕ)
    (hS : ∀ op ∈ ops, SizedOp ch op) (hr : run ops st = .ok (os, st1)) (hF : FedTo x ch len 0 ops os V) :
    ∃ ρ : ℕ → ℚ, (∀ j < (outputs ch os).length, 1 / 256 ≤ ρ j ∧ ρ j ≤ 256) ∧
      (∀ a b, (∀ op ∈ ops, RatioIn a b op) → ∀ j < (outputs ch os).length, a ≤ ρ j ∧ ρ j ≤ b) ∧
      ratiosFrom sincRatioAt ch 0 ops os = (List.range (outputs ch os).length).map ρ ∧
      ∀ j f c s w v, (outputs ch os)[j]? = some f → f[c]? = some s → 1 ≤ ρ j → 47 ≤ timeAt ρ j → w.val = some v → |v| ≤ 2 ^ 63 →
        Around x c (timeAt ρ j) 47 (· = w) → ∃ y, s.val = some y ∧ |y - v| ≤ |v| / 200000 + 1 / 2 ^ 148 := by
  have ht : SincType SRC_SINC_MEDIUM_QUALITY := Or.inr (Or.inl rfl)
  obtain ⟨t, hT, -⟩ := sinc_table hL ht h
  have := (shipped_good hP hT).2 rfl
  subst this
  exact const_of cfg hL _ ht ch e st st1 h x len hx ops os V hS hr hF hT mid_good (by norm_num) mid_reach

/-- A build with the two tables of the repository. -/
def libCfg : Config := { fast := some Fastest.table, mid := some MidQual.table, best := none }

theorem libCfg_tables : LibraryTables libCfg :=
  ⟨(fun t h => by cases h; exact ⟨rfl, rfl⟩), (fun t h => by cases h; exact ⟨rfl, rfl⟩), (fun t h => by cases h)⟩

theorem libCfg_shipped : ShippedTables libCfg := ⟨fun t h => by cases h; rfl, fun t h => by cases h; rfl⟩

theorem libCfg_within : TablesWithin libCfg := by
  rintro t (ht | ht | ht) i _ _
  · cases ht
    exact ⟨_, Fastest.checked.val (by norm_num) i, Fastest.checked.mag (by norm_num) i⟩
  · cases ht
    exact ⟨_, MidQual.checked.val (by norm_num) i, MidQual.checked.mag (by norm_num) i⟩
  · cases ht

/-- Hundred frames of ones. -/
def ones (k _c : ℕ) : F32 := if k < 100 then Fl.ofInt f32 1 else zero32

/-- The hypotheses of C51, C52 and C53 are met by a call with hundred frames of ones, and by C53 output frame 50 of this call is one, up to 1/100000. -/
example : ∃ (st st1 : SrcState) (os : List Obs) (f : List F32) (s : F32) (y : ℚ), srcNew libCfg SRC_SINC_FASTEST (2 : ℕ) = .ok (0, some st) ∧
    run [.process (fun _ => Fl.ofInt f32 1) (some sincCall)] st = .ok (os, st1) ∧ FedTo ones 2 (some 100) 0 [.process (fun _ => Fl.ofInt f32 1) (some sincCall)] os 100 ∧
    (outputs 2 os)[50]? = some f ∧ f[1]? = some s ∧ s.val = some y ∧ |y - 1| ≤ 1 / 100000 := by
  obtain ⟨st, o, st1, d', h1, h2, h3, h4, h5, -, h7⟩ := sinc_one_call_of libCfg_tables (t := Fastest.table)
    (by simp [Config.table, libCfg, SRC_SINC_FASTEST, SRC_SINC_MEDIUM_QUALITY, SRC_SINC_BEST_QUALITY])
  have hr : run [.process (fun _ => zero32) (some sincCall)] st = .ok ([o], st1) := by
    simp only [run, h2]; rfl
  obtain ⟨os', st1', hr', hs⟩ := C17 libCfg st (.new _ _ _ _ h1) _ [.process (fun _ => Fl.ofInt f32 1) (some sincCall)] (.cons (.process _ _ _) .nil) _ _ hr
  cases hs with
  | cons hs hnil =>
  rename_i o' l
  cases hnil
  have hret : o'.ret = 0 := by rw [hs.ret]; exact h3
  have hdat : o'.data = some d' := by rw [hs.data]; exact h4
  have hF : FedTo ones 2 (some 100) 0 [.process (fun _ => Fl.ofInt f32 1) (some sincCall)] [o'] 100 := by
    have := FedTo.call 0 100 (fun _ => Fl.ofInt f32 1) sincCall d' o' [] [] (x := ones) (ch := 2) (len := some 100) (fun k c hk _ => by
      have : k < 100 := by exact_mod_cast (show (k : ℤ) < 100 from hk)
      simp [ones, this]) (fun _ => rfl) hret hdat (by rw [h5]; exact .nil _)
    exact this
  have hS : ∀ op ∈ [Op.process (fun _ => Fl.ofInt f32 1) (some sincCall)], SizedOp (2 : ℕ) op := by
    intro op hop
    rw [List.mem_singleton.1 hop]
    exact sincCall_sized
  have hx : EndsAt ones (some 100) := by
    intro n hn k hk c
    cases hn
    simp [ones, hk]
  obtain ⟨ρ, -, r2, -, r3⟩ := C53_fastest libCfg libCfg_tables libCfg_shipped 2 _ st _ h1 ones _ hx _ _ _ hS hr' hF
  have hlen : 98 ≤ (outputs 2 [o']).length := by
    simp only [run] at hr'
    obtain ⟨⟨o1, s1⟩, r1, hr'⟩ := bind_ok hr'
    obtain ⟨⟨o2, s2⟩, -, hr'⟩ := bind_ok hr'
    have hr' := ok_inj hr'
    simp only [Prod.mk.injEq, List.cons.injEq] at hr'
    obtain ⟨⟨rfl, _⟩, rfl⟩ := hr'
    simp only [Op.run] at r1
    obtain ⟨⟨e, m', st', d1⟩, -, r1⟩ := bind_ok r1
    have r1 := ok_inj r1
    simp only [Prod.mk.injEq] at r1
    obtain ⟨rfl, -⟩ := r1
    have hdat : d1 = some d' := hdat
    subst hdat
    simp [outputs, outOf]
    omega
  have hr1 : ∀ j < (outputs 2 [o']).length, ρ j = 1 := fun j hj => by
    obtain ⟨a, b⟩ := r2 1 1 (by
      intro op hop
      rw [List.mem_singleton.1 hop]
      intro r hr
      have h1 : sincCall.srcRatio.val = some 1 := one64_val
      rw [h1] at hr
      cases hr
      norm_num) j hj
    exact le_antisymm b a
  have hτ : timeAt ρ 50 = 50 := by
    have : ∀ j ≤ 50, posAt ⟨0, 0⟩ ρ j = ⟨j, 0⟩ := by
      intro j
      induction j with
      | zero => intro _; rfl
      | succ j ih =>
        intro hj
        rw [← posAt_one (j + 1)]
        simp only [posAt]
        rw [ih (by omega), posAt_one, hr1 j (by omega)]
    simp [timeAt, this 50 le_rfl]
  obtain ⟨f, ho⟩ : ∃ f, (outputs 2 [o'])[50]? = some f := ⟨_, List.getElem?_eq_getElem (by omega)⟩
  have hf1 : f.length = 2 := by
    have hm := List.mem_of_getElem? ho
    simp only [outputs, List.mem_flatMap, List.mem_singleton] at hm
    obtain ⟨_, rfl, hm⟩ := hm
    unfold outOf at hm
    split at hm
    · obtain ⟨_, _, rfl⟩ := List.mem_map.1 hm
      simp [frameOf]
    · cases hm
  obtain ⟨s, hs1⟩ : ∃ s, f[1]? = some s := ⟨_, List.getElem?_eq_getElem (by rw [hf1]; norm_num)⟩
  have one : (Fl.ofInt f32 1).val = some 1 := by simpa using Fl.val_ofInt (f := f32) (n := 1) (by norm_num [f32])
  obtain ⟨y, hy, hy1⟩ := r3 50 _ 1 s (Fl.ofInt f32 1) 1 ho hs1 (hr1 50 (by omega)).ge (by rw [hτ]; norm_num) one (by norm_num) (by
    intro k hk
    rw [hτ, abs_lt] at hk
    have : (k : ℚ) < 100 := by linarith [hk.2]
    have : k < 100 := by exact_mod_cast this
    simp [ones, this])
  refine ⟨st, st1', _, _, s, y, h1, hr', hF, ho, hs1, hy, hy1.trans ?_⟩
  norm_num

end Verif
