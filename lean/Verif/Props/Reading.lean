import Verif.Props.Callback
import Verif.Props.Endless
import Verif.Props.Recording

/-! Signals read through the callback API (C69). -/

namespace Verif
open Spec

section
variable {cfg : Config} {func : Option ℕ} {type e : ℤ} {ch ud : ℕ} {st st1 : SrcState} {x : ℕ → ℕ → F32} {cnt addr : ℕ → ℤ} {r : ℚ} {ops : List Op} {os : List Obs}

/-- The frames read at a constant ratio, sinc. -/
theorem pulled_sinc (hL : LibraryTables cfg) (ht : SincType type) (hc : ch ≤ 8355967) (h : srcCallbackNew cfg func type ch ud = .ok (e, some st))
    (hcnt : ∀ i, samples ch (cnt i) < 2 ^ 31) {len : Option ℕ} (hend : EndsFor cnt len) (hx : EndsAt x len) (hr0 : 0 ≤ r)
    (hO : ∀ op ∈ ops, SizedRead ch (2 ^ 50) op ∧ ReadsAt r op) (hr : run ops st = .ok (os, st1)) (hP : Pulls x ch cnt addr 0 ops os) :
    ∃ t, cfg.table type = some t ∧
      pulled ch ops os = (List.range (pulled ch ops os).length).map (fun j => frameOf ch (sincIdeal t x (allHistory t) r (timeAt (fun _ => r) j))) := by
  obtain ⟨_, st0, h0, rfl⟩ := callbackNew_inv h
  obtain ⟨ps, qs, p, V, c, P, E, hW⟩ := history_pull hL hc h0 (bi := 2 ^ 31 - 1) (bo := 2 ^ 50) (by norm_num) (by norm_num)
    (fun i => by have := hcnt i; omega) (by norm_num) hP (callback_pulled h0 func ud) (fun op h => (hO op h).1) hr
  rw [explained_outputs E]
  have hR := explained_ratio E (fun op h => (hO op h).2)
  have hB := P.back
  simp only [List.nil_append] at hB
  refine sinc_const hL ht h0 hx (explained_fedTo hend E) hr0 (fun op ho => ⟨?_, hR op ho⟩) hB.run
  rcases hW op ho with ⟨r, m, d, rfl, _, h2, h3⟩ | ⟨r, rfl⟩
  · cases hB.ord _ ho with
    | process _ _ hd => exact ⟨(hd d rfl).ratio, by omega, h3⟩
  · cases hB.ord _ ho with
    | setRatio _ hn => exact hn

/-- The frames read at a constant ratio, zero order hold and linear. -/
theorem pulled_interp (hL : LibraryTables cfg) (ht : type = SRC_ZERO_ORDER_HOLD ∨ type = SRC_LINEAR) (hc : ch ≤ 8355967) (h : srcCallbackNew cfg func type ch ud = .ok (e, some st))
    (hcnt : ∀ i, samples ch (cnt i) ≤ 2 ^ 52)
    (hO : ∀ op ∈ ops, SizedRead ch (2 ^ 52) op ∧ ReadsAt r op) (hr : run ops st = .ok (os, st1)) (hP : Pulls x ch cnt addr 0 ops os) :
    pulled ch ops os = (List.range (pulled ch ops os).length).map (fun j => frameOf ch (idealAt type x (timeAt (fun _ => r) j))) := by
  obtain ⟨_, st0, h0, rfl⟩ := callbackNew_inv h
  obtain ⟨ps, qs, p, V, c, P, E, _⟩ := history_pull hL hc h0 (by norm_num) le_rfl hcnt le_rfl hP (callback_pulled h0 func ud) (fun op h => (hO op h).1) hr
  rw [explained_outputs E]
  have hR := explained_ratio E (fun op h => (hO op h).2)
  have hB := P.back
  simp only [List.nil_append] at hB
  obtain ⟨ρ, -, -, h3, h4⟩ := interp_stream ht hc h0 hB.ord hB.run (explained_fed E)
  conv_lhs => rw [h4]
  refine List.map_congr_left (fun j hj => ?_)
  have hj := List.mem_range.1 hj
  unfold timeAt
  rw [posAt_congr (ρ' := fun _ => r) (fun i hi => h3 r hR i (by omega))]

end

/-- C69, fast sinc converter, ratio at least 1: read through the callback API at the constant ratio `r`, in requests and from callback buffers of any sizes, output frame `j` is the sum of tones of which the callback
hands out the samples, at the time `j / r` up to rounding of the clock, as in C64, if the samples within 21 frames are those of the tones up to `η`. -/
theorem C69_fastest_up (cfg : Config) (hL : LibraryTables cfg) (hP : ShippedTables cfg) (func : Option ℕ) (e : ℤ) (ch ud : ℕ) (hc : ch ≤ 8355967) (st st1 : SrcState)
    (h : srcCallbackNew cfg func SRC_SINC_FASTEST ch ud = .ok (e, some st)) (x : ℕ → ℕ → F32) (cnt addr : ℕ → ℤ) (hcnt : ∀ i, samples ch (cnt i) < 2 ^ 31) (len : Option ℕ) (hend : EndsFor cnt len)
    (hx : EndsAt x len) (r : ℚ) (hr1 : 1 ≤ r) (hr2 : r ≤ 256) (ops : List Op) (os : List Obs) (hO : ∀ op ∈ ops, SizedRead ch (2 ^ 50) op ∧ ReadsAt r op) (hr : run ops st = .ok (os, st1))
    (hQ : Pulls x ch cnt addr 0 ops os) :
    ∃ τ : ℕ → ℚ, (∀ j : ℕ, |τ j - j / r| ≤ j / 2 ^ 44) ∧
      ∀ j f c s n A ω θ η, (pulled ch ops os)[j]? = some f → f[c]? = some s → 21 ≤ τ j → ToneLimits n A ω 2 → 0 ≤ η → loudness n A + η ≤ 2 ^ 62 →
        SampledFrom x c (τ j) 21 (tones n A ω θ) η →
        ∃ y : ℚ, s.val = some y ∧ |(y : ℝ) - tones n A ω θ (τ j)| ≤ loudness n A * (1 / 10000) + 2 * η + 1 / 2 ^ 148 := by
  obtain ⟨t, hT, hp⟩ := pulled_sinc hL (Or.inr (Or.inr rfl)) hc h hcnt hend hx (by linarith) hO hr hQ
  have := (shipped_good hP hT).1 rfl
  subst this
  refine ⟨timeAt fun _ => r, time_steady ⟨by linarith, hr2⟩, fun j f c s n A ω θ η hf hs hτ hLim η0 hsum hu => ?_⟩
  obtain ⟨-, rfl⟩ := getElem?_of_map hp hf
  obtain ⟨-, rfl⟩ := getElem?_of_map (n := ch) rfl hs
  exact tones_sample fastest_good (by norm_num) fastest_reach fastest_tones (by norm_num) (by norm_num) (by unfold allHistory; decide) (by decide +kernel) hr1 hτ hLim η0 hsum hu

/-- C69, medium sinc converter, ratio at least 1 (constants of C64). -/
theorem C69_medium_up (cfg : Config) (hL : LibraryTables cfg) (hP : ShippedTables cfg) (func : Option ℕ) (e : ℤ) (ch ud : ℕ) (hc : ch ≤ 8355967) (st st1 : SrcState)
    (h : srcCallbackNew cfg func SRC_SINC_MEDIUM_QUALITY ch ud = .ok (e, some st)) (x : ℕ → ℕ → F32) (cnt addr : ℕ → ℤ) (hcnt : ∀ i, samples ch (cnt i) < 2 ^ 31) (len : Option ℕ) (hend : EndsFor cnt len)
    (hx : EndsAt x len) (r : ℚ) (hr1 : 1 ≤ r) (hr2 : r ≤ 256) (ops : List Op) (os : List Obs) (hO : ∀ op ∈ ops, SizedRead ch (2 ^ 50) op ∧ ReadsAt r op) (hr : run ops st = .ok (os, st1))
    (hQ : Pulls x ch cnt addr 0 ops os) :
    ∃ τ : ℕ → ℚ, (∀ j : ℕ, |τ j - j / r| ≤ j / 2 ^ 44) ∧
      ∀ j f c s n A ω θ η, (pulled ch ops os)[j]? = some f → f[c]? = some s → 47 ≤ τ j → ToneLimits n A ω (13 / 5) → 0 ≤ η → loudness n A + η ≤ 2 ^ 62 →
        SampledFrom x c (τ j) 47 (tones n A ω θ) η →
        ∃ y : ℚ, s.val = some y ∧ |(y : ℝ) - tones n A ω θ (τ j)| ≤ loudness n A * (1 / 30000) + 12 / 5 * η + 1 / 2 ^ 148 := by
  obtain ⟨t, hT, hp⟩ := pulled_sinc hL (Or.inr (Or.inl rfl)) hc h hcnt hend hx (by linarith) hO hr hQ
  have := (shipped_good hP hT).2 rfl
  subst this
  refine ⟨timeAt fun _ => r, time_steady ⟨by linarith, hr2⟩, fun j f c s n A ω θ η hf hs hτ hLim η0 hsum hu => ?_⟩
  obtain ⟨-, rfl⟩ := getElem?_of_map hp hf
  obtain ⟨-, rfl⟩ := getElem?_of_map (n := ch) rfl hs
  exact tones_sample mid_good (by norm_num) mid_reach mid_tones (by norm_num) (by norm_num) (by unfold allHistory; decide) (by decide +kernel) hr1 hτ hLim η0 hsum hu

/-- C69, fast sinc converter, ratio at most 1 (constants of C65): the tones the output cannot represent vanish. -/
theorem C69_fastest_down (cfg : Config) (hL : LibraryTables cfg) (hP : ShippedTables cfg) (func : Option ℕ) (e : ℤ) (ch ud : ℕ) (hc : ch ≤ 8355967) (st st1 : SrcState)
    (h : srcCallbackNew cfg func SRC_SINC_FASTEST ch ud = .ok (e, some st)) (x : ℕ → ℕ → F32) (cnt addr : ℕ → ℤ) (hcnt : ∀ i, samples ch (cnt i) < 2 ^ 31) (len : Option ℕ) (hend : EndsFor cnt len)
    (hx : EndsAt x len) (r : ℚ) (hr1 : 1 / 256 ≤ r) (hr2 : r ≤ 1) (ops : List Op) (os : List Obs) (hO : ∀ op ∈ ops, SizedRead ch (2 ^ 50) op ∧ ReadsAt r op) (hr : run ops st = .ok (os, st1))
    (hQ : Pulls x ch cnt addr 0 ops os) :
    ∃ τ : ℕ → ℚ, (∀ j : ℕ, |τ j - j / r| ≤ j / 2 ^ 44) ∧
      ∀ j f c s n A ω θ η, (pulled ch ops os)[j]? = some f → f[c]? = some s → 21 / r ≤ τ j → ToneBands n A ω (1999 / 1000 * r) (1001 / 1000 * Real.pi * r) → 0 ≤ η →
        loudness n A + η ≤ 2 ^ 62 → SampledFrom x c (τ j) (21 / r) (tones n A ω θ) η →
        ∃ y : ℚ, s.val = some y ∧ |(y : ℝ) - tonesUpTo (1999 / 1000 * r) n A ω θ (τ j)| ≤ loudness n A * (1 / 4000 + 1 / (1000000 * r)) + 27 / 5 * η + 1 / 2 ^ 148 := by
  obtain ⟨t, hT, hp⟩ := pulled_sinc hL (Or.inr (Or.inr rfl)) hc h hcnt hend hx (by linarith) hO hr hQ
  have := (shipped_good hP hT).1 rfl
  subst this
  refine ⟨timeAt fun _ => r, time_steady ⟨hr1, by linarith⟩, fun j f c s n A ω θ η hf hs hτ hLim η0 hsum hu => ?_⟩
  obtain ⟨-, rfl⟩ := getElem?_of_map hp hf
  obtain ⟨-, rfl⟩ := getElem?_of_map (n := ch) rfl hs
  exact alias_sample fastest_good (by norm_num) fastest_reach fastest_alias (by norm_num) (by norm_num) (by unfold allHistory; decide) hr1 hr2 hτ hLim η0 hsum hu

/-- C69, medium sinc converter, ratio at most 1 (constants of C65). -/
theorem C69_medium_down (cfg : Config) (hL : LibraryTables cfg) (hP : ShippedTables cfg) (func : Option ℕ) (e : ℤ) (ch ud : ℕ) (hc : ch ≤ 8355967) (st st1 : SrcState)
    (h : srcCallbackNew cfg func SRC_SINC_MEDIUM_QUALITY ch ud = .ok (e, some st)) (x : ℕ → ℕ → F32) (cnt addr : ℕ → ℤ) (hcnt : ∀ i, samples ch (cnt i) < 2 ^ 31) (len : Option ℕ) (hend : EndsFor cnt len)
    (hx : EndsAt x len) (r : ℚ) (hr1 : 1 / 256 ≤ r) (hr2 : r ≤ 1) (ops : List Op) (os : List Obs) (hO : ∀ op ∈ ops, SizedRead ch (2 ^ 50) op ∧ ReadsAt r op) (hr : run ops st = .ok (os, st1))
    (hQ : Pulls x ch cnt addr 0 ops os) :
    ∃ τ : ℕ → ℚ, (∀ j : ℕ, |τ j - j / r| ≤ j / 2 ^ 44) ∧
      ∀ j f c s n A ω θ η, (pulled ch ops os)[j]? = some f → f[c]? = some s → 47 / r ≤ τ j → ToneBands n A ω (2598 / 1000 * r) (1001 / 1000 * Real.pi * r) → 0 ≤ η →
        loudness n A + η ≤ 2 ^ 62 → SampledFrom x c (τ j) (47 / r) (tones n A ω θ) η →
        ∃ y : ℚ, s.val = some y ∧ |(y : ℝ) - tonesUpTo (2598 / 1000 * r) n A ω θ (τ j)| ≤ loudness n A * (1 / 1700 + 1 / (1000000 * r)) + 71 / 10 * η + 1 / 2 ^ 148 := by
  obtain ⟨t, hT, hp⟩ := pulled_sinc hL (Or.inr (Or.inl rfl)) hc h hcnt hend hx (by linarith) hO hr hQ
  have := (shipped_good hP hT).2 rfl
  subst this
  refine ⟨timeAt fun _ => r, time_steady ⟨hr1, by linarith⟩, fun j f c s n A ω θ η hf hs hτ hLim η0 hsum hu => ?_⟩
  obtain ⟨-, rfl⟩ := getElem?_of_map hp hf
  obtain ⟨-, rfl⟩ := getElem?_of_map (n := ch) rfl hs
  exact alias_sample mid_good (by norm_num) mid_reach mid_alias (by norm_num) (by norm_num) (by unfold allHistory; decide) hr1 hr2 hτ hLim η0 hsum hu

/-- C69, zero order hold and linear: read through the callback API at the constant ratio `r`, output frame `j` follows the signal, one input frame behind, as in C67. -/
theorem C69_zoh (cfg : Config) (hL : LibraryTables cfg) (func : Option ℕ) (e : ℤ) (ch ud : ℕ) (hc : ch ≤ 8355967) (st st1 : SrcState)
    (h : srcCallbackNew cfg func SRC_ZERO_ORDER_HOLD ch ud = .ok (e, some st)) (x : ℕ → ℕ → F32) (cnt addr : ℕ → ℤ) (hcnt : ∀ i, samples ch (cnt i) ≤ 2 ^ 52)
    (r : ℚ) (hr1 : 1 / 256 ≤ r) (hr2 : r ≤ 256) (ops : List Op) (os : List Obs) (hO : ∀ op ∈ ops, SizedRead ch (2 ^ 52) op ∧ ReadsAt r op) (hr : run ops st = .ok (os, st1))
    (hQ : Pulls x ch cnt addr 0 ops os) :
    ∃ τ : ℕ → ℚ, (∀ j : ℕ, |τ j - j / r| ≤ j / 2 ^ 44) ∧
      ∀ j f c s g M η, (pulled ch ops os)[j]? = some f → f[c]? = some s → SlopeAtMost g M → SampledFrom x c (behind (τ j)) 2 g η →
        ∃ y : ℚ, s.val = some y ∧ |(y : ℝ) - g (behind (τ j))| ≤ M + η := by
  have hp := pulled_interp hL (Or.inl rfl) hc h hcnt hO hr hQ
  refine ⟨timeAt fun _ => r, time_steady ⟨hr1, hr2⟩, fun j f c s g M η hf hs hg hu => ?_⟩
  obtain ⟨-, rfl⟩ := getElem?_of_map hp hf
  obtain ⟨-, rfl⟩ := getElem?_of_map (n := ch) rfl hs
  exact zoh_sample (time_nonneg _ j) hg hu

theorem C69_linear (cfg : Config) (hL : LibraryTables cfg) (func : Option ℕ) (e : ℤ) (ch ud : ℕ) (hc : ch ≤ 8355967) (st st1 : SrcState)
    (h : srcCallbackNew cfg func SRC_LINEAR ch ud = .ok (e, some st)) (x : ℕ → ℕ → F32) (cnt addr : ℕ → ℤ) (hcnt : ∀ i, samples ch (cnt i) ≤ 2 ^ 52)
    (r : ℚ) (hr1 : 1 / 256 ≤ r) (hr2 : r ≤ 256) (ops : List Op) (os : List Obs) (hO : ∀ op ∈ ops, SizedRead ch (2 ^ 52) op ∧ ReadsAt r op) (hr : run ops st = .ok (os, st1))
    (hQ : Pulls x ch cnt addr 0 ops os) :
    ∃ τ : ℕ → ℚ, (∀ j : ℕ, |τ j - j / r| ≤ j / 2 ^ 44) ∧
      ∀ j f c s g M η u, (pulled ch ops os)[j]? = some f → f[c]? = some s → BendAtMost g M → SampledFrom x c (behind (τ j)) 2 g η → Around x c (behind (τ j)) 2 (Spec.Within u) →
        ∃ y : ℚ, s.val = some y ∧ |(y : ℝ) - g (behind (τ j))| ≤ M / 8 + η + u / 2 ^ 23 + 1 / 2 ^ 149 := by
  have hp := pulled_interp hL (Or.inr rfl) hc h hcnt hO hr hQ
  refine ⟨timeAt fun _ => r, time_steady ⟨hr1, hr2⟩, fun j f c s g M η u hf hs hg hx hu => ?_⟩
  obtain ⟨-, rfl⟩ := getElem?_of_map hp hf
  obtain ⟨-, rfl⟩ := getElem?_of_map (n := ch) rfl hs
  exact linear_sample (n := j + 1) (fun _ _ => ⟨hr1, hr2⟩) (Nat.lt_succ_self j) hg hx hu

/-- A tone of a quarter of the sampling rate that never ends: 1, 0, -1, 0, ... -/
def endlessQuarter (k c : ℕ) : F32 := quarter (k % 4) c

theorem endlessQuarter_val (k c : ℕ) : ∃ q : ℚ, (endlessQuarter k c).val = some q ∧ (q : ℝ) = Real.cos (Real.pi / 2 * k) := by
  obtain ⟨q, h1, h2⟩ := quarter_val (show k % 4 < 100 by omega) c
  refine ⟨q, h1, ?_⟩
  have e : (k : ℝ) = 4 * ((k / 4 : ℕ) : ℝ) + ((k % 4 : ℕ) : ℝ) := by exact_mod_cast (Nat.div_add_mod k 4).symm
  rw [h2, e, show Real.pi / 2 * (4 * ((k / 4 : ℕ) : ℝ) + ((k % 4 : ℕ) : ℝ)) = Real.pi / 2 * ((k % 4 : ℕ) : ℝ) + 0 + ((k / 4 : ℕ) : ℝ) * (2 * Real.pi) by ring,
    Real.cos_add_nat_mul_two_pi]

set_option maxRecDepth 100000 in
theorem lib_new : pullOutcome libCfg SRC_SINC_FASTEST (1 : ℕ) [.reset] = .ok [(0, 0, 0)] := by
  decide +kernel

/-- Non-vacuity of C69: a callback that hands out this tone in buffers of four frames, and one read of hundred frames. -/
example : ∃ e st N os st1, srcCallbackNew libCfg (some 1) SRC_SINC_FASTEST (1 : ℕ) 0 = .ok (e, some st) ∧
    run [.read (streamCb endlessQuarter 1 (fun _ => 4)) 1 N 0 (fun _ => zero32) one64 100 1] st = .ok (os, st1) ∧
    Pulls endlessQuarter 1 (fun _ => 4) (fun _ => 1000) 0 [.read (streamCb endlessQuarter 1 (fun _ => 4)) 1 N 0 (fun _ => zero32) one64 100 1] os ∧
    ∃ (f : List F32) (s : F32) (y τ : ℚ), (pulled 1 [.read (streamCb endlessQuarter 1 (fun _ => 4)) 1 N 0 (fun _ => zero32) one64 100 1] os)[50]? = some f ∧ f[0]? = some s ∧ s.val = some y ∧
      |τ - 50| ≤ (50 : ℚ) / 2 ^ 44 ∧ |(y : ℝ) - Real.cos (Real.pi / 2 * τ)| ≤ 1 / 9000 := by
  obtain ⟨e, st, h⟩ : ∃ e st, srcCallbackNew libCfg (some 1) SRC_SINC_FASTEST (1 : ℕ) 0 = .ok (e, some st) := by
    have hn := lib_new
    unfold pullOutcome at hn
    generalize hq : srcCallbackNew libCfg (some 1) SRC_SINC_FASTEST (1 : ℕ) 0 = q at hn
    rcases q with f | ⟨e, _ | st⟩
    · cases hn
    · cases hn
    · exact ⟨e, st, rfl⟩
  have hS : Supplies 1 1000 4 (streamCb endlessQuarter 1 (fun _ => 4)) := fun _ _ _ =>
    ⟨by simp [streamCb], by simp only [streamCb]; decide, 1000, rfl, le_rfl, by simp only [streamCb]; decide⟩
  obtain ⟨N, ⟨n, m', s', k⟩, hd, hN⟩ := C59_sinc libCfg libCfg_tables 1 SRC_SINC_FASTEST e (Or.inr (Or.inr rfl)) 1 0 st st (by norm_num) h 1000 4 (by norm_num) (fun _ => 4)
    [] [] 0 (fun _ h => by simp at h) rfl (.nil _) (streamCb endlessQuarter 1 (fun _ => 4)) (fun _ _ _ => rfl) 1 (fun _ => zero32) one64 100 1
    ⟨hS, ⟨1, one64_val, by norm_num, by norm_num⟩, by norm_num, by decide, by norm_num, Or.inl (by decide)⟩
  obtain ⟨hn, s1, hs, he⟩ := hd
  have hN := hN N le_rfl
  dsimp only at hn hs he
  subst hn hs
  have hrun : run [.read (streamCb endlessQuarter 1 (fun _ => 4)) 1 N 0 (fun _ => zero32) one64 100 1] st =
      .ok ([⟨100, some m', none, k, srcError (some s1), srcGetChannels (some s1)⟩], s1) := by
    simp only [run, Op.run, hN]; rfl
  have hP : Pulls endlessQuarter 1 (fun _ => 4) (fun _ => 1000) 0 [.read (streamCb endlessQuarter 1 (fun _ => 4)) 1 N 0 (fun _ => zero32) one64 100 1]
      [⟨100, some m', none, k, srcError (some s1), srcGetChannels (some s1)⟩] :=
    .read 0 _ _ _ _ _ _ _ _ _ _ (streamCb_hands _ _) (streamCb_spares _ _ (by norm_num)) (by simp) he (.nil _)
  have hO : ∀ op ∈ [Op.read (streamCb endlessQuarter 1 (fun _ => 4)) 1 N 0 (fun _ => zero32) one64 100 1], SizedRead 1 (2 ^ 50) op ∧ ReadsAt 1 op := by
    intro op hop
    rw [List.mem_singleton.1 hop]
    refine ⟨⟨fun h => ?_, by decide⟩, one64_val⟩
    have := congrArg Fl.val h
    rw [one64_val] at this
    cases this
  obtain ⟨τ, t1, t2⟩ := C69_fastest_up libCfg libCfg_tables libCfg_shipped (some 1) e 1 0 (by norm_num) st s1 h endlessQuarter (fun _ => 4) (fun _ => 1000) (fun _ => by decide) none
    (fun i hi => by simp at hi) (fun n hn => by cases hn) 1 le_rfl (by norm_num) _ _ hO hrun hP
  obtain ⟨f, hf⟩ : ∃ f, (pulled 1 [.read (streamCb endlessQuarter 1 (fun _ => 4)) 1 N 0 (fun _ => zero32) one64 100 1]
      [⟨100, some m', none, k, srcError (some s1), srcGetChannels (some s1)⟩])[50]? = some f := ⟨_, List.getElem?_eq_getElem (by simp [pulled, pulledBy])⟩
  obtain ⟨s, hs⟩ : ∃ s, f[0]? = some s := by
    simp only [pulled, pulledBy, List.append_nil] at hf
    obtain ⟨-, rfl⟩ := getElem?_of_map (n := 100) rfl hf
    exact ⟨_, List.getElem?_eq_getElem (by simp [frameOf])⟩
  have hpi := Real.pi_le_four
  have hτ := t1 50
  rw [div_one] at hτ
  obtain ⟨y, y1, y2⟩ := t2 50 f 0 s 1 (fun _ => 1) (fun _ => Real.pi / 2) (fun _ => 0) 0 hf hs
    (by have := (_root_.abs_le.1 hτ).1; have : -(((50 : ℕ) : ℚ) / 2 ^ 44) ≥ -1 := by norm_num
        push_cast at *; linarith)
    (fun k _ => ⟨by norm_num, by positivity, by linarith⟩) le_rfl (by simp [loudness]; norm_num) (fun k _ => by
      obtain ⟨q, q1, q2⟩ := endlessQuarter_val k 0
      exact ⟨q, q1, by simp [tones, q2]⟩)
  refine ⟨e, st, N, _, s1, h, hrun, hP, f, s, y, τ 50, hf, hs, y1, by exact_mod_cast hτ, ?_⟩
  simp only [tones, loudness, Finset.sum_range_one, one_mul, add_zero] at y2
  refine y2.trans ?_
  norm_num

end Verif
