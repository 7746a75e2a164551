import Verif.Props.Sine
import Verif.Spec.Local

/-! The output depends only on the input near it (C66). -/

namespace Verif
open Spec

theorem scheduled_eq {rat : ℚ → ℚ → ℕ → ℕ → ℕ → ℚ} {ch : ℕ} {ops : List Op} {os : List Obs} {n : ℕ} {ρ : ℕ → ℚ}
    (h : ratiosFrom rat ch 0 ops os = (List.range n).map ρ) {i : ℕ} (hi : i < n) : scheduled rat ch ops os i = ρ i := by
  unfold scheduled
  rw [h, List.getD_eq_getElem?_getD, List.getElem?_map, List.getElem?_range hi]
  rfl

theorem time_scheduled {rat : ℚ → ℚ → ℕ → ℕ → ℕ → ℚ} {ch : ℕ} {ops : List Op} {os : List Obs} {n : ℕ} {ρ : ℕ → ℚ}
    (h : ratiosFrom rat ch 0 ops os = (List.range n).map ρ) {j : ℕ} (hj : j ≤ n) : timeAt ρ j = timeAt (scheduled rat ch ops os) j := by
  unfold timeAt
  rw [posAt_congr (fun i hi => (scheduled_eq h (show i < n by omega)).symm)]

theorem time_same {ρ ρ' : ℕ → ℚ} {j : ℕ} (h : ∀ i < j, ρ i = ρ' i) : timeAt ρ j = timeAt ρ' j := by
  unfold timeAt
  rw [posAt_congr h]

theorem frameOf_at {ch c : ℕ} {f g : ℕ → F32} (h : f c = g c) : (frameOf ch f)[c]? = (frameOf ch g)[c]? := by
  by_cases hc : c < ch
  · simp [frameOf, List.getElem?_range hc, h]
  · simp [frameOf, List.getElem?_eq_none (show (List.range ch).length ≤ c by simpa using hc)]

theorem idealAt_local {type : ℤ} {x x' : ℕ → ℕ → F32} {t : ℚ} {c : ℕ} (ht : 0 ≤ t) (h : AgreeAround x x' c (t - 1) 1) :
    idealAt type x t c = idealAt type x' t c := by
  have f1 := Nat.floor_le ht
  have f2 := Nat.lt_floor_add_one t
  have h0 : x (⌊t⌋₊ - 1) c = x' (⌊t⌋₊ - 1) c := by
    refine h _ ?_
    rcases Nat.eq_zero_or_pos ⌊t⌋₊ with h0 | h0
    · rw [h0] at f2 ⊢
      rw [_root_.abs_le]
      push_cast at f2 ⊢
      constructor <;> linarith
    · rw [Nat.cast_sub h0, _root_.abs_le]
      push_cast
      constructor <;> linarith
  have h1 : x ⌊t⌋₊ c = x' ⌊t⌋₊ c := by
    refine h _ ?_
    rw [_root_.abs_le]
    constructor <;> linarith
  unfold idealAt
  rw [h0, h1]

/-- C66 for zero order hold and linear: consider two histories, on handles of the same type, that bring the streams `x` and `x'`, cut in any way, with the same ratios for the
output frames up to number `j`.  If the streams agree in channel `c` on the frames at most one frame from the read position, output frame `j` is the same sample in this channel, bit by bit,
whatever the other frames of the streams contain (frame `k` is at time `k + 1`: these converters delay by one frame). -/
theorem C66_interp (cfg cfg' : Config) (type : ℤ) (ht : type = SRC_ZERO_ORDER_HOLD ∨ type = SRC_LINEAR) (ch : ℕ)
    (hc : ch ≤ 8355967) (e e' : ℤ) (st st' st1 st1' : SrcState)
    (h : srcNew cfg type ch = .ok (e, some st)) (h' : srcNew cfg' type ch = .ok (e', some st')) (x x' : ℕ → ℕ → F32) (ops ops' : List Op) (os os' : List Obs) (V V' : ℕ)
    (hO : ∀ op ∈ ops, OrdinaryOp 1 ch op) (hO' : ∀ op ∈ ops', OrdinaryOp 1 ch op) (hr : run ops st = .ok (os, st1)) (hr' : run ops' st' = .ok (os', st1'))
    (hF : Fed x ch 0 ops os V) (hF' : Fed x' ch 0 ops' os' V') (j c : ℕ) (f f' : List F32) (hf : (outputs ch os)[j]? = some f) (hf' : (outputs ch os')[j]? = some f')
    (hρ : ∀ i < j, scheduled ratioAt ch ops os i = scheduled ratioAt ch ops' os' i)
    (hx : AgreeAround x x' c (timeAt (scheduled ratioAt ch ops os) j - 1) 1) : f[c]? = f'[c]? := by
  obtain ⟨ρ, h1, -, hR, h2, -⟩ := C24_interp cfg type ht ch hc e st st1 h x ops os V hO hr hF
  obtain ⟨ρ', h1', -, hR', h2', -⟩ := C24_interp cfg' type ht ch hc e' st' st1' h' x' ops' os' V' hO' hr' hF'
  obtain ⟨hj, rfl⟩ := getElem?_of_map h2 hf
  obtain ⟨hj', rfl⟩ := getElem?_of_map h2' hf'
  rw [time_scheduled hR hj.le, time_scheduled hR' hj'.le, ← time_same hρ]
  have hp := posAt_frac0 (scheduled ratioAt ch ops os) j
  exact frameOf_at (idealAt_local (by unfold timeAt; have := hp.1; positivity) hx)

/-! ### sinc -/

/-- The filter involves only the frames under it. -/
theorem sincAt_local {co : ℤ → F32} {N inc B : ℤ} (G : Geom N inc B) {ρ i : ℚ} (hρ : 1 / 256 ≤ ρ) (i0 : 0 ≤ i) (i1 : i < 1) {D : ℤ} (hD : 0 ≤ D) {x x' : ℤ → F32}
    (h : ∀ k, UnderFilter N inc ρ i D k → x k = x' k) : sincAt co N inc ρ i D x = sincAt co N inc ρ i D x' := by
  obtain ⟨a1, a2⟩ := G.incr_bounds hρ
  obtain ⟨b1, b2⟩ := G.start_bounds hρ i0 i1
  have hi1 := G.inc1
  have hn := G.n1
  unfold UnderFilter at h
  unfold sincAt sincOut
  dsimp only
  generalize rne (sincInc inc ρ * 4096) = incr at *
  generalize rne (rq f64 (i * sincInc inc ρ) * 4096) = start at *
  have e1 : sincLeft co N incr start D (fun k => Fl.conv f64 (x k)) = sincLeft co N incr start D (fun k => Fl.conv f64 (x' k)) := by
    unfold sincLeft
    dsimp only
    have ha0 : 0 ≤ min ((4096 * N - start) / incr) D := le_min (Int.ediv_nonneg (by omega) (by omega)) hD
    have haD : min ((4096 * N - start) / incr) D ≤ D := min_le_right _ _
    have haN : min ((4096 * N - start) / incr) D * incr ≤ 4096 * N - start :=
      (mul_le_mul_of_nonneg_right (min_le_left _ _) (by omega)).trans (Int.ediv_mul_le _ (by omega))
    generalize min ((4096 * N - start) / incr) D = a at *
    refine tapSum_congr (fun _ _ => rfl) (fun j hj => ?_)
    have hq : (start + a * incr) / incr * incr ≤ start + a * incr := Int.ediv_mul_le _ (by omega)
    have hj' : (j : ℤ) ≤ (start + a * incr) / incr := by omega
    have hm := mul_le_mul_of_nonneg_right hj' (show 0 ≤ incr by omega)
    have h0 : 0 ≤ (j : ℤ) * incr := mul_nonneg (by omega) (by omega)
    rw [h (j - a) ⟨by omega, by
      rw [show ((j : ℤ) - a) * incr - start = -(start + a * incr - j * incr) by ring, abs_neg, abs_of_nonneg (by omega)]
      omega⟩]
  have e2 : sincRight co N incr start (fun k => Fl.conv f64 (x k)) = sincRight co N incr start (fun k => Fl.conv f64 (x' k)) := by
    unfold sincRight
    dsimp only
    have haN : (4096 * N - (incr - start)) / incr * incr ≤ 4096 * N - (incr - start) := Int.ediv_mul_le _ (by omega)
    have ha0 : 0 ≤ (4096 * N - (incr - start)) / incr := Int.ediv_nonneg (by omega) (by omega)
    generalize (4096 * N - (incr - start)) / incr = a at *
    have h1 : 0 ≤ a * incr := mul_nonneg ha0 (by omega)
    refine tapSum_congr (fun _ _ => rfl) (fun j hj => ?_)
    have hq : (incr - start + a * incr + incr - 1) / incr * incr ≤ incr - start + a * incr + incr - 1 := Int.ediv_mul_le _ (by omega)
    have hjm : (j : ℤ) * incr ≤ incr - start + a * incr := by
      rcases Nat.eq_zero_or_pos j with rfl | hj0
      · simp only [Nat.cast_zero, zero_mul]; omega
      · have : (j : ℤ) + 1 ≤ (incr - start + a * incr + incr - 1) / incr := by omega
        have := mul_le_mul_of_nonneg_right this (show 0 ≤ incr by omega)
        rw [add_mul, one_mul] at this
        omega
    have hj0 : 0 ≤ (j : ℤ) * incr := mul_nonneg (by omega) (by omega)
    have hk0 : 0 ≤ 1 + a - (j : ℤ) := by
      by_contra hneg
      have := mul_le_mul_of_nonneg_right (show a + 2 ≤ (j : ℤ) by omega) (show 0 ≤ incr by omega)
      rw [add_mul] at this
      omega
    rw [h (1 + a - j) ⟨by omega, by
      rw [show (1 + a - (j : ℤ)) * incr - start = incr - start + a * incr - j * incr by ring, abs_of_nonneg (by omega)]
      omega⟩]
  rw [e1, e2]

theorem signal_agree {x x' : ℕ → ℕ → F32} {c : ℕ} {τ R : ℚ} (h : AgreeAround x x' c τ R) {z : ℤ} (hz : |(z : ℚ) - τ| ≤ R) : signal x z c = signal x' z c := by
  unfold signal
  split_ifs with h0
  · rfl
  · refine h _ ?_
    have : ((z.toNat : ℕ) : ℤ) = z := Int.toNat_of_nonneg (by omega)
    have : ((z.toNat : ℕ) : ℚ) = z := by exact_mod_cast this
    rwa [this]

/-- C66 for the sinc converters: consider two histories, on handles of the same type, that bring the streams `x` and `x'`, cut in any way, with the same ratios for the output frames up to
number `j`.  If the streams agree in channel `c` on the frames within the reach of the filter at the time of this frame, output frame `j` is the same sample in this channel, bit by bit, whatever the other
frames of the streams contain; in particular, a NaN or an infinity in the input does not outlast the filter, and the end of the stream makes no difference before it comes within reach.  For
frames at ratios below 1 no history may lower the ratio (the code then cuts the filter short). -/
theorem C66_sinc (cfg : Config) (hL : LibraryTables cfg) (type : ℤ) (ht : SincType type) (ch : ℕ) (e e' : ℤ) (st st' st1 st1' : SrcState)
    (h : srcNew cfg type ch = .ok (e, some st)) (h' : srcNew cfg type ch = .ok (e', some st')) (x x' : ℕ → ℕ → F32) (len len' : Option ℕ) (hx : EndsAt x len) (hx' : EndsAt x' len')
    (ops ops' : List Op) (os os' : List Obs) (V V' : ℕ)
    (hS : ∀ op ∈ ops, SizedOp ch op) (hS' : ∀ op ∈ ops', SizedOp ch op) (hr : run ops st = .ok (os, st1)) (hr' : run ops' st' = .ok (os', st1'))
    (hF : FedTo x ch len 0 ops os V) (hF' : FedTo x' ch len' 0 ops' os' V') :
    ∃ t, cfg.table type = some t ∧ ∀ j c f f', (outputs ch os)[j]? = some f → (outputs ch os')[j]? = some f' →
      (∀ i ≤ j, scheduled sincRatioAt ch ops os i = scheduled sincRatioAt ch ops' os' i) →
      (1 ≤ scheduled sincRatioAt ch ops os j ∨ SincUse 0 ch (.rising 0) ops ∧ SincUse 0 ch (.rising 0) ops') →
      AgreeAround x x' c (timeAt (scheduled sincRatioAt ch ops os) j) (filterReach t (scheduled sincRatioAt ch ops os j)) → f[c]? = f'[c]? := by
  obtain ⟨t, ρ, D, hT, h1, -, hR, h3, -⟩ := C24_sinc cfg hL type ht ch e st st1 h x len hx ops os V hS hr hF
  obtain ⟨t', ρ', D', hT', h1', -, hR', h3', -⟩ := C24_sinc cfg hL type ht ch e' st' st1' h' x' len' hx' ops' os' V' hS' hr' hF'
  rw [hT] at hT'
  cases hT'
  refine ⟨t, hT, fun j c f f' hf hf' hρ hD hA => ?_⟩
  obtain ⟨t', hT', hd⟩ := sinc_table hL ht h
  rw [hT] at hT'
  cases hT'
  obtain ⟨B, G, -⟩ := table_geom hd
  obtain ⟨hj, rfl⟩ := getElem?_of_map h3 hf
  obtain ⟨hj', rfl⟩ := getElem?_of_map h3' hf'
  have e1 : ρ j = scheduled sincRatioAt ch ops os j := (scheduled_eq hR hj).symm
  have e2 : ρ' j = scheduled sincRatioAt ch ops os j := (scheduled_eq hR' hj').symm.trans (hρ j le_rfl).symm
  have d1 : D j = allHistory t := (h1 j hj).2.2.2 (hD.imp (fun a => e1 ▸ a) And.left)
  have d2 : D' j = allHistory t := (h1' j hj').2.2.2 (hD.imp (fun a => e2 ▸ a) And.right)
  rw [time_scheduled hR hj.le, time_scheduled hR' hj'.le, ← time_same (fun i hi => hρ i hi.le), e2, e1, d1, d2]
  have v1 := (h1 j hj).1
  rw [e1] at v1
  refine frameOf_at ?_
  unfold sincIdeal
  refine sincAt_local G v1 (Int.fract_nonneg _) (Int.fract_lt_one _) (by unfold allHistory; omega) (fun k hk => signal_agree hA ?_)
  exact (signal_near G (by omega) (by omega) v1 hk).le

/-- The first hundred frames of a stereo stream in memory, from address 1 on. -/
def stereoMem (x : ℕ → ℕ → F32) (a : ℤ) : F32 := x ((a - 1) / 2).toNat ((a - 1) % 2).toNat

theorem stereo_call (x : ℕ → ℕ → F32) : ∃ (st st1 : SrcState) (os : List Obs), srcNew libCfg SRC_SINC_FASTEST (2 : ℕ) = .ok (0, some st) ∧
    run [.process (stereoMem x) (some sincCall)] st = .ok (os, st1) ∧ FedTo x 2 (some 100) 0 [.process (stereoMem x) (some sincCall)] os 100 ∧ 98 ≤ (outputs 2 os).length := by
  obtain ⟨st, o, st1, d', h1, h2, h3, h4, h5, -, h7⟩ := sinc_one_call_of libCfg_tables (t := Fastest.table)
    (by simp [Config.table, libCfg, SRC_SINC_FASTEST, SRC_SINC_MEDIUM_QUALITY, SRC_SINC_BEST_QUALITY])
  have hr : run [.process (fun _ => zero32) (some sincCall)] st = .ok ([o], st1) := by
    simp only [run, h2]; rfl
  obtain ⟨os', st1', hr', hs⟩ := C17 libCfg st (.new _ _ _ _ h1) _ [.process (stereoMem x) (some sincCall)] (.cons (.process _ _ _) .nil) _ _ hr
  cases hs with
  | cons hs hnil =>
  rename_i o' l
  cases hnil
  have hret : o'.ret = 0 := by rw [hs.ret]; exact h3
  have hdat : o'.data = some d' := by rw [hs.data]; exact h4
  refine ⟨st, st1', _, h1, hr', ?_, ?_⟩
  · have := FedTo.call 0 100 (stereoMem x) sincCall d' o' [] [] (x := x) (ch := 2) (len := some 100) (fun k c hk hc => by
      have e : ((sincCall.dataIn + (2 * (k : ℤ) + c) - 1) / 2).toNat = k := by
        simp only [sincCall]
        omega
      have e2 : ((sincCall.dataIn + (2 * (k : ℤ) + c) - 1) % 2).toNat = c := by
        simp only [sincCall]
        omega
      simp [stereoMem, e, e2]) (fun _ => rfl) hret hdat (by rw [h5]; exact .nil _)
    exact this
  · simp only [run] at hr'
    obtain ⟨⟨o1, s1⟩, r1, hr'⟩ := bind_ok hr'
    obtain ⟨⟨o2, s2⟩, -, hr'⟩ := bind_ok hr'
    have hr' := ok_inj hr'
    simp only [Prod.mk.injEq, List.cons.injEq] at hr'
    obtain ⟨⟨rfl, _⟩, rfl⟩ := hr'
    simp only [Op.run] at r1
    obtain ⟨⟨e, m', st', d1⟩, -, r1⟩ := bind_ok r1
    have r1 := ok_inj r1
    simp only [Prod.mk.injEq] at r1
    obtain ⟨rfl, -⟩ := r1
    have hdat : d1 = some d' := hdat
    subst hdat
    simp [outputs, outOf]
    omega

/-- The tone of `quarter`, with a NaN in frame 90. -/
def spoiled (k c : ℕ) : F32 := if k = 90 then .nan else quarter k c

theorem stereo_steady {x : ℕ → ℕ → F32} (hx : EndsAt x (some 100)) {st st1 : SrcState} {os : List Obs} (h1 : srcNew libCfg SRC_SINC_FASTEST (2 : ℕ) = .ok (0, some st))
    (h2 : run [.process (stereoMem x) (some sincCall)] st = .ok (os, st1)) (h3 : FedTo x 2 (some 100) 0 [.process (stereoMem x) (some sincCall)] os 100) :
    ∀ i < (outputs 2 os).length, scheduled sincRatioAt 2 [.process (stereoMem x) (some sincCall)] os i = 1 := by
  obtain ⟨t, ρ, D, hT, a1, a2, hR, a3, -⟩ := C24_sinc libCfg libCfg_tables _ (Or.inr (Or.inr rfl)) 2 0 st st1 h1 x _ hx _ os _ (fun op hop => by
    rw [List.mem_singleton.1 hop]; exact sincCall_sized) h2 h3
  intro i hi
  rw [scheduled_eq hR hi]
  obtain ⟨a, b⟩ := a2 1 1 (by
    intro op hop
    rw [List.mem_singleton.1 hop]
    intro r hr
    have h1 : sincCall.srcRatio.val = some 1 := one64_val
    rw [h1] at hr
    cases hr
    norm_num) i hi
  exact le_antisymm b a

theorem time_one {ρ : ℕ → ℚ} {n : ℕ} (h : ∀ i < n, ρ i = 1) : timeAt ρ n = n := by
  unfold timeAt
  rw [posAt_congr (ρ' := fun _ => 1) h, posAt_one]
  simp

/-- The hypotheses of C66_sinc are met by calls with hundred frames of a tone, once with a NaN in frame 90: by C66, output frame 50 is the same. -/
example : ∃ (st st1 st1' : SrcState) (os os' : List Obs) (f : List F32), srcNew libCfg SRC_SINC_FASTEST (2 : ℕ) = .ok (0, some st) ∧
    run [.process (stereoMem quarter) (some sincCall)] st = .ok (os, st1) ∧ run [.process (stereoMem spoiled) (some sincCall)] st = .ok (os', st1') ∧
    spoiled 90 1 = .nan ∧ (outputs 2 os)[50]? = some f ∧ ∃ f', (outputs 2 os')[50]? = some f' ∧ f[1]? = f'[1]? := by
  obtain ⟨st, st1, os, h1, h2, h3, h4⟩ := stereo_call quarter
  obtain ⟨st', st1', os', h1', h2', h3', h4'⟩ := stereo_call spoiled
  obtain rfl : st = st' := by rw [h1] at h1'; cases h1'; rfl
  have hx : EndsAt quarter (some 100) := by
    intro n hn k hk c
    cases hn
    simp [quarter, hk]
  have hx' : EndsAt spoiled (some 100) := by
    intro n hn k hk c
    cases hn
    have : ¬ k = 90 := by omega
    simp [spoiled, quarter, hk, this]
  have hS : ∀ x, ∀ op ∈ [Op.process (stereoMem x) (some sincCall)], SizedOp (2 : ℕ) op := by
    intro x op hop
    rw [List.mem_singleton.1 hop]
    exact sincCall_sized
  obtain ⟨f, hf⟩ : ∃ f, (outputs 2 os)[50]? = some f := ⟨_, List.getElem?_eq_getElem (by omega)⟩
  obtain ⟨f', hf'⟩ : ∃ f, (outputs 2 os')[50]? = some f := ⟨_, List.getElem?_eq_getElem (by omega)⟩
  refine ⟨st, st1, st1', os, os', f, h1, h2, h2', by simp [spoiled], hf, f', hf', ?_⟩
  obtain ⟨t, hT, key⟩ := C66_sinc libCfg libCfg_tables _ (Or.inr (Or.inr rfl)) 2 0 0 st st st1 st1' h1 h1 quarter spoiled _ _ hx hx' _ _ os os' _ _ (hS _) (hS _) h2 h2' h3 h3'
  have s := stereo_steady hx h1 h2 h3
  have s' := stereo_steady hx' h1 h2' h3'
  refine key 50 1 f f' hf hf' (fun i hi => by rw [s i (by omega), s' i (by omega)]) (Or.inl (s 50 (by omega)).ge) ?_
  rw [s 50 (by omega), time_one (fun i hi => s i (by omega))]
  have := libCfg_shipped
  have ht : t = Fastest.table := (shipped_good this hT).1 rfl
  subst ht
  intro k hk
  have hk := hk.trans fastest_reach
  have : (k : ℚ) ≤ 71 := by have := (_root_.abs_le.1 hk).2; push_cast at this; linarith
  have : k ≤ 71 := by exact_mod_cast this
  unfold spoiled
  rw [if_neg (by omega)]

end Verif
