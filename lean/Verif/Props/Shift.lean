import Verif.Props.Local
import Verif.Props.Smooth
import Verif.Proof.Convert
import Verif.Spec.Shift

/-! At ratios that are powers of two the clock is exact (C76), and a conversion does not depend on where in the stream a signal is (C77). -/

namespace Verif
open Spec

theorem Spec.PowerOfTwo.pos {r : ℚ} (h : PowerOfTwo r) : 0 < r := by
  obtain ⟨a, -, rfl | rfl⟩ := h <;> positivity

/-- Multiples of 1/256 up to 1024 are doubles. -/
theorem rq_256 {q : ℚ} {n : ℕ} (h : q = n / 2 ^ 8) (hn : n ≤ 2 ^ 18) : rq f64 q = q := by
  have := rep_frac (f := f64) (n := (n : ℤ)) (k := 8) (by
    have : ((n : ℕ) : ℤ) ≤ 2 ^ 18 := by exact_mod_cast hn
    rw [_root_.abs_of_nonneg (by positivity)]
    exact this.trans (by norm_num [f64])) (by norm_num [f64]) (by norm_num [f64])
  rw [h]
  have h1 := this.1
  rw [Int.cast_natCast] at h1
  exact rq_of_rep h1

/-- The step is a multiple of 1/256. -/
theorem Spec.PowerOfTwo.step {r : ℚ} (h : PowerOfTwo r) : ∃ n : ℕ, 1 / r = n / 2 ^ 8 ∧ n ≤ 2 ^ 16 := by
  obtain ⟨a, ha, rfl | rfl⟩ := h
  · refine ⟨2 ^ (8 - a), ?_, ?_⟩
    · push_cast
      rw [div_eq_div_iff (by positivity) (by positivity), one_mul, ← pow_add, show 8 - a + a = 8 by omega]
    · exact (pow_le_pow_right₀ (by norm_num) (show 8 - a ≤ 8 by omega)).trans (by norm_num)
  · refine ⟨2 ^ (8 + a), ?_, pow_le_pow_right₀ (by norm_num) (by omega)⟩
    push_cast
    rw [one_div_one_div, pow_add]
    field_simp

/-- The read position at a ratio that is a power of two. -/
theorem Spec.PowerOfTwo.posAt {r : ℚ} (h : PowerOfTwo r) (j : ℕ) : posAt ⟨0, 0⟩ (fun _ => r) j = ⟨⌊(j : ℚ) / r⌋₊, Int.fract ((j : ℚ) / r)⟩ := by
  obtain ⟨n, hn, hn'⟩ := h.step
  have hr := h.pos
  induction j with
  | zero => simp [Spec.posAt]
  | succ j ih =>
    have t0 : (0 : ℚ) ≤ (j : ℚ) / r := by positivity
    -- the fraction is a multiple of 1/256
    obtain ⟨m, hm, hm'⟩ : ∃ m : ℕ, Int.fract ((j : ℚ) / r) = m / 2 ^ 8 ∧ m < 2 ^ 8 := by
      have e : (j : ℚ) / r = ((j * n : ℕ) : ℚ) / ((2 ^ 8 : ℕ) : ℚ) := by
        rw [show (j : ℚ) / r = j * (1 / r) by ring, hn]
        push_cast
        ring
      have e2 := Int.fract_div_natCast_eq_div_natCast_mod (m := j * n) (n := 2 ^ 8) (k := ℚ)
      refine ⟨(j * n) % 2 ^ 8, ?_, Nat.mod_lt _ (by norm_num)⟩
      rw [e, e2]
      push_cast
      rfl
    simp only [Spec.posAt, ih, Pos.advance]
    have e1 : rq f64 (1 / r) = 1 / r := rq_256 hn (hn'.trans (by norm_num))
    have e2 : rq f64 (Int.fract ((j : ℚ) / r) + 1 / r) = Int.fract ((j : ℚ) / r) + 1 / r := by
      refine rq_256 (n := m + n) ?_ (by omega)
      rw [hm, hn]
      push_cast
      ring
    rw [e1, e2]
    have e3 : ((j + 1 : ℕ) : ℚ) / r = (⌊(j : ℚ) / r⌋ : ℤ) + (Int.fract ((j : ℚ) / r) + 1 / r) := by
      have := Int.floor_add_fract ((j : ℚ) / r)
      push_cast
      rw [add_div]
      linarith
    have f0 : 0 ≤ Int.fract ((j : ℚ) / r) + 1 / r := by
      have := Int.fract_nonneg ((j : ℚ) / r)
      positivity
    generalize Int.fract ((j : ℚ) / r) + 1 / r = t at *
    rw [e3, Int.fract_intCast_add]
    congr 1
    have a1 : 0 ≤ ⌊t⌋ := Int.floor_nonneg.2 f0
    have a2 : 0 ≤ ⌊(j : ℚ) / r⌋ := Int.floor_nonneg.2 t0
    rw [← Int.floor_toNat, ← Int.floor_toNat, Int.floor_intCast_add]
    omega

/-- The input times at a ratio that is a power of two. -/
theorem Spec.PowerOfTwo.time {r : ℚ} (h : PowerOfTwo r) (j : ℕ) : timeAt (fun _ => r) j = j / r := by
  have hr := h.pos
  have t0 : (0 : ℚ) ≤ (j : ℚ) / r := by positivity
  unfold timeAt
  rw [h.posAt, ← Int.self_sub_floor]
  dsimp only
  have a2 : 0 ≤ ⌊(j : ℚ) / r⌋ := Int.floor_nonneg.2 t0
  have : ((⌊(j : ℚ) / r⌋₊ : ℕ) : ℤ) = ⌊(j : ℚ) / r⌋ := by rw [← Int.floor_toNat]; omega
  have : ((⌊(j : ℚ) / r⌋₊ : ℕ) : ℚ) = (⌊(j : ℚ) / r⌋ : ℤ) := by exact_mod_cast this
  rw [this]
  ring

/-- C76, zero order hold and linear: at a constant ratio `r` that is a power of two there is no drift.  Output frame `j` is the held or interpolated input at the time `j / r` exactly, however long the stream. -/
theorem C76_interp (cfg : Config) (type : ℤ) (ht : type = SRC_ZERO_ORDER_HOLD ∨ type = SRC_LINEAR) (ch : ℕ) (hc : ch ≤ 8355967) (e : ℤ) (st st1 : SrcState)
    (h : srcNew cfg type ch = .ok (e, some st)) (x : ℕ → ℕ → F32) (r : ℚ) (hp : PowerOfTwo r) (ops : List Op) (os : List Obs) (V : ℕ)
    (hO : ∀ op ∈ ops, OrdinaryOp 1 ch op ∧ AtRatio r op) (hr : run ops st = .ok (os, st1)) (hF : Fed x ch 0 ops os V) :
    outputs ch os = (List.range (outputs ch os).length).map (fun j : ℕ => frameOf ch (idealAt type x (j / r))) := by
  obtain ⟨ρ, -, -, h3, h4⟩ := interp_stream ht hc h (fun op h => (hO op h).1) hr hF
  conv_lhs => rw [h4]
  refine List.map_congr_left (fun j hj => ?_)
  have hj := List.mem_range.1 hj
  rw [← hp.time j, time_same (ρ' := fun _ => r) (fun i hi => h3 r (fun op h => (hO op h).2) i (by omega))]

/-- C76, sinc: output frame `j` is the response of the filter at the time `j / r` exactly. -/
theorem C76_sinc (cfg : Config) (hL : LibraryTables cfg) (type : ℤ) (ht : SincType type) (ch : ℕ) (e : ℤ) (st st1 : SrcState)
    (h : srcNew cfg type ch = .ok (e, some st)) (x : ℕ → ℕ → F32) (len : Option ℕ) (hx : EndsAt x len) (r : ℚ) (hp : PowerOfTwo r) (ops : List Op) (os : List Obs) (V : ℕ)
    (hO : ∀ op ∈ ops, SizedOp ch op ∧ AtRatio r op) (hr : run ops st = .ok (os, st1)) (hF : FedTo x ch len 0 ops os V) :
    ∃ t, cfg.table type = some t ∧ outputs ch os = (List.range (outputs ch os).length).map (fun j : ℕ => frameOf ch (sincIdeal t x (allHistory t) r (j / r))) := by
  obtain ⟨t, hT, h4⟩ := sinc_const hL ht h hx hF hp.pos.le hO hr
  refine ⟨t, hT, ?_⟩
  conv_lhs => rw [h4]
  exact List.map_congr_left (fun j _ => by rw [hp.time j])

/-- The held or interpolated sample of a shifted stream. -/
theorem idealAt_shift {type : ℤ} {x x' : ℕ → ℕ → F32} {N c : ℕ} {t : ℚ} (ht : 1 ≤ t) (h : AgreeShifted x x' N c (t - 1) 1) : idealAt type x t c = idealAt type x' (t + N) c := by
  have t0 : 0 ≤ t := by linarith
  have f1 := Nat.floor_le t0
  have f2 := Nat.lt_floor_add_one t
  have f3 : 1 ≤ ⌊t⌋₊ := Nat.one_le_floor_iff _ |>.2 ht
  have key : ∀ k : ℕ, |((k : ℤ) : ℚ) - (t - 1)| ≤ 1 → x k c = x' (k + N) c := by
    intro k hk
    have := h k hk
    unfold signal at this
    rwa [if_neg (by omega), if_neg (by omega), Int.toNat_natCast, show ((k : ℤ) + (N : ℤ)).toNat = k + N by omega] at this
  have h0 : x (⌊t⌋₊ - 1) c = x' (⌊t⌋₊ - 1 + N) c := by
    refine key _ ?_
    push_cast [Nat.cast_sub f3]
    rw [_root_.abs_le]
    constructor <;> linarith
  have h1 : x ⌊t⌋₊ c = x' (⌊t⌋₊ + N) c := by
    refine key _ ?_
    push_cast
    rw [_root_.abs_le]
    constructor <;> linarith
  unfold idealAt
  rw [h0, h1, Nat.floor_add_natCast t0, Int.fract_add_natCast, show ⌊t⌋₊ + N - 1 = ⌊t⌋₊ - 1 + N by omega]

/-- C77, zero order hold and linear, at a constant ratio `r` that is a power of two: consider two histories that bring the streams `x` and `x'`, cut in any way.  If the frames of `x` at most one frame from the read position
of output frame `j` are those of `x'` `N` frames later, then output frame `j` of the first is output frame `j + N r` of the second, bit by bit. -/
theorem C77_interp (cfg cfg' : Config) (type : ℤ) (ht : type = SRC_ZERO_ORDER_HOLD ∨ type = SRC_LINEAR) (ch : ℕ) (hc : ch ≤ 8355967) (e e' : ℤ) (st st' st1 st1' : SrcState)
    (h : srcNew cfg type ch = .ok (e, some st)) (h' : srcNew cfg' type ch = .ok (e', some st')) (x x' : ℕ → ℕ → F32) (r : ℚ) (hp : PowerOfTwo r)
    (ops ops' : List Op) (os os' : List Obs) (V V' : ℕ) (hO : ∀ op ∈ ops, OrdinaryOp 1 ch op ∧ AtRatio r op) (hO' : ∀ op ∈ ops', OrdinaryOp 1 ch op ∧ AtRatio r op)
    (hr : run ops st = .ok (os, st1)) (hr' : run ops' st' = .ok (os', st1')) (hF : Fed x ch 0 ops os V) (hF' : Fed x' ch 0 ops' os' V')
    (N j j' c : ℕ) (f f' : List F32) (hj : (j' : ℚ) = j + N * r) (hf : (outputs ch os)[j]? = some f) (hf' : (outputs ch os')[j']? = some f')
    (h1 : 1 ≤ (j : ℚ) / r) (hx : AgreeShifted x x' N c (j / r - 1) 1) : f[c]? = f'[c]? := by
  have e1 := C76_interp cfg type ht ch hc e st st1 h x r hp ops os V hO hr hF
  have e2 := C76_interp cfg' type ht ch hc e' st' st1' h' x' r hp ops' os' V' hO' hr' hF'
  obtain ⟨-, rfl⟩ := getElem?_of_map e1 hf
  obtain ⟨-, rfl⟩ := getElem?_of_map e2 hf'
  have hr0 := hp.pos
  refine frameOf_at ?_
  rw [idealAt_shift h1 hx, hj, add_div, mul_div_cancel_right₀ _ hr0.ne']

/-- The response of the filter to a shifted stream. -/
theorem sincIdeal_shift {t : CoeffTable} {B : ℤ} (G : Geom (t.count - 2) t.increment B) (h2 : 2 ≤ t.count) (hi : t.count - 2 ≤ 143 * t.increment) (hc : 128 ≤ t.increment) {x x' : ℕ → ℕ → F32} {N c : ℕ} {r τ : ℚ} (hr : 1 / 256 ≤ r)
    (h : AgreeShifted x x' N c τ (filterReach t r)) : sincIdeal t x (allHistory t) r τ c = sincIdeal t x' (allHistory t) r (τ + N) c := by
  unfold sincIdeal
  rw [Int.fract_add_natCast, Int.floor_add_natCast]
  refine sincAt_local G hr (Int.fract_nonneg _) (Int.fract_lt_one _) (by unfold allHistory; omega) (fun k hk => ?_)
  rw [show ⌊τ⌋ + (N : ℤ) + k = ⌊τ⌋ + k + N by ring]
  exact h _ (signal_near G hi hc hr hk).le

/-- C77, sinc: the same, if the frames within the reach of the filter agree. -/
theorem C77_sinc (cfg : Config) (hL : LibraryTables cfg) (type : ℤ) (ht : SincType type) (ch : ℕ) (e e' : ℤ) (st st' st1 st1' : SrcState)
    (h : srcNew cfg type ch = .ok (e, some st)) (h' : srcNew cfg type ch = .ok (e', some st')) (x x' : ℕ → ℕ → F32) (len len' : Option ℕ) (hx : EndsAt x len) (hx' : EndsAt x' len')
    (r : ℚ) (hp : PowerOfTwo r) (ops ops' : List Op) (os os' : List Obs) (V V' : ℕ)
    (hO : ∀ op ∈ ops, SizedOp ch op ∧ AtRatio r op) (hO' : ∀ op ∈ ops', SizedOp ch op ∧ AtRatio r op) (hr : run ops st = .ok (os, st1)) (hr' : run ops' st' = .ok (os', st1'))
    (hF : FedTo x ch len 0 ops os V) (hF' : FedTo x' ch len' 0 ops' os' V') :
    ∃ t, cfg.table type = some t ∧ ∀ N j j' c f f', ((j' : ℕ) : ℚ) = (j : ℕ) + (N : ℕ) * r → (outputs ch os)[j]? = some f → (outputs ch os')[j']? = some f' →
      AgreeShifted x x' N c (j / r) (filterReach t r) → f[c]? = f'[c]? := by
  obtain ⟨t, hT, e1⟩ := C76_sinc cfg hL type ht ch e st st1 h x len hx r hp ops os V hO hr hF
  obtain ⟨t', hT', e2⟩ := C76_sinc cfg hL type ht ch e' st' st1' h' x' len' hx' r hp ops' os' V' hO' hr' hF'
  rw [hT] at hT'
  cases hT'
  refine ⟨t, hT, fun N j j' c f f' hj hf hf' hA => ?_⟩
  obtain ⟨t', hT', hd⟩ := sinc_table hL ht h
  rw [hT] at hT'
  cases hT'
  obtain ⟨B, G, -⟩ := table_geom hd
  obtain ⟨-, rfl⟩ := getElem?_of_map e1 hf
  obtain ⟨-, rfl⟩ := getElem?_of_map e2 hf'
  have hr0 := hp.pos
  have hv : 1 / 256 ≤ r := by
    obtain ⟨a, ha, rfl | rfl⟩ := hp
    · have : (1 : ℚ) ≤ 2 ^ a := one_le_pow₀ (by norm_num)
      linarith
    · have : (2 : ℚ) ^ a ≤ 2 ^ 8 := pow_le_pow_right₀ (by norm_num) ha
      exact one_div_le_one_div_of_le (by positivity) (this.trans (by norm_num))
  refine frameOf_at ?_
  rw [sincIdeal_shift G (by omega) (by omega) (by omega) hv hA, hj, add_div, mul_div_cancel_right₀ _ hr0.ne']

/-- A delayed stream is shifted everywhere. -/
theorem delayed_shift (x : ℕ → ℕ → F32) (N c : ℕ) (τ R : ℚ) : AgreeShifted x (delayed N x) N c τ R := by
  intro k _
  unfold signal delayed
  by_cases h0 : k < 0
  · rw [if_pos h0]
    split_ifs <;> first | rfl | omega
  · rw [if_neg h0, if_neg (by omega), if_neg (by omega), show (k + (N : ℤ)).toNat - N = k.toNat by omega]

/-- C77: silence of `N` frames before the stream delays the output of the sinc converters by `N r` frames and changes nothing else. -/
theorem C77_delay (cfg : Config) (hL : LibraryTables cfg) (type : ℤ) (ht : SincType type) (ch : ℕ) (e e' : ℤ) (st st' st1 st1' : SrcState)
    (h : srcNew cfg type ch = .ok (e, some st)) (h' : srcNew cfg type ch = .ok (e', some st')) (x : ℕ → ℕ → F32) (N : ℕ) (len len' : Option ℕ) (hx : EndsAt x len) (hx' : EndsAt (delayed N x) len')
    (r : ℚ) (hp : PowerOfTwo r) (ops ops' : List Op) (os os' : List Obs) (V V' : ℕ)
    (hO : ∀ op ∈ ops, SizedOp ch op ∧ AtRatio r op) (hO' : ∀ op ∈ ops', SizedOp ch op ∧ AtRatio r op) (hr : run ops st = .ok (os, st1)) (hr' : run ops' st' = .ok (os', st1'))
    (hF : FedTo x ch len 0 ops os V) (hF' : FedTo (delayed N x) ch len' 0 ops' os' V') (m : ℕ) (hm : (m : ℚ) = N * r) :
    (outputs ch os').drop m <+: outputs ch os ∨ outputs ch os <+: (outputs ch os').drop m := by
  obtain ⟨t2, hT2, key⟩ := C77_sinc cfg hL type ht ch e e' st st' st1 st1' h h' x (delayed N x) len len' hx hx' r hp ops ops' os os' V V' hO hO' hr hr' hF hF'
  have all : ∀ (j : ℕ) f f', (outputs ch os)[j]? = some f → ((outputs ch os').drop m)[j]? = some f' → f = f' := by
    intro j f f' hf hf'
    rw [List.getElem?_drop] at hf'
    refine List.ext_getElem? (fun c => ?_)
    exact key N j (m + j) c f f' (by push_cast; rw [hm]; ring) hf hf' (delayed_shift x N c _ _)
  rcases Nat.le_total ((outputs ch os').drop m).length (outputs ch os).length with hl | hl
  · left
    rw [List.prefix_iff_getElem?]
    intro i hi
    have a := List.getElem?_eq_getElem (show i < (outputs ch os).length by omega)
    have b := List.getElem?_eq_getElem hi
    rw [a, all i _ _ a b]
  · right
    rw [List.prefix_iff_getElem?]
    intro i hi
    have a := List.getElem?_eq_getElem hi
    have b := List.getElem?_eq_getElem (show i < ((outputs ch os').drop m).length by omega)
    rw [b, all i _ _ a b]

/-- Ninety frames of the tone of `quarter`. -/
def ninety (k c : ℕ) : F32 := if k < 90 then quarter k c else zero32

theorem ninety_ends : EndsAt ninety (some 100) := by
  intro n hn k hk c
  cases hn
  unfold ninety
  rw [if_neg (by omega)]

theorem ninety_delayed_ends : EndsAt (delayed 10 ninety) (some 100) := by
  intro n hn k hk c
  cases hn
  unfold delayed ninety
  rw [if_neg (by omega), if_neg (by omega)]

/-- The hypotheses of C77 are met by hundred frames of this stream and by hundred frames of the stream delayed by ten frames: output frame 50 of the first is output frame 60 of the second. -/
example : ∃ (st st1 st1' : SrcState) (os os' : List Obs), srcNew libCfg SRC_SINC_FASTEST (2 : ℕ) = .ok (0, some st) ∧
    run [.process (stereoMem ninety) (some sincCall)] st = .ok (os, st1) ∧ run [.process (stereoMem (delayed 10 ninety)) (some sincCall)] st = .ok (os', st1') ∧
    (outputs 2 os)[50]? = (outputs 2 os')[60]? ∧ 98 ≤ (outputs 2 os').length := by
  obtain ⟨st, st1, os, h1, h2, h3, h4⟩ := stereo_call ninety
  obtain ⟨st', st1', os', h1', h2', h3', h4'⟩ := stereo_call (delayed 10 ninety)
  obtain rfl : st = st' := by rw [h1] at h1'; cases h1'; rfl
  have hO : ∀ x, ∀ op ∈ [Op.process (stereoMem x) (some sincCall)], SizedOp (2 : ℕ) op ∧ AtRatio 1 op := by
    intro x op hop
    rw [List.mem_singleton.1 hop]
    exact ⟨sincCall_sized, one64_val⟩
  refine ⟨st, st1, st1', os, os', h1, h2, h2', ?_, h4'⟩
  have hi : 50 < (outputs 2 os).length := by omega
  have hi' : 60 < (outputs 2 os').length := by omega
  have a := List.getElem?_eq_getElem hi
  have b := List.getElem?_eq_getElem hi'
  have b' : ((outputs 2 os').drop 10)[50]? = some ((outputs 2 os')[60]) := by rw [List.getElem?_drop]; exact b
  rcases C77_delay libCfg libCfg_tables _ (Or.inr (Or.inr rfl)) 2 0 0 st st st1 st1' h1 h1 ninety 10 _ _ ninety_ends ninety_delayed_ends 1 ⟨0, by norm_num, by norm_num⟩ _ _ os os' _ _ (hO _) (hO _) h2 h2' h3 h3' 10 (by norm_num)
    with hp | hp
  · obtain ⟨l, hl⟩ := hp
    rw [← hl, List.getElem?_append_left (by rw [List.length_drop]; omega), b', b]
  · obtain ⟨l, hl⟩ := hp
    rw [← hl, List.getElem?_append_left hi] at b'
    rw [b', b]

end Verif
