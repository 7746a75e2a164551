import Verif.Props.All
import Verif.Props.Findings
import Verif.Proof.Glide

/-! Properties of ratio changes: C54. -/

namespace Verif
open Spec

theorem new_interp_cfg {cfg : Config} {type ch e : ℤ} {st : SrcState} (ht : type = SRC_ZERO_ORDER_HOLD ∨ type = SRC_LINEAR)
    (h : srcNew cfg type ch = .ok (e, some st)) : srcNew ⟨none, none, none⟩ type ch = .ok (e, some st) := by
  rcases ht with rfl | rfl <;>
    simpa [srcNew, Config.table, SRC_ZERO_ORDER_HOLD, SRC_LINEAR, SRC_SINC_BEST_QUALITY, SRC_SINC_MEDIUM_QUALITY, SRC_SINC_FASTEST] using h

theorem no_tables : LibraryTables ⟨none, none, none⟩ := ⟨(fun t h => by cases h), (fun t h => by cases h), (fun t h => by cases h)⟩

theorem interp_accounted {cfg : Config} {type e : ℤ} (ht : type = SRC_ZERO_ORDER_HOLD ∨ type = SRC_LINEAR) {ch : ℕ} (hc : ch ≤ 8355967)
    {st st1 : SrcState} (h : srcNew cfg type ch = .ok (e, some st)) {ops : List Op} {os : List Obs}
    (hO : ∀ op ∈ ops, OrdinaryOp 1 ch op) (hr : run ops st = .ok (os, st1)) : 1 ≤ ch ∧ AllAccounted ops os := by
  refine ⟨?_, C04 _ no_tables type ch hc e st st1 (new_interp_cfg ht h) ops hO os hr⟩
  obtain ⟨K, rfl⟩ := kind_of ht
  obtain ⟨os', st2, h1, h2, ⟨p, l, before, V⟩, _⟩ := history_new_ok h hc ops hO ⟨_, hr⟩
  exact V.hch1

theorem sinc_accounted {cfg : Config} (hL : LibraryTables cfg) {type e : ℤ} (ht : SincType type) {ch : ℕ}
    {st st1 : SrcState} (h : srcNew cfg type ch = .ok (e, some st)) {ops : List Op} {os : List Obs}
    (hS : ∀ op ∈ ops, SizedOp ch op) (hr : run ops st = .ok (os, st1)) : 1 ≤ ch ∧ AllAccounted ops os := by
  obtain ⟨t, hT, hd⟩ := sinc_table hL ht h
  obtain ⟨B, S, hm⟩ := new_safe hT hd h
  exact ⟨S.hch1, C04 _ hL type ch (S.hchM.trans (by norm_num)) e st st1 h ops (fun op a => sized_ordinary (hS op a)) os hr⟩

/-- C54 for zero order hold and linear: the output frames of a history are those of the converter at ratios `ρ` that move as `Glides` says: linearly, within
each call, from the ratio reached before towards the requested one, which would be reached with the frame after the last one the output buffer has room for; up to
`2^-41`, without turning back or overshooting.  `src_set_ratio` takes effect at once. -/
theorem C54_interp (cfg : Config) (type : ℤ) (ht : type = SRC_ZERO_ORDER_HOLD ∨ type = SRC_LINEAR) (ch : ℕ)
    (hc : ch ≤ 8355967) (e : ℤ) (st st1 : SrcState)
    (h : srcNew cfg type ch = .ok (e, some st)) (x : ℕ → ℕ → F32) (ops : List Op) (os : List Obs) (V : ℕ)
    (hO : ∀ op ∈ ops, OrdinaryOp 1 ch op ∧ SmallOut ch op) (hr : run ops st = .ok (os, st1)) (hF : Fed x ch 0 ops os V) :
    ∃ ρ : ℕ → ℚ, Glides (1 / 2 ^ 41) 0 ops os ((List.range (outputs ch os).length).map ρ) ∧
      outputs ch os = (List.range (outputs ch os).length).map (fun j => frameOf ch (idealAt type x (timeAt ρ j))) := by
  obtain ⟨ρ, -, -, h2, h3, -⟩ := C24_interp cfg type ht ch hc e st st1 h x ops os V (fun op a => (hO op a).1) hr hF
  obtain ⟨h1, hA⟩ := interp_accounted ht hc h (fun op a => (hO op a).1) hr
  refine ⟨ρ, ?_, h3⟩
  rw [← h2]
  exact glides_of ratioAt_glider h1 (fedObs_of hr (shape_fed hF hO hA)) (rep0_zero _) (Or.inl rfl)

/-- C54 for the sinc converters: likewise, up to `10^-9` (a change of no more than `10^-10` is not followed). -/
theorem C54_sinc (cfg : Config) (hL : LibraryTables cfg) (type : ℤ) (ht : SincType type) (ch : ℕ) (e : ℤ) (st st1 : SrcState)
    (h : srcNew cfg type ch = .ok (e, some st)) (x : ℕ → ℕ → F32) (len : Option ℕ) (hx : EndsAt x len) (ops : List Op) (os : List Obs) (V : ℕ)
    (hS : ∀ op ∈ ops, SizedOp ch op) (hr : run ops st = .ok (os, st1)) (hF : FedTo x ch len 0 ops os V) :
    ∃ (t : CoeffTable) (ρ : ℕ → ℚ) (D : ℕ → ℤ), cfg.table type = some t ∧
      Glides (1 / 10 ^ 9) 0 ops os ((List.range (outputs ch os).length).map ρ) ∧
      outputs ch os = (List.range (outputs ch os).length).map (fun j => frameOf ch (sincIdeal t x (D j) (ρ j) (timeAt ρ j))) := by
  obtain ⟨t, ρ, D, hT, -, -, h2, h3, -⟩ := C24_sinc cfg hL type ht ch e st st1 h x len hx ops os V hS hr hF
  obtain ⟨h1, hA⟩ := sinc_accounted hL ht h hS hr
  refine ⟨t, ρ, D, hT, ?_, h3⟩
  rw [← h2]
  exact glides_of sincRatioAt_glider h1 (fedObs_of hr (shape_fedTo hF hS hA)) (rep0_zero _) (Or.inl rfl)

/-- Every call of the history has room for at most one frame of output, and none is `src_set_ratio`. -/
def OneByOne (ops : List Op) : Prop := ∀ op ∈ ops, (∀ r, op ≠ .setRatio r) ∧ ∀ m d, op = .process m (some d) → d.outputFrames ≤ 1

theorem first_valid {m : Mem} {d : SrcData} {q : ℚ} (hq : d.srcRatio.val = some q) {ops : List Op} {os : List Obs} {st st1 : SrcState} (hn : d.srcRatio ≠ .nan)
    (hr : run (.process m (some d) :: ops) st = .ok (os, st1)) (h0 : ∀ o rest, os = o :: rest → o.ret = 0) : q ≠ 0 := by
  unfold run at hr
  obtain ⟨⟨o1, st1⟩, hr1, hr⟩ := bind_ok hr
  obtain ⟨⟨os2, st2⟩, hr2, hr⟩ := bind_ok hr
  have hr := ok_inj hr
  simp only [Prod.mk.injEq] at hr
  obtain ⟨t, ht, vt⟩ := process_ratio hr1 (h0 o1 os2 hr.1.symm) hn
  rw [hq] at ht
  cases ht
  exact (lt_of_lt_of_le (by norm_num) vt.1).ne'

/-- C54, a consequence for zero order hold and linear: a caller that asks for one frame at a time stays at the ratio `q` of the first call for ever, whatever
ratios the later calls ask for; only `src_set_ratio` changes the ratio then. -/
theorem C54_one_frame_interp (cfg : Config) (type : ℤ) (ht : type = SRC_ZERO_ORDER_HOLD ∨ type = SRC_LINEAR) (ch : ℕ)
    (hc : ch ≤ 8355967) (e : ℤ) (st st1 : SrcState)
    (h : srcNew cfg type ch = .ok (e, some st)) (x : ℕ → ℕ → F32) (m : Mem) (d : SrcData) (q : ℚ) (hq : d.srcRatio.val = some q) (ops : List Op) (os : List Obs) (V : ℕ)
    (hO : ∀ op ∈ .process m (some d) :: ops, OrdinaryOp 1 ch op ∧ SmallOut ch op) (h1 : OneByOne (.process m (some d) :: ops))
    (hr : run (.process m (some d) :: ops) st = .ok (os, st1)) (hF : Fed x ch 0 (.process m (some d) :: ops) os V) :
    outputs ch os = (List.range (outputs ch os).length).map (fun j => frameOf ch (idealAt type x (timeAt (fun _ => q) j))) := by
  obtain ⟨ρ, hG, ho⟩ := C54_interp cfg type ht ch hc e st st1 h x _ os V hO hr hF
  have hq0 : q ≠ 0 := first_valid hq (by rintro hn; rw [hn] at hq; cases hq) hr (fun o rest he => by subst he; cases hF; assumption)
  have hs := glides_stuck hG h1 q hq0 (Or.inr ⟨rfl, fun _ _ _ he => by cases he; exact hq⟩)
  conv_lhs => rw [ho]
  refine List.map_congr_left (fun j hj => ?_)
  have hj := List.mem_range.1 hj
  unfold timeAt
  rw [posAt_congr (ρ' := fun _ => q) (fun i hi => hs _ (List.mem_map_of_mem (List.mem_range.2 (by omega))))]

/-- C54, the same consequence for the sinc converters. -/
theorem C54_one_frame_sinc (cfg : Config) (hL : LibraryTables cfg) (type : ℤ) (ht : SincType type) (ch : ℕ) (e : ℤ) (st st1 : SrcState)
    (h : srcNew cfg type ch = .ok (e, some st)) (x : ℕ → ℕ → F32) (len : Option ℕ) (hx : EndsAt x len) (m : Mem) (d : SrcData) (q : ℚ) (hq : d.srcRatio.val = some q) (ops : List Op) (os : List Obs) (V : ℕ)
    (hS : ∀ op ∈ .process m (some d) :: ops, SizedOp ch op) (h1 : OneByOne (.process m (some d) :: ops))
    (hr : run (.process m (some d) :: ops) st = .ok (os, st1)) (hF : FedTo x ch len 0 (.process m (some d) :: ops) os V) :
    ∃ (t : CoeffTable) (D : ℕ → ℤ), cfg.table type = some t ∧
      outputs ch os = (List.range (outputs ch os).length).map (fun j => frameOf ch (sincIdeal t x (D j) q (timeAt (fun _ => q) j))) := by
  obtain ⟨t, ρ, D, hT, hG, ho⟩ := C54_sinc cfg hL type ht ch e st st1 h x len hx _ os V hS hr hF
  have hq0 : q ≠ 0 := first_valid hq (by rintro hn; rw [hn] at hq; cases hq) hr (fun o rest he => by subst he; cases hF; assumption)
  have hs := glides_stuck hG h1 q hq0 (Or.inr ⟨rfl, fun _ _ _ he => by cases he; exact hq⟩)
  refine ⟨t, D, hT, ?_⟩
  conv_lhs => rw [ho]
  refine List.map_congr_left (fun j hj => ?_)
  have hj := List.mem_range.1 hj
  have hk : ∀ i ≤ j, ρ i = q := fun i hi => hs _ (List.mem_map_of_mem (List.mem_range.2 (by omega)))
  unfold timeAt
  rw [posAt_congr (ρ' := fun _ => q) (fun i hi => hk i hi.le), hk j le_rfl]

/-- A call with room for one frame, at ratio 1, and one at ratio 2. -/
def slowCall : SrcData := { smallCall with outputFrames := 1 }
def fastCall : SrcData := { smallCall with outputFrames := 1, srcRatio := dbl 2 }

/-- The hypotheses of C54 are met, for both interpolating converters, by a call at ratio 1 followed by one at ratio 2, both with room for a single frame. -/
example (K : Kind) (e : ℤ) (st : SrcState) (h : srcNew ⟨none, none, none⟩ K.type (2 : ℕ) = .ok (e, some st)) :
    ∃ os V st1, run [.process (fun _ => zero32) (some slowCall), .process (fun _ => zero32) (some fastCall)] st = .ok (os, st1) ∧
      Fed (fun _ _ => zero32) 2 0 [.process (fun _ => zero32) (some slowCall), .process (fun _ => zero32) (some fastCall)] os V ∧
      (∀ op ∈ [Op.process (fun _ => zero32) (some slowCall), .process (fun _ => zero32) (some fastCall)], OrdinaryOp 1 (2 : ℕ) op ∧ SmallOut (2 : ℕ) op) ∧
      OneByOne [.process (fun _ => zero32) (some slowCall), .process (fun _ => zero32) (some fastCall)] ∧
      slowCall.srcRatio.val = some 1 ∧ fastCall.srcRatio.val = some 2 ∧ 0 < (outputs 2 os).length := by
  obtain ⟨a, b, c, d⟩ := smallCall_ok K
  have v2 : (dbl 2).val = some 2 := by have := dbl_val (n := 2) (by norm_num); rw [this]; norm_num
  have hs : Ordinary K.lo (2 : ℕ) slowCall := ⟨a.ratio, a.inSize, by norm_num [samples, slowCall], a.few⟩
  have hf : Ordinary K.lo (2 : ℕ) fastCall := ⟨(fun hn => by simp only [fastCall] at hn; rw [hn] at v2; cases v2), a.inSize, by norm_num [samples, fastCall], a.few⟩
  have T := new_track (fun _ _ => zero32) h (by norm_num)
  have P : ∀ U, Presents (fun _ _ => zero32) 2 U (fun _ => zero32) slowCall := fun U k c _ _ => rfl
  have P' : ∀ U, Presents (fun _ _ => zero32) 2 U (fun _ => zero32) fastCall := fun U k c _ _ => rfl
  obtain ⟨o1, s1, r1, z1⟩ := call_succeeds T hs (by simp [MissingBuffer, slowCall, smallCall]) c (by simp [Clash, slowCall, smallCall, samples]) (fun _ => zero32)
  obtain ⟨d1, ρ1, g, u, t, e1, e2, _, e3, _, e4, e5, e6, e7, e8, eb, es, eu, ek, l1, T1, _⟩ := track_call T hs.one (P 0) r1 z1
  obtain ⟨o2, s2, r2, z2⟩ := call_succeeds T1 hf (by simp [MissingBuffer, fastCall, smallCall])
    (by obtain ⟨_, he⟩ := Fl.eq_fin_of_val v2; simp only [fastCall, he, BadRatio]; norm_num) (by simp [Clash, fastCall, smallCall, samples]) (fun _ => zero32)
  obtain ⟨d2, ρ2, g2, u2, t2, f1, f2, _⟩ := track_call T1 hf.one (P' _) r2 z2
  refine ⟨[o1, o2], _, s2, ?_, .call _ _ _ _ d1 _ _ _ (P _) z1 e1 (.call _ _ _ _ d2 _ _ _ (P' _) z2 f1 (.nil _)), ?_, ?_, one64_val, v2, ?_⟩
  · simp only [run, r1, r2, bind, Except.bind]; rfl
  · intro op hop
    simp only [List.mem_cons, List.not_mem_nil, or_false] at hop
    rcases hop with rfl | rfl
    · exact ⟨.process _ _ (by rintro _ ⟨⟩; exact hs.one), by norm_num [SmallOut, samples, slowCall]⟩
    · exact ⟨.process _ _ (by rintro _ ⟨⟩; exact hf.one), by norm_num [SmallOut, samples, fastCall]⟩
  · intro op hop
    simp only [List.mem_cons, List.not_mem_nil, or_false] at hop
    rcases hop with rfl | rfl
    · exact ⟨(fun r hr => by cases hr), (fun m d hd => by cases hd; simp [slowCall])⟩
    · exact ⟨(fun r hr => by cases hr), (fun m d hd => by cases hd; simp [fastCall])⟩
  · have hg : 0 < g := by
      by_contra hg
      have hg : g = 0 := by omega
      subst hg
      have := es (by simp [slowCall]) (by simp [slowCall, smallCall])
      simp only [posAt, slowCall, smallCall] at this
      cases K <;> dsimp only at this <;> omega
    simp only [outputs, List.flatMap_cons, List.length_append, e8, List.length_map, List.length_range]
    omega

end Verif
