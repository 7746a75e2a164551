import Verif.Props.Stream
import Verif.Proof.Fuel

/-! Memory safety, termination, frame accounting and ratios of the interpolating converters: C06, C07, C11, C12. -/

namespace Verif
open Spec

theorem history_new_core {K : Kind} {cfg : Config} {ch : ℕ} {e : ℤ} {st : SrcState} (h : srcNew cfg K.type ch = .ok (e, some st))
    (hc : ch ≤ 8355967) (ops : List Op) (hO : ∀ op ∈ ops, OrdinaryOp 1 ch op)
    (hD : (∀ op ∈ ops, OrdinaryOp K.lo ch op) ∨ ∃ r, run ops st = .ok r) :
    ∃ os st', run ops st = .ok (os, st') ∧ List.Forall₂ (WellBehaved ch) ops os ∧ (∃ p l before, View K st' ch p l before) ∧
      st'.mode = .process ∧ st'.error = 0 := by
  obtain ⟨V, hm, _⟩ := new_view (K := K) h (by cases K <;> rfl) (by exact_mod_cast hc)
  rw [Int.toNat_natCast] at V
  obtain ⟨os, st', h1, h2, h3, h4, h5⟩ := history_core ops ⟨_, _, _, V⟩ hm hO hD
  refine ⟨os, st', h1, h2, h3, h4, h5 ?_⟩
  unfold srcNew at h
  cases K
  · have ht : cfg.table SRC_ZERO_ORDER_HOLD = none := by simp [Config.table, SRC_ZERO_ORDER_HOLD, SRC_SINC_BEST_QUALITY, SRC_SINC_MEDIUM_QUALITY, SRC_SINC_FASTEST]
    simp only [Kind.type, ht, if_true, zohStateNew] at h
    obtain ⟨u, ha, h⟩ := bind_ok h
    have h := ok_inj h
    simp only [Prod.mk.injEq, Option.some.injEq] at h
    rw [← h.2]; rfl
  · have ht : cfg.table SRC_LINEAR = none := by simp [Config.table, SRC_LINEAR, SRC_SINC_BEST_QUALITY, SRC_SINC_MEDIUM_QUALITY, SRC_SINC_FASTEST]
    rw [show Kind.linear.type = SRC_LINEAR from rfl, ht] at h
    dsimp only at h
    rw [if_neg (by decide), if_pos rfl] at h
    unfold linearStateNew at h
    obtain ⟨u, ha, h⟩ := bind_ok h
    have h := ok_inj h
    simp only [Prod.mk.injEq, Option.some.injEq] at h
    rw [← h.2]; rfl

theorem history_new {K : Kind} {cfg : Config} {ch : ℕ} {e : ℤ} {st : SrcState} (h : srcNew cfg K.type ch = .ok (e, some st))
    (hc : ch ≤ 8355967) (ops : List Op) (hO : ∀ op ∈ ops, OrdinaryOp K.lo ch op) :
    ∃ os st', run ops st = .ok (os, st') ∧ List.Forall₂ (WellBehaved ch) ops os ∧ (∃ p l before, View K st' ch p l before) ∧
      st'.mode = .process ∧ st'.error = 0 :=
  history_new_core h hc ops (fun op a => (hO op a).one) (Or.inl hO)

theorem history_new_ok {K : Kind} {cfg : Config} {ch : ℕ} {e : ℤ} {st : SrcState} (h : srcNew cfg K.type ch = .ok (e, some st))
    (hc : ch ≤ 8355967) (ops : List Op) (hO : ∀ op ∈ ops, OrdinaryOp 1 ch op) (hr : ∃ r, run ops st = .ok r) :
    ∃ os st', run ops st = .ok (os, st') ∧ List.Forall₂ (WellBehaved ch) ops os ∧ (∃ p l before, View K st' ch p l before) ∧
      st'.mode = .process ∧ st'.error = 0 :=
  history_new_core h hc ops hO (Or.inr hr)

/-- C06: every history of `src_process`, `src_set_ratio` and `src_reset` calls on a new zero order hold handle runs to its end without
any fault of the model: no access outside the input or output buffer or the internal frame, no `int` overflow, no failed assertion.
The arguments are arbitrary except that ratios are not NaN (see `C01_nan_accepted`) and buffers have at most `2^52` samples. -/
theorem C06 (cfg : Config) (ch : ℕ) (hc : ch ≤ 8355967) (e : ℤ) (st : SrcState)
    (h : srcNew cfg SRC_ZERO_ORDER_HOLD ch = .ok (e, some st)) (ops : List Op) (hO : ∀ op ∈ ops, OrdinaryOp 1 ch op) :
    ∃ os st', run ops st = .ok (os, st') := by
  obtain ⟨os, st', h, _⟩ := history_new (K := .zoh) h hc ops hO
  exact ⟨os, st', h⟩

/-- C07, partial: the same for the linear converter if every call brings no input or at least three frames. -/
theorem C07_partial (cfg : Config) (ch : ℕ) (hc : ch ≤ 8355967) (e : ℤ) (st : SrcState)
    (h : srcNew cfg SRC_LINEAR ch = .ok (e, some st)) (ops : List Op) (hO : ∀ op ∈ ops, OrdinaryOp 3 ch op) :
    ∃ os st', run ops st = .ok (os, st') := by
  obtain ⟨os, st', h, _⟩ := history_new (K := .linear) h hc ops hO
  exact ⟨os, st', h⟩

/-- A linear handle with its position inside the first frame, called with one input frame. -/
theorem linear_one_frame {st : SrcState} {d : SrcData} {ch o : ℕ} {t p l : ℚ} {before : Option (List F32)} {m : Mem}
    (V : View .linear st ch p l before) (hmode : st.mode = .process) (g : GoodCall ch d 1 o t) (ho : 1 ≤ o) (hp : p < 1) :
    srcProcess m (some st) (some d) = .error .oobRead := by
  obtain ⟨st1, h1, h2, h3⟩ := process_enters (m := m) hmode V.hch g V.hl V.vl
  obtain ⟨z, hz1, hz2, hz3⟩ := V.hpriv
  set d1 : SrcData := { clampFrames d with inputFramesUsed := 0, outputFramesGen := 0 } with hd1
  have hn : d1.inputFrames = 1 := by
    simp only [hd1, clampFrames]; rw [clamp_toNat, g.hn]; rfl
  have ho' : d1.outputFrames = o := by
    simp only [hd1, clampFrames]; rw [clamp_toNat, g.ho]
  have hchs : st1.channels = ch := by rw [h2]; exact V.hch
  have hin : d1.dataIn ≠ 0 := by
    rcases g.hin with h | h
    · omega
    · exact h
  have hpos1 : st1.lastPosition.val = some p := by rw [h2]; exact V.hpos
  have vs := startRatio_valid V.vl g.vt
  have hlv : ∃ lv, initLast m d1 st1.channels z = .ok lv := by
    unfold initLast
    cases z.dirty with
    | true => exact ⟨_, rfl⟩
    | false =>
      simp only [Bool.false_eq_true, if_false]
      rw [hchs, loadLast_spec hin hz2 (le_refl _) (by rw [hn]; simp)]
      exact ⟨_, rfl⟩
  obtain ⟨lv, hlv⟩ := hlv
  have hic : chkI64 (d1.inputFrames * st1.channels) = .ok ((ch * 1 : ℕ) : ℤ) := by rw [hchs]; exact chk64_frames hn g.hnb
  have hoc : chkI64 (d1.outputFrames * st1.channels) = .ok ((ch * o : ℕ) : ℤ) := by rw [hchs]; exact chk64_frames ho' g.hob
  have hbad : isBadSrcRatio st1.lastRatio = false := (isBad_false_iff h3).2 vs
  have hchM := V.hchM
  have hch1 := V.hch1
  have hop : 0 < ch * o := Nat.mul_pos (by omega) (by omega)
  have hdch : (dbl (ch : ℤ)).val = some (ch : ℚ) := by
    have := dbl_val (n := (ch : ℤ)) (by rw [abs_of_nonneg (by positivity)]; omega)
    simpa using this
  have hd0 : (dbl 0).val = some 0 := by simpa using dbl_val (n := 0) (by norm_num)
  have hlow : (ch : ℚ) ≤ 8355967 := by exact_mod_cast hchM
  have hchp : (0 : ℚ) < ch := by exact_mod_cast hch1
  have hp0 := V.hp0
  have hrepch : Rep0 f64 (ch : ℚ) := rep64_nat (by omega)
  -- the start-up loop breaks off at once
  have hbrk : linearKernel.brk ch ((ch * 1 : ℕ) : ℤ) ⟨m, 0, 0, st1.lastPosition, st1.lastRatio⟩ = true := by
    have a1 := add64 one64_val hpos1 (by rw [abs_of_nonneg (by linarith)]; norm_num; linarith)
    have b1 : 1 ≤ r64 (1 + p) := le_rq (rep64_val one64_val) (by linarith)
    have b2 : r64 (1 + p) ≤ 2 := rq_le (by simpa using rep64_nat (n := 2) (by norm_num)) (by linarith)
    have c0 : (ch : ℚ) * r64 (1 + p) ≤ 8355967 * 2 := mul_le_mul hlow b2 (by linarith) (by norm_num)
    have c1 : (ch : ℚ) ≤ ch * r64 (1 + p) := by nlinarith
    have a2 := mul64 hdch a1 (by rw [abs_of_nonneg (by linarith)]; exact c0.trans (by norm_num))
    have d1 : (ch : ℚ) ≤ r64 (ch * r64 (1 + p)) := le_rq hrepch c1
    have d2 : r64 (ch * r64 (1 + p)) ≤ 16711934 := by
      refine rq_le (by simpa using rep64_nat (n := 16711934) (by norm_num)) (c0.trans (by norm_num))
    have a3 := add64 hd0 a2 (by rw [zero_add, abs_of_nonneg (by linarith)]; exact d2.trans (by norm_num))
    rw [zero_add, show r64 (r64 (↑ch * r64 (1 + p))) = _ from rq_rq _ _] at a3
    simp only [linearKernel, Nat.mul_one]
    rw [Fl.ge, Fl.le_val hdch a3]
    simpa using d1
  have hfirst : skFirst linearKernel st1 d1 lv ((ch * 1 : ℕ) : ℤ) ((ch * o : ℕ) : ℤ)
      ⟨m, 0, 0, st1.lastPosition, st1.lastRatio⟩ = .ok (false, ⟨m, 0, 0, st1.lastPosition, st1.lastRatio⟩) := by
    unfold skFirst
    rw [if_neg]
    · rw [hchs, if_pos hbrk]; rfl
    · rw [not_not, Fl.lt_val hpos1 one64_val]
      exact ⟨by simpa using hp, by dsimp only; exact_mod_cast hop⟩
  obtain ⟨s2, hn1, hn2, hn3, hn4, hn5, hn6⟩ := normIdx_spec (s := ⟨m, 0, 0, st1.lastPosition, st1.lastRatio⟩) hpos1 hp0 V.hp1 hchM
  have hfl : ⌊p⌋ = 0 := Int.floor_eq_zero_iff.2 ⟨hp0, hp⟩
  rw [hfl] at hn3
  simp only [Int.toNat_zero, Nat.cast_zero, mul_zero, add_zero] at hn3
  rw [Int.fract_eq_self.2 ⟨hp0, hp⟩] at hn5
  -- and the main loop reads the frame before the buffer
  have hguard : linearKernel.guard ch ((ch * 1 : ℕ) : ℤ) s2 = true := by
    have c2 : 0 ≤ (ch : ℚ) * p := by positivity
    have a2 := mul64 hdch hn5 (by rw [abs_of_nonneg c2]; exact (by nlinarith : (ch : ℚ) * p ≤ 8355967).trans (by norm_num))
    have e1 : r64 ((ch : ℚ) * p) < ch := chan_frac_lt hch1 hchM (rep64_val hn5) hp0 hp
    have e0 : 0 ≤ r64 ((ch : ℚ) * p) := rq_nonneg c2
    have a3 := add64 hd0 a2 (by rw [zero_add, abs_of_nonneg e0]; exact (e1.le.trans hlow).trans (by norm_num))
    rw [zero_add, show r64 (r64 (↑ch * p)) = _ from rq_rq _ _] at a3
    simp only [linearKernel, Nat.mul_one, hn3]
    rw [Fl.lt_val a3 hdch]
    simpa using e1
  have hmain : skMain linearKernel st1 d1 ((ch * 1 : ℕ) : ℤ) ((ch * o : ℕ) : ℤ) s2 = .error .oobRead := by
    unfold skMain
    rw [if_neg (by rw [not_not, hn4, hchs]; exact ⟨by dsimp only; exact_mod_cast hop, hguard⟩)]
    obtain ⟨c, rfl⟩ : ∃ c, ch = c + 1 := ⟨ch - 1, by omega⟩
    rw [hchs, Int.toNat_natCast]
    have : ∀ (n : ℕ) (f : ℕ → Mem × ℤ → M (Mem × ℤ)) (s : Mem × ℤ), f 0 s = .error .oobRead → forM' (n + 1) f s = .error .oobRead := by
      intro n f s h
      simp only [forM', List.range_succ_eq_map, List.foldlM_cons, h]
      rfl
    rw [this]
    · rfl
    · simp only [linearKernel, hn3]
      unfold rdIn
      rw [if_neg hin, if_neg (by push_cast; omega)]
      rfl
  rw [h1]
  have hvp : variProcess m st1 d1 = skBody linearKernel .linear m st1 d1 z := by
    unfold variProcess
    rw [show st1.vt = .linear by rw [h2]; exact V.hvt]
    exact linear_eq_body (by rw [h2]; exact hz1) (by rw [hn]; norm_num)
  rw [hvp]
  unfold skBody
  rw [hlv, hic, hoc]
  simp only [bind, Except.bind, hbad, Bool.false_eq_true, if_false, whileM]
  rw [hfirst]
  simp only [Bool.false_eq_true, if_false, pure, Except.pure]
  rw [hchs, hn1]
  simp only [hmain]

/-- The code violates C07: the first call of a linear handle that brings exactly one input frame and asks for output reads outside
the input buffer, for every channel count, memory and ratio (`data_in [-channels]`, src_linear.c:122). -/
theorem C07_one_frame (cfg : Config) (ch : ℕ) (hc : ch ≤ 8355967) (e : ℤ) (st : SrcState)
    (h : srcNew cfg SRC_LINEAR ch = .ok (e, some st)) (m : Mem) (d : SrcData) (h1 : d.inputFrames = 1) (h2 : 1 ≤ d.outputFrames)
    (hO : Ordinary 1 ch d) (hb : ¬ MissingBuffer d) (hr : ¬ BadRatio d.srcRatio)
    (hcl : ¬ Clash d.dataIn (samples ch d.inputFrames) d.dataOut (samples ch d.outputFrames)) :
    srcProcess m (some st) (some d) = .error .oobRead := by
  obtain ⟨V, hm, _⟩ := new_view (K := .linear) h rfl (by exact_mod_cast hc)
  rw [Int.toNat_natCast] at V
  rcases ordinary_cases V.hch hm hO with ⟨e, hf⟩ | ⟨_, _, _, t, g⟩
  · exfalso
    cases hf with
    | state hh => simp at hh
    | mode s a b => cases a; exact b hm
    | data s a b c => cases c
    | buffer s y a b c d => cases c; exact hb d
    | ratio s y a b c d e => cases c; exact hr e
    | overlap s y a b c d e f => cases a; cases c; rw [V.hch] at f; exact hcl f
  · rw [h1] at g
    exact linear_one_frame V hm g (by omega) (by norm_num)

/-- Non-vacuity of `C07_one_frame`. -/
example : ∃ d : SrcData, d.inputFrames = 1 ∧ 1 ≤ d.outputFrames ∧ Ordinary 1 (2 : ℕ) d ∧ ¬ MissingBuffer d ∧ ¬ BadRatio d.srcRatio ∧
    ¬ Clash d.dataIn (samples (2 : ℕ) d.inputFrames) d.dataOut (samples (2 : ℕ) d.outputFrames) := by
  obtain ⟨a, b, c, d⟩ := smallCall_ok .zoh
  refine ⟨{ smallCall with inputFrames := 1 }, rfl, by simp [smallCall], ⟨a.ratio, by norm_num [samples], a.outSize, by simp⟩, ?_, c, ?_⟩
  · simp [MissingBuffer, smallCall]
  · simp [Clash, smallCall, samples]

/-- C11 seen from the stream, zero order hold and linear: every output frame of a stream is produced at a ratio in `[1/256, 256]`, however the
ratio is changed between and during calls, namely the one given by the schedule `ratiosFrom`, and the remembered ratio is again in this range (or 0 on an unused handle). -/
theorem C11_stream (cfg : Config) (type : ℤ) (ht : type = SRC_ZERO_ORDER_HOLD ∨ type = SRC_LINEAR) (ch : ℕ)
    (hc : ch ≤ 8355967) (e : ℤ) (st st1 : SrcState) (h : srcNew cfg type ch = .ok (e, some st)) (ops : List Op) (os : List Obs)
    (hO : ∀ op ∈ ops, OrdinaryOp 1 ch op) (hr : run ops st = .ok (os, st1)) :
    (GoodRatio st1.lastRatio ∨ st1.lastRatio.val = some 0) ∧
    ∀ (x : ℕ → ℕ → F32) (V : ℕ), Fed x ch 0 ops os V →
      ∃ ρ : ℕ → ℚ, (∀ j < (outputs ch os).length, 1 / 256 ≤ ρ j ∧ ρ j ≤ 256) ∧
        ratiosFrom ratioAt ch 0 ops os = (List.range (outputs ch os).length).map ρ ∧
        outputs ch os = (List.range (outputs ch os).length).map (fun j => frameOf ch (idealAt type x (timeAt ρ j))) := by
  constructor
  · obtain ⟨K, rfl⟩ := kind_of ht
    obtain ⟨os', st2, h1, _, ⟨p, l, before, V⟩, _⟩ := history_new_ok h hc ops hO ⟨_, hr⟩
    rw [hr] at h1
    cases h1
    rcases V.vl with h | h
    · exact Or.inr (by rw [V.hl, h])
    · exact Or.inl ⟨l, V.hl, h⟩
  · intro x V hF
    obtain ⟨ρ, h1, _, hR, h2, _⟩ := C24_interp cfg type ht ch hc e st st1 h x ops os V hO hr hF
    exact ⟨ρ, h1, hR, h2⟩

/-- C12 for zero order hold and linear (sinc: `C12_sinc`): after `src_set_ratio (r)`, a `src_process` call with `src_ratio = r` produces all its
output frames at ratio `r`, with no interpolation from the previous ratio, and `r` is the remembered ratio. -/
theorem C12_interp (cfg : Config) (type : ℤ) (ht : type = SRC_ZERO_ORDER_HOLD ∨ type = SRC_LINEAR) (ch : ℕ)
    (hc : ch ≤ 8355967) (e : ℤ) (st st1 st2 st3 : SrcState) (h : srcNew cfg type ch = .ok (e, some st)) (x : ℕ → ℕ → F32) (ops : List Op)
    (os : List Obs) (U : ℕ) (hO : ∀ op ∈ ops, OrdinaryOp 1 ch op) (hF : Fed x ch 0 ops os U) (hr : run ops st = .ok (os, st1))
    (r : F64) (q : ℚ) (hq : r.val = some q) (hq1 : 1 / 256 ≤ q) (hq2 : q ≤ 256) (o1 o2 : Obs)
    (hs : (Op.setRatio r).run st1 = .ok (o1, st2)) (m : Mem) (d : SrcData) (hd : Ordinary 1 ch d) (hdr : d.srcRatio = r)
    (hP : Presents x ch U m d) (hp : (Op.process m (some d)).run st2 = .ok (o2, st3)) (h0 : o2.ret = 0) :
    o1.ret = 0 ∧ st3.lastRatio.val = some q ∧
    ∃ ρ : ℕ → ℚ, (∀ j, (outputs ch os).length ≤ j → ρ j = q) ∧
      outputs ch os ++ outOf ch o2 = (List.range ((outputs ch os).length + (outOf ch o2).length)).map
        (fun j => frameOf ch (idealAt type x (timeAt ρ j))) := by
  obtain ⟨K, rfl⟩ := kind_of ht
  obtain ⟨ρ, _, h2, _, _, _, _, l, T, _⟩ := stream_new h hc hO hF hr
  have hrn : r ≠ .nan := by rintro rfl; simp [Fl.val] at hq
  have hgood : isBadSrcRatio r = false := (isBad_false_iff hq).2 ⟨hq1, hq2⟩
  obtain ⟨_, l', T', _⟩ := track_setRatio T hrn hs
  have hs' : o1.ret = 0 ∧ st2.lastRatio = r := by
    simp only [Op.run, srcSetRatio, hgood, Bool.false_eq_true, if_false] at hs
    have hs := ok_inj hs
    simp only [Prod.mk.injEq] at hs
    rw [← hs.1, ← hs.2]
    exact ⟨rfl, rfl⟩
  have hl' : l' = q := by
    obtain ⟨p, b, V, _⟩ := T'.view
    have := V.hl
    rw [hs'.2, hq] at this
    exact (Option.some.inj this).symm
  obtain ⟨d1, ρ1, g, u, t, e1, e2, _, e3, _, e4, e5, e6, e7, e8, eb, es, eu, ek, l1, T1, vl1, e9, _⟩ := track_call T' hd hP hp h0
  have htq : t = q := by
    rw [hdr, hq] at e4
    exact (Option.some.inj e4).symm
  subst htq
  subst hl'
  have hst : startRatio l' l' = l' := by simp [startRatio]
  have e7 := e7 hst
  refine ⟨hs'.1, ?_, joinAt (outputs ch os).length ρ (fun _ => l'), ?_, ?_⟩
  · obtain ⟨p, b, V, _⟩ := T1.view
    rw [V.hl, e9 hst]
  · intro j hj
    simp [joinAt, not_lt.2 hj]
  · have hlen : (outOf ch o2).length = g := by rw [e8]; simp
    rw [hlen, List.range_add, List.map_append, e8]
    congr 1
    · conv_lhs => rw [h2]
      refine List.map_congr_left (fun j hj => ?_)
      rw [← ideal_eq, posAt_congr (ρ := joinAt _ ρ _) (ρ' := ρ)
        (fun i hi => by simp [joinAt, show i < (outputs ch os).length by have := List.mem_range.1 hj; omega])]
    · rw [List.map_map]
      refine List.map_congr_left (fun j hj => ?_)
      simp only [Function.comp_apply]
      rw [← ideal_eq, posAt_join, posAt_congr (ρ := ρ1) (ρ' := fun _ => l')
        (fun i hi => e7 i (by have := List.mem_range.1 hj; omega))]

/-- Non-vacuity of C04-C07, C10-C12: an ordinary history with a rejected call, a ratio change, output and a reset. -/
example (K : Kind) : ∀ op ∈ [Op.process (fun _ => zero32) (some smallCall), .process (fun _ => zero32) none, .setRatio (dbl 2),
    .process (fun _ => zero32) (some { smallCall with srcRatio := dbl 2 }), .reset], OrdinaryOp K.lo (2 : ℕ) op := by
  have h2 : (dbl 2).val = some 2 := by simpa using dbl_val (n := 2) (by norm_num)
  have hn : dbl 2 ≠ .nan := by intro h; rw [h] at h2; simp [Fl.val] at h2
  obtain ⟨a, b, c, d⟩ := smallCall_ok K
  intro op hop
  simp only [List.mem_cons, List.not_mem_nil, or_false] at hop
  rcases hop with rfl | rfl | rfl | rfl | rfl
  · exact .process _ _ (by rintro _ ⟨⟩; exact a)
  · exact .process _ _ (by rintro _ ⟨⟩)
  · exact .setRatio _ hn
  · exact .process _ _ (by rintro _ ⟨⟩; exact ⟨hn, a.inSize, a.outSize, a.few⟩)
  · exact .reset

end Verif
