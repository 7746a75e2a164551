import Verif.Props.Sinc
import Verif.Proof.Neg
import Verif.Proof.SincFuel

/-! Properties of all converters: frame accounting (C04), write footprint (C05), internal errors (C10), ratios (C11), independence
of channels (C16), polarity (C42). -/

namespace Verif
open Spec

/-- A handle of `src_new` is a zero order hold, a linear or a sinc handle. -/
theorem new_type {cfg : Config} {type ch e : ℤ} {st : SrcState} (h : srcNew cfg type ch = .ok (e, some st)) :
    (type = SRC_ZERO_ORDER_HOLD ∨ type = SRC_LINEAR) ∨ SincType type := by
  by_cases h1 : type = SRC_SINC_BEST_QUALITY
  · exact Or.inr (Or.inl h1)
  by_cases h2 : type = SRC_SINC_MEDIUM_QUALITY
  · exact Or.inr (Or.inr (Or.inl h2))
  by_cases h3 : type = SRC_SINC_FASTEST
  · exact Or.inr (Or.inr (Or.inr h3))
  left
  have ht : cfg.table type = none := by unfold Config.table; rw [if_neg h1, if_neg h2, if_neg h3]
  unfold srcNew at h
  rw [ht] at h
  dsimp only at h
  by_cases h4 : type = SRC_ZERO_ORDER_HOLD
  · exact Or.inl h4
  by_cases h5 : type = SRC_LINEAR
  · exact Or.inr h5
  rw [if_neg h4, if_neg h5] at h
  have h := ok_inj h
  simp at h

/-- What all histories of a new handle have in common. -/
theorem all_history {cfg : Config} (hL : LibraryTables cfg) {type e : ℤ} {ch : ℕ} (hc : ch ≤ 8355967) {st st' : SrcState}
    (h : srcNew cfg type ch = .ok (e, some st)) {ops : List Op} (hO : ∀ op ∈ ops, OrdinaryOp 1 ch op) {os : List Obs}
    (hr : run ops st = .ok (os, st')) :
    List.Forall₂ (fun op o => SoundObs ch op o ∧ (SincType type ∨ WellBehaved ch op o)) ops os ∧
      (GoodRatio st'.lastRatio ∨ st'.lastRatio.val = some 0) := by
  rcases new_type h with ht | ht
  · obtain ⟨K, rfl⟩ := kind_of ht
    obtain ⟨os', st2, h1, h2, ⟨p, l, before, V⟩, _⟩ := history_new_ok h hc ops hO ⟨_, hr⟩
    rw [hr] at h1
    cases h1
    constructor
    · refine h2.imp (fun op o hw => ⟨?_, Or.inr hw⟩)
      cases op with
      | process m d => exact hw.imp id Or.inl
      | setRatio r => exact hw
      | reset => exact hw
      | read => trivial
    · rcases V.vl with h | h
      · exact Or.inr (by rw [V.hl, h])
      · exact Or.inl ⟨l, V.hl, h⟩
  · obtain ⟨t, hT, hd⟩ := sinc_table hL ht h
    obtain ⟨B, S, hm⟩ := new_safe hT hd h
    obtain ⟨h1, S1, _⟩ := history_safe ops S hm hO hr
    constructor
    · exact h1.imp (fun op o hw => ⟨hw, Or.inl ht⟩)
    · obtain ⟨l, hl, vl⟩ := S1.hrat
      rcases vl with h | h
      · exact Or.inr (by rw [hl, h])
      · exact Or.inl ⟨l, hl, h⟩

/-- C04, all converters: after every successful `src_process` of every history the frame counts are between zero and what was
offered.  (`ch ≤ 8355967`: beyond that `channels * 257` overflows an `int`, C06.) -/
theorem C04 (cfg : Config) (hL : LibraryTables cfg) (type : ℤ) (ch : ℕ) (hc : ch ≤ 8355967) (e : ℤ) (st st' : SrcState)
    (h : srcNew cfg type ch = .ok (e, some st)) (ops : List Op) (hO : ∀ op ∈ ops, OrdinaryOp 1 ch op) (os : List Obs)
    (hr : run ops st = .ok (os, st')) :
    List.Forall₂ (fun op o => ∀ m d, op = Op.process m (some d) → o.ret = 0 → ∃ d', o.data = some d' ∧ Accounted d d') ops os := by
  refine (all_history hL hc h hO hr).1.imp ?_
  rintro op o ⟨hw, _⟩ m d rfl h0
  rcases hw with ⟨ha, _⟩ | ⟨_, x, x', m', hx, hd, _, hA, _⟩ | ⟨h21, _⟩
  · rw [h0] at ha; rcases ha with h | h | h | h | h <;> norm_num at h
  · cases hx
    exact ⟨x', hd, hA⟩
  · rw [h0] at h21; norm_num at h21

/-- C05, all converters: a successful `src_process` changes no sample of memory outside the generated part of the output buffer, and
keeps the caller's fields of `SRC_DATA`; one that reports an argument error changes no memory, and one that reports an internal error
(see C10) nothing outside the output buffer.  That the generated part is written completely is `C05_written`. -/
theorem C05 (cfg : Config) (hL : LibraryTables cfg) (type : ℤ) (ch : ℕ) (hc : ch ≤ 8355967) (e : ℤ) (st st' : SrcState)
    (h : srcNew cfg type ch = .ok (e, some st)) (ops : List Op) (hO : ∀ op ∈ ops, OrdinaryOp 1 ch op) (os : List Obs)
    (hr : run ops st = .ok (os, st')) :
    List.Forall₂ (fun op o => ∀ m d, op = Op.process m d →
      (ArgError o.ret ∧ o.mem = some m) ∨
      (∃ x x' m', d = some x ∧ o.data = some x' ∧ o.mem = some m' ∧ KeepsArgs x x' ∧
        (o.ret = 0 → Footprint ch x x' m m') ∧ Footprint ch x { x with outputFramesGen := max x.outputFrames 0 } m m')) ops os := by
  refine (all_history hL hc h hO hr).1.imp ?_
  rintro op o ⟨hw, _⟩ m d rfl
  rcases hw with ⟨ha, hm⟩ | ⟨h0, x, x', m', hx, hd, hm, hA, hF, hK⟩ | ⟨h21, x, x', m', hx, hd, hm, hn, hF, hK⟩
  · exact Or.inl ⟨ha, hm⟩
  · refine Or.inr ⟨x, x', m', hx, hd, hm, hK, fun _ => hF, fun a ha => hF a (fun hb => ha ?_)⟩
    have h1 := hA.gen1
    have h2 : x'.outputFramesGen * (ch : ℤ) ≤ max x.outputFrames 0 * ch := mul_le_mul_of_nonneg_right h1 (by positivity)
    dsimp only
    omega
  · exact Or.inr ⟨x, x', m', hx, hd, hm, hK, fun h0 => by rw [h0] at h21; norm_num at h21, hF⟩

/-- C10, all converters: `src_process` returns no internal error, only 0 or an argument error, as long as a sinc handle is not given
`2^31` samples or more in one call (there it does, `C10_sinc_huge`). -/
theorem C10 (cfg : Config) (hL : LibraryTables cfg) (type : ℤ) (ch : ℕ) (hc : ch ≤ 8355967) (e : ℤ) (st st' : SrcState)
    (h : srcNew cfg type ch = .ok (e, some st)) (ops : List Op) (hO : ∀ op ∈ ops, OrdinaryOp 1 ch op) (os : List Obs)
    (hr : run ops st = .ok (os, st')) :
    List.Forall₂ (fun op o => ∀ m d, op = Op.process m d → (SincType type → ∀ x, d = some x → samples ch x.inputFrames < 2 ^ 31) →
      o.ret = 0 ∨ ArgError o.ret) ops os := by
  refine (all_history hL hc h hO hr).1.imp ?_
  rintro op o ⟨hw, hk⟩ m d rfl hsz
  rcases hw with ⟨ha, hm⟩ | ⟨h0, _⟩ | ⟨h21, x, x', m', hx, hd, hm, hn, hF, hK⟩
  · exact Or.inr ha
  · exact Or.inl h0
  · rcases hk with hk | hk
    · have := hsz hk x hx
      omega
    · rcases hk with ⟨ha, _⟩ | ⟨h0, _⟩
      · exact Or.inr ha
      · exact Or.inl h0

/-- C11, all converters: the ratio remembered by the handle, which is the last instantaneous ratio used, is in `[1/256, 256]` after
every history (0 on a handle that has not been used). -/
theorem C11 (cfg : Config) (hL : LibraryTables cfg) (type : ℤ) (ch : ℕ) (hc : ch ≤ 8355967) (e : ℤ) (st st' : SrcState)
    (h : srcNew cfg type ch = .ok (e, some st)) (ops : List Op) (hO : ∀ op ∈ ops, OrdinaryOp 1 ch op) (os : List Obs)
    (hr : run ops st = .ok (os, st')) : GoodRatio st'.lastRatio ∨ st'.lastRatio.val = some 0 :=
  (all_history hL hc h hO hr).2

/-- C11, each frame: with the ratio `last` of the previous call and the requested ratio `target` in `[1/256, 256]`, the instantaneous
ratio that the loops of all converters compute for an output position `g` of `n` samples is in this range again, with all roundings
(`cur`, the ratio of the previous frame, is kept when the two ratios are too close). -/
theorem C11_each (last target cur : F64) (hl : GoodRatio last) (ht : GoodRatio target) (hc : GoodRatio cur) (g n : ℤ) (hg : 0 ≤ g)
    (hgn : g < n) (hn : n ≤ 2 ^ 53) : GoodRatio (interpRatio last target g n cur) ∧ GoodRatio (sincRatio last target g n cur) := by
  obtain ⟨l, hl, vl⟩ := hl
  obtain ⟨t, ht, vt⟩ := ht
  have key : GoodRatio (Fl.add last (Fl.div (Fl.mul (dbl g) (Fl.sub target last)) (dbl n))) :=
    ⟨_, interp_val hl ht vl vt hg hgn hn, interpQ_valid (rep64_val hl) (rep64_val ht) vl vt hg hgn hn⟩
  constructor
  · unfold interpRatio; split_ifs
    · exact key
    · exact hc
  · unfold sincRatio; split_ifs
    · exact key
    · exact hc

theorem new_twin {cfg : Config} (hL : LibraryTables cfg) {type e : ℤ} {ch : ℕ} {st : SrcState} (h : srcNew cfg type ch = .ok (e, some st)) :
    TwinOk ch st := by
  have L := new_like h
  rcases new_type h with ht | ht
  · have : st.channels = ch ∧ (st.vt = .zoh ∨ st.vt = .linear) := by
      unfold srcNew at h
      rcases ht with rfl | rfl
      · have ht : cfg.table SRC_ZERO_ORDER_HOLD = none := by simp [Config.table, SRC_ZERO_ORDER_HOLD, SRC_SINC_BEST_QUALITY, SRC_SINC_MEDIUM_QUALITY, SRC_SINC_FASTEST]
        rw [ht] at h
        dsimp only at h
        rw [if_pos rfl] at h
        unfold zohStateNew at h
        obtain ⟨u, ha, h⟩ := bind_ok h
        have h := ok_inj h
        simp only [Prod.mk.injEq, Option.some.injEq] at h
        rw [← h.2]; exact ⟨rfl, Or.inl rfl⟩
      · have ht : cfg.table SRC_LINEAR = none := by simp [Config.table, SRC_LINEAR, SRC_SINC_BEST_QUALITY, SRC_SINC_MEDIUM_QUALITY, SRC_SINC_FASTEST]
        rw [ht] at h
        dsimp only at h
        rw [if_neg (by decide), if_pos rfl] at h
        unfold linearStateNew at h
        obtain ⟨u, ha, h⟩ := bind_ok h
        have h := ok_inj h
        simp only [Prod.mk.injEq, Option.some.injEq] at h
        rw [← h.2]; exact ⟨rfl, Or.inr rfl⟩
    exact ⟨L, this.1, this.2.imp id Or.inl⟩
  · obtain ⟨t, hT, hd⟩ := sinc_table hL ht h
    obtain ⟨B, S, hm⟩ := new_safe hT hd h
    exact ⟨L, S.hch, Or.inr (Or.inr ⟨_, _, _, S, hm⟩)⟩

theorem strel_self {T : SRel} (hT : ∀ c a, T.S c a a) (st : SrcState) : StRel T st st := by
  refine ⟨rfl, ?_⟩
  have hl : ∀ z : InterpData, ZRel T z z := fun z => ⟨rfl, rfl, fun c v v' h1 h2 => by rw [h1] at h2; cases h2; exact hT _ _⟩
  cases st.priv with
  | null => trivial
  | zoh z => exact hl z
  | linear z => exact hl z
  | sinc f => exact ⟨rfl, fun _ _ _ => hT _ _⟩

/-- A new handle holds only zeros. -/
theorem strel_new {T : SRel} {cfg : Config} {type ch e : ℤ} {st : SrcState} (h : srcNew cfg type ch = .ok (e, some st)) : StRel T st st := by
  have hz : ∀ c : ℤ, ZRel T (zohReset c (interpInit c)) (zohReset c (interpInit c)) := fun c => ⟨rfl, rfl, fun c v v' h1 h2 => by
    have a1 := List.mem_of_getElem? h1
    have a2 := List.mem_of_getElem? h2
    simp only [zohReset] at a1 a2
    rw [List.mem_replicate] at a1 a2
    rw [a1.2, a2.2]; exact T.zero _⟩
  have hz' : ∀ c : ℤ, ZRel T (linearReset c (interpInit c)) (linearReset c (interpInit c)) := fun c => ⟨rfl, rfl, fun c v v' h1 h2 => by
    have a1 := List.mem_of_getElem? h1
    have a2 := List.mem_of_getElem? h2
    simp only [linearReset] at a1 a2
    rw [List.mem_replicate] at a1 a2
    rw [a1.2, a2.2]; exact T.zero _⟩
  unfold srcNew at h
  split at h
  · unfold sincStateNew at h
    obtain ⟨u, ha, h⟩ := bind_ok h
    split at h
    · have h := ok_inj h; simp at h
    obtain ⟨b, hb, h⟩ := bind_ok h
    have h := ok_inj h
    simp only [Prod.mk.injEq, Option.some.injEq] at h
    rw [← h.2]
    refine ⟨rfl, ?_⟩
    dsimp only
    rw [resetPriv_sinc (ch := ch) rfl rfl]
    refine ⟨rfl, fun i h1 h2 => ?_⟩
    have h2 : i < (sincReset ch (sincFilterInit _ b)).bLen := h2
    simp only [sincReset] at h2 ⊢
    rw [if_pos ⟨h1, h2⟩]
    exact T.zero _
  · split at h
    · unfold zohStateNew at h
      obtain ⟨u, ha, h⟩ := bind_ok h
      have h := ok_inj h
      simp only [Prod.mk.injEq, Option.some.injEq] at h
      rw [← h.2]
      exact ⟨rfl, hz _⟩
    · split at h
      · unfold linearStateNew at h
        obtain ⟨u, ha, h⟩ := bind_ok h
        have h := ok_inj h
        simp only [Prod.mk.injEq, Option.some.injEq] at h
        rw [← h.2]
        exact ⟨rfl, hz' _⟩
      · have h := ok_inj h; simp at h

theorem twin_new (T : SRel) {cfg : Config} (hL : LibraryTables cfg) {type e : ℤ} {ch : ℕ} {st st1 : SrcState} (h : srcNew cfg type ch = .ok (e, some st))
    {ops ops' : List Op} (hO : ∀ op ∈ ops, OrdinaryOp 1 ch op) (hT : List.Forall₂ (Twin T.S ch) ops ops') {os : List Obs}
    (hr : run ops st = .ok (os, st1)) : ∃ os' st1', run ops' st = .ok (os', st1') ∧ TwinHist T.S ch ops os os' := by
  have := twin_run ops ops' (new_twin hL h) (strel_new (T := T) h) hT hO
  rw [hr] at this
  cases h' : run ops' st with
  | error f => rw [h'] at this; exact this.elim
  | ok p =>
    rw [h'] at this
    exact ⟨p.1, p.2, rfl, this.1⟩

/-- C05, all converters: the generated part of the output buffer is written completely, and its contents depend on nothing but the
samples in the input buffers of this and the earlier calls: if two histories agree there, they generate the same samples, whatever else
was in memory (in the output buffer, for example). -/
theorem C05_written (cfg : Config) (hL : LibraryTables cfg) (type : ℤ) (ch : ℕ) (e : ℤ) (st st1 : SrcState)
    (h : srcNew cfg type ch = .ok (e, some st)) (ops ops' : List Op) (hO : ∀ op ∈ ops, OrdinaryOp 1 ch op)
    (hT : List.Forall₂ (Twin (fun _ a b => a = b) ch) ops ops') (os : List Obs) (hr : run ops st = .ok (os, st1)) :
    ∃ os' st1', run ops' st = .ok (os', st1') ∧ TwinHist (fun _ a b => a = b) ch ops os os' :=
  twin_new eqT hL h hO hT hr

/-- C16, all converters: if the inputs of two histories agree on channel `k`, so do the outputs (and all return values and frame
counts are the same). -/
theorem C16 (cfg : Config) (hL : LibraryTables cfg) (type : ℤ) (ch : ℕ) (k : ℤ) (e : ℤ) (st st1 : SrcState)
    (h : srcNew cfg type ch = .ok (e, some st)) (ops ops' : List Op) (hO : ∀ op ∈ ops, OrdinaryOp 1 ch op)
    (hT : List.Forall₂ (Twin (fun c a b => c = k → a = b) ch) ops ops') (os : List Obs) (hr : run ops st = .ok (os, st1)) :
    ∃ os' st1', run ops' st = .ok (os', st1') ∧ TwinHist (fun c a b => c = k → a = b) ch ops os os' :=
  twin_new (chanT k) hL h hO hT hr

/-- C42, all converters: if the input of one history is the negated input of another, its output is the negated output (infinities
are negated, NaN goes to NaN; the sign of zero is not modelled), and all return values and frame counts are the same. -/
theorem C42 (cfg : Config) (hL : LibraryTables cfg) (type : ℤ) (ch : ℕ) (e : ℤ) (st st1 : SrcState)
    (h : srcNew cfg type ch = .ok (e, some st)) (ops ops' : List Op) (hO : ∀ op ∈ ops, OrdinaryOp 1 ch op)
    (hT : List.Forall₂ (Twin (fun _ a b => b = Fl.neg a) ch) ops ops') (os : List Obs) (hr : run ops st = .ok (os, st1)) :
    ∃ os' st1', run ops' st = .ok (os', st1') ∧ TwinHist (fun _ a b => b = Fl.neg a) ch ops os os' :=
  twin_new negT hL h hO hT hr

/-- Non-vacuity, sinc: the history of one call from `sinc_one_call` is ordinary, runs, and puts something out; with the other memory
its samples are the negated ones, and agree on channel 0. -/
example : ∃ st st1 os, srcNew fastCfg SRC_SINC_FASTEST (2 : ℕ) = .ok (0, some st) ∧
    (∀ op ∈ [Op.process (fun a => Fl.ofInt f32 (a % 2)) (some sincCall)], OrdinaryOp 1 (2 : ℕ) op) ∧
    run [.process (fun a => Fl.ofInt f32 (a % 2)) (some sincCall)] st = .ok (os, st1) ∧
    List.Forall₂ (Twin (fun c a b => c = 1 → a = b) (2 : ℕ)) [.process (fun a => Fl.ofInt f32 (a % 2)) (some sincCall)]
      [.process (fun a => if a % 2 = 0 then zero32 else Fl.ofInt f32 5) (some sincCall)] ∧
    List.Forall₂ (Twin (fun _ a b => b = Fl.neg a) (2 : ℕ)) [.process (fun a => Fl.ofInt f32 (a % 2)) (some sincCall)]
      [.process (fun a => Fl.neg (Fl.ofInt f32 (a % 2))) (some sincCall)] := by
  obtain ⟨st, o, st1, d', h1, h2, -⟩ := sinc_one_call
  have hr : run [.process (fun _ => zero32) (some sincCall)] st = .ok ([o], st1) := by
    simp only [run, h2]; rfl
  obtain ⟨os', st1', hr', -⟩ := C17 fastCfg st (.new _ _ _ _ h1) _ [.process (fun a => Fl.ofInt f32 (a % 2)) (some sincCall)]
    (.cons (.process _ _ _) .nil) _ _ hr
  refine ⟨st, st1', os', h1, ?_, hr', .cons (.process _ _ _ ?_) .nil, .cons (.process _ _ _ ?_) .nil⟩
  · intro op hop
    rw [List.mem_singleton] at hop
    subst hop
    refine .process _ _ (fun x hx => ?_)
    cases hx
    exact ⟨sincCall_sized.ratio, sincCall_sized.inSize.le.trans (by norm_num), sincCall_sized.outSize.trans (by norm_num),
      Or.inr (by norm_num [sincCall])⟩
  · rintro x hx i _ _ hi
    cases hx
    have : (sincCall.dataIn + i) % 2 = 0 := by simp only [sincCall]; omega
    rw [if_pos this, this]; rfl
  · rintro x hx i _ _
    rfl

/-- C09, all converters: `src_process` never keeps running.  In the model every loop has a limit: `output_frames` iterations and the one
that ends it for the processing loops, and for the two filter loops of the sinc converters the fixed point filter index at their start
(at most `4096 * coeff_half_len`) plus 2.  No limit is ever reached, for every handle (from `src_new` or `src_callback_new`) in every state
reached by any history, and all arguments, NaN ratios included; the call asks for at most `2^53` samples. -/
theorem C09 (cfg : Config) (hL : LibraryTables cfg) (st0 st : SrcState) (h : Created cfg st0) (r : Reach st0 st) (m : Mem) (d : Option SrcData)
    (hd : ∀ d', d = some d' → d'.outputFrames * st0.channels ≤ 2 ^ 53) : srcProcess m (some st) d ≠ .error .outOfFuel :=
  (process_noFuel_all hL h r m d (by rw [(reach_like h r).channels]; exact hd)).ne

/-- Non-vacuity of C09, sinc: the state after one call that puts something out. -/
example : ∃ (st st1 : SrcState) (o : Obs) (d' : SrcData), Created fastCfg st ∧
    run [.process (fun _ => zero32) (some sincCall)] st = .ok ([o], st1) ∧ o.data = some d' ∧ 98 ≤ d'.outputFramesGen ∧
    Reach st st1 ∧ sincCall.outputFrames * st.channels ≤ 2 ^ 53 := by
  obtain ⟨st, o, st1, d', h1, h2, h3, h4, h5, h6, h7⟩ := sinc_one_call
  have hr : run [.process (fun _ => zero32) (some sincCall)] st = .ok ([o], st1) := by simp only [run, h2]; rfl
  refine ⟨st, st1, o, d', .new _ _ _ _ h1, hr, h4, h7, ⟨_, _, hr⟩, ?_⟩
  rw [(new_params h1).2]; norm_num [sincCall]

end Verif
