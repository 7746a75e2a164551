import Verif.Spec.Twin
import Verif.Proof.SincSafe
import Verif.Proof.ProcessRel

/-! Two histories that differ in sample values only, for all converters. -/

namespace Verif
open Spec

variable {T : SRel}

/-- The loop invariant `SafeL` provides what the relational theorem needs. -/
theorem sincOk_safe {N inc B : ℤ} {ch : ℕ} {st : SrcState} (S : SafeS N inc B ch st) (hmode : st.mode = .process) {d : SrcData} (hO : Ordinary 1 ch d)
    (hb : ¬ MissingBuffer d) (hr : ¬ BadRatio d.srcRatio)
    (hcl : ¬ Clash d.dataIn (samples st.channels d.inputFrames) d.dataOut (samples st.channels d.outputFrames)) (m : Mem) :
    SincOk T m (innerState st d) (innerData d) := by
  rcases ordinary_cases S.hch hmode hO with ⟨e, hf⟩ | ⟨_, _, _, t, g⟩
  · exfalso
    cases hf with
    | state hh => simp at hh
    | mode s a b => cases a; exact b hmode
    | data s a b c => cases c
    | buffer s y a b c d => cases c; exact hb d
    | ratio s y a b c d e => cases c; exact hr e
    | overlap s y a b c d e f => cases a; cases c; exact hcl f
  obtain ⟨l, hl, vl⟩ := S.hrat
  obtain ⟨i, hpos, hi0, hi1⟩ := S.hpos
  have h2 : innerState st d = { st with lastRatio := (innerState st d).lastRatio } := by unfold innerState; split_ifs <;> rfl
  have h3 : (innerState st d).lastRatio.val = some (startRatio l t) := by
    unfold innerState
    rw [Fl.lt_val hl min_ratio_val]
    unfold startRatio
    rcases vl with h | h
    · rw [if_pos h, h]; simp [g.ht]
    · have : l ≠ 0 := by have := h.1; intro h0; rw [h0] at this; norm_num at this
      rw [if_neg this, if_neg (by simp; have := h.1; linarith)]
      exact hl
  have vs := startRatio_valid vl g.vt
  have hch : (innerState st d).channels = ch := by rw [h2]; exact S.hch
  have hn : (innerData d).inputFrames = (d.inputFrames.toNat : ℤ) := by simp only [innerData, clampFrames]; rw [clamp_toNat]
  have ho : (innerData d).outputFrames = (d.outputFrames.toNat : ℤ) := by simp only [innerData, clampFrames]; rw [clamp_toNat]
  refine Or.inr (fun f v hp hv => ?_)
  have hve : v = sincVariantOf ch := by
    have hvt : (innerState st d).vt = sincVt ch := by rw [h2]; exact S.hvt
    rw [hvt] at hv
    unfold sincVt at hv
    unfold sincVariantOf
    split_ifs at hv ⊢ <;> simpa using hv
  subst hve
  have Q : SafeCall N inc B ch (innerState st d) (innerData d) (sincVariantOf ch) (startRatio l t) t d.inputFrames.toNat d.outputFrames.toNat :=
    ⟨geom_ctx S.geo S.hch1 S.hchM (validMin vs g.vt), sincVariant_fits S.hchM, hch, h3, g.ht, vs, g.vt, hn, ho, g.hout, g.hob⟩
  obtain ⟨f', hp', SF⟩ := S.hpriv
  have hff : f' = f := by
    have : (innerState st d).priv = st.priv := by rw [h2]
    rw [this, hp'] at hp
    cases hp; rfl
  subst hff
  rw [hch]
  refine ⟨?_, fun half s => half = ch * sincReach N inc (min (startRatio l t) t) ∧ ∃ g, SafeL N inc B ch m (innerData d) (startRatio l t) t d.inputFrames.toNat d.outputFrames.toNat g s, ?_, ?_, ?_⟩
  · exact (sincVariant_fits S.hchM).1
  · intro half f1 idx hh h1
    rw [hn, ho] at hh h1
    rw [Q.C.geo.half_val (by exact SF.hN) (by exact SF.hinc) Q.C.ch1 Q.C.chM Q.hl Q.ht Q.vl Q.vt] at hh
    have hh := Except.ok.inj hh
    subst hh
    refine ⟨rfl, 0, ?_⟩
    have hfl : ⌊i⌋ = 0 := Int.floor_eq_zero_iff.2 ⟨hi0, hi1⟩
    have S0 : SafeF N inc B ch { f' with inCount := (d.inputFrames.toNat : ℤ) * ch, outCount := (d.outputFrames.toNat : ℤ) * ch, inUsed := 0, outGen := 0 } :=
      ⟨SF.hN, SF.hinc, SF.hlen, SF.dvdC, SF.c0, SF.lt, SF.le, SF.be, SF.z, SF.dvdE⟩
    have hpos' : (innerState st d).lastPosition.val = some i := by rw [h2]; exact hpos
    obtain ⟨n1, n2⟩ := sincNorm_safe S0 Q.C hpos' hi0 (by linarith) (by rw [hfl, mul_zero, add_zero]; exact S0.lt)
    rw [hfl, mul_zero, add_zero] at n1
    rw [n1] at h1
    have h1 := Except.ok.inj h1
    simp only [Prod.mk.injEq] at h1
    obtain ⟨rfl, rfl⟩ := h1
    rw [Int.fract_eq_self.2 ⟨hi0, hi1⟩] at n2
    refine ⟨S0, ?_, ?_, dvd_zero _, le_refl _, ?_, by simp [sincInit], Nat.zero_le _, ⟨fun _ => zero32, ?_⟩, ⟨i, n2, hi0, hi1⟩, ⟨_, Q.hl, Q.vl⟩,
        fun _ => Q.hl⟩
    · simp only [sincInit]; push_cast; ring
    · simp only [sincInit]; push_cast; ring
    · simp only [sincInit]; positivity
    · rw [Nat.mul_zero, Mem.setRange_zero]; rfl
  · rintro half s s' ⟨rfl, g, I⟩ h
    exact ⟨rfl, (sincStep_safe Q I h).1⟩
  · rintro half s ⟨rfl, g, I⟩
    exact Or.inr ⟨I.safe.dvdC, fun h => I.safe.dvdE h, I.safe.be⟩

/-- Handles for which the relational theorem holds: zero order hold and linear handles, and sinc handles in a sound state. -/
def TwinOk (ch : ℕ) (st : SrcState) : Prop :=
  Like st st ∧ st.channels = ch ∧ (st.vt = .zoh ∨ st.vt = .linear ∨ ∃ N inc B, SafeS N inc B ch st ∧ st.mode = .process)

/-- The relation on addresses during a call that has written `g` samples: input samples and written output samples are related. -/
def twinW (T : SRel) (ch : ℤ) (x : SrcData) (g a : ℤ) (u v : F32) : Prop :=
  (∀ i, 0 ≤ i → i < max x.inputFrames 0 * ch → a = x.dataIn + i → T.S (i % ch) u v) ∧
  (∀ i, 0 ≤ i → i < g → a = x.dataOut + i → T.S (i % ch) u v)

theorem twin_compat {ch : ℤ} {x : SrcData} (hcl : ¬ Clash x.dataIn (samples ch x.inputFrames) x.dataOut (samples ch x.outputFrames)) :
    Compat T (twinW T ch x) (innerData x) ch := by
  have e1 : (innerData x).inputFrames = max x.inputFrames 0 := by simp only [innerData, clampFrames]; rw [clamp_eq]
  have e2 : (innerData x).outputFrames = max x.outputFrames 0 := by simp only [innerData, clampFrames]; rw [clamp_eq]
  have e3 : (innerData x).dataIn = x.dataIn := rfl
  have e4 : (innerData x).dataOut = x.dataOut := rfl
  unfold Clash samples at hcl
  refine ⟨?_, ?_, ?_⟩
  · intro g i h0 h1 u v hW
    rw [e1] at h1
    exact hW.1 i h0 h1 rfl
  · intro i h0 h1 u v hS
    rw [e2] at h1
    rw [e4]
    refine ⟨fun j j0 j1 he => ?_, fun j j0 j1 he => ?_⟩
    · exfalso; omega
    · obtain rfl : i = j := by omega
      exact hS
  · intro i h0 h1 a u v hne hW
    rw [e4] at hne
    refine ⟨hW.1, fun j j0 j1 he => hW.2 j j0 ?_ he⟩
    have : j ≠ i := by rintro rfl; exact hne he
    omega

/-- One call. -/
theorem twin_op {ch : ℕ} {st st' : SrcState} {op op' : Op} (H : TwinOk ch st) (h : StRel T st st') (ht : Twin T.S ch op op') (hO : OrdinaryOp 1 ch op) :
    RelM (fun p q => TwinObs T.S ch op p.1 q.1 ∧ StRel T p.2 q.2) (op.run st) (op'.run st') := by
  obtain ⟨L, hch, hk⟩ := H
  cases ht with
  | process m m' d hd =>
    cases d with
    | none =>
      have e : st'.mode = st.mode := by rw [h.eq]
      have := strel_obs h
      simp only [Op.run, srcProcess]
      rw [e]
      split_ifs
      · exact RelM.pure ⟨⟨rfl, rfl, this.1, this.2, by rintro _ _ hh; cases hh⟩, h⟩
      · exact RelM.pure ⟨⟨rfl, rfl, this.1, this.2, by rintro _ _ hh; cases hh⟩, h⟩
    | some x =>
      have hd := hd x rfl
      have hOx : Ordinary 1 ch x := by cases hO with | process _ _ hh => exact hh x rfl
      have hr := process_rel (T := T) (W := twinW T ch x) (m := m) (m' := m') (d := some x) h L
        (fun y hy hcl => by cases hy; rw [hch] at hcl ⊢; exact twin_compat hcl)
        (fun a => ⟨fun i h0 h1 he => by
            rw [he]; refine hd i h0 ?_
            rcases le_total x.inputFrames 0 with hx | hx
            · rw [max_eq_right hx] at h1; omega
            · rwa [max_eq_left hx] at h1, fun i h0 h1 => by omega⟩)
        (fun y hy hcl hr hb => by
          cases hy
          rcases hk with hk | hk | ⟨N, inc, B, S, hm⟩
          · refine Or.inr (fun f v _ hv => ?_)
            have : (innerState st x).vt = .zoh := by unfold innerState; split_ifs <;> exact hk
            rw [this] at hv; simp at hv
          · refine Or.inr (fun f v _ hv => ?_)
            have : (innerState st x).vt = .linear := by unfold innerState; split_ifs <;> exact hk
            rw [this] at hv; simp at hv
          · exact sincOk_safe S hm hOx hb hr hcl m)
      unfold Op.run
      refine RelM.bind_ok hr ?_
      rintro ⟨e, m1, o, d1⟩ ⟨e', m1', o', d1'⟩ ok1 _ ⟨f1, ⟨g, f2, f2'⟩, f3, a, b, f4, f5, hab⟩
      dsimp only at f1 f2 f2' f3 f4 f5
      subst f1; subst f3; subst f4; subst f5
      have := strel_obs hab
      refine RelM.pure ⟨⟨rfl, rfl, this.1, this.2, ?_⟩, hab⟩
      intro m0 y hy h0
      cases hy
      rcases f2' with f2' | f2'
      · obtain ⟨d, hdd⟩ : ∃ d, d1' = some d := by
          simp only [srcProcess] at ok1
          split at ok1
          · have ok1 := ok_inj ok1
            simp only [Prod.mk.injEq] at ok1
            exact ⟨_, ok1.2.2.2.symm⟩
          · obtain ⟨r, _, ok1⟩ := bind_ok ok1
            have ok1 := ok_inj ok1
            simp only [Prod.mk.injEq] at ok1
            exact ⟨_, ok1.2.2.2.symm⟩
        exact ⟨d, m1, m1', hdd, rfl, rfl, fun i _ _ => f2'.1 _ _ _⟩
      · obtain ⟨d, rfl, rfl⟩ := f2' h0
        refine ⟨d, m1, m1', rfl, rfl, rfl, fun i i0 i1 => (f2 (x.dataOut + i)).2 i i0 (by rw [hch]; exact i1) rfl⟩
  | setRatio r =>
    obtain ⟨h1, a, b, h2, h3, hab⟩ := setRatio_rel h r
    have := strel_obs hab
    simp only [Op.run]
    generalize srcSetRatio (some st) r = x at *
    generalize srcSetRatio (some st') r = y at *
    obtain ⟨e, s⟩ := x
    obtain ⟨e', s'⟩ := y
    dsimp only at h1 h2 h3 ⊢
    subst h1; subst h2; subst h3
    exact RelM.pure ⟨⟨rfl, rfl, this.1, this.2, by rintro _ _ hh; cases hh⟩, hab⟩
  | reset =>
    have hab := reset_rel h
    have := strel_obs hab
    exact RelM.pure ⟨⟨rfl, rfl, this.1, this.2, by rintro _ _ hh; cases hh⟩, hab⟩

theorem twinOk_op {ch : ℕ} {st st1 : SrcState} {op : Op} {o : Obs} (H : TwinOk ch st) (hO : OrdinaryOp 1 ch op) (h : op.run st = .ok (o, st1)) :
    TwinOk ch st1 := by
  obtain ⟨L, hch, hk⟩ := H
  have L1 := op_like L h
  refine ⟨like_self_priv L1, L1.channels.trans hch, ?_⟩
  rcases hk with hk | hk | ⟨N, inc, B, S, hm⟩
  · exact Or.inl (L1.vt.trans hk)
  · exact Or.inr (Or.inl (L1.vt.trans hk))
  · obtain ⟨_, S', hm'⟩ := op_safe S hm hO h
    exact Or.inr (Or.inr ⟨N, inc, B, S', hm'⟩)

/-- Whole histories. -/
theorem twin_run {ch : ℕ} : ∀ (ops ops' : List Op) {st st' : SrcState}, TwinOk ch st → StRel T st st' → List.Forall₂ (Twin T.S ch) ops ops' →
    (∀ op ∈ ops, OrdinaryOp 1 ch op) → RelM (fun p q => TwinHist T.S ch ops p.1 q.1 ∧ StRel T p.2 q.2) (run ops st) (run ops' st') := by
  intro ops
  induction ops with
  | nil => intro ops' st st' H h hf _; cases hf; exact ⟨.nil, h⟩
  | cons op ops ih =>
    intro ops' st st' H h hf hO
    cases hf with
    | cons h1 hf =>
      unfold run
      refine RelM.bind_ok (twin_op H h h1 (hO op (by simp))) ?_
      rintro ⟨o, a⟩ ⟨o', b⟩ ok1 ok2 ⟨ho, hab⟩
      refine RelM.bind (ih _ (twinOk_op H (hO op (by simp)) ok1) hab hf (fun p hp => hO p (by simp [hp]))) ?_
      rintro ⟨os, a⟩ ⟨os', b⟩ ⟨hos, hab⟩
      exact RelM.pure ⟨.cons _ _ _ _ _ _ ho hos, hab⟩

end Verif
