import Verif.Proof.Level

/-! Magnitude of the output samples of the interpolating converters. -/

namespace Verif
open Spec

variable {u : ℚ} {K : Kind} {ch : ℕ} {st : SrcState} {p l : ℚ} {before : Option (List F32)}

/-- The remembered frame is within `u`. -/
def BeforeOk (u : ℚ) (ch : ℕ) (before : Option (List F32)) : Prop := ∀ lv, before = some lv → ∀ c < ch, Within u (lastFn lv c)

theorem posOf_rep {l t p : ℚ} {ch o : ℕ} (hp : Rep0 f64 p) (hp0 : 0 ≤ p) (hp1 : p ≤ 257) (hl : Rep0 f64 l) (ht : Rep0 f64 t) (vl : ValidRatio l)
    (vt : ValidRatio t) (hch : 1 ≤ ch) (hb : ch * o ≤ 2 ^ 52) (j : ℕ) (hj : j ≤ o) : Rep0 f64 (posOf l t p ch o j).i := by
  cases j with
  | zero => exact fract_rep hp hp0 (by linarith)
  | succ j =>
    have hf := posAt_frac (start := Pos.ofQ p) (ρ := ratioAt l t ch o) (ofQ_frac p) j
    have hb := inv_bounds (ratioAt_valid hl ht vl vt hch (show j < o by omega) hb)
    simp only [posAt, Pos.advance]
    refine fract_rep (rep0_rq _ _) (rq_nonneg (by linarith)) ?_
    exact (rq_le (rep64_257) (by linarith)).trans (by norm_num)

theorem linearSample_within {a b : F32} {i : F64} {s : ℚ} (ha : Within u a) (hb : Within u b) (hi : i.val = some s) (h0 : 0 ≤ s) (h1 : s < 1) :
    Within u (Spec.between a b i) := by
  obtain ⟨p, hp, bp⟩ := ha
  obtain ⟨q, hq, bq⟩ := hb
  obtain ⟨a1, a2, a3⟩ := linearSample_val hp hq hi h0 h1
  refine ⟨_, a1, ?_⟩
  rw [abs_le] at *
  exact ⟨(le_min bp.1 bq.1).trans a2, a3.trans (max_le bp.2 bq.2)⟩

theorem interp_process_lev {m : Mem} (V : View K st ch p l before) (hb : BeforeOk u ch before) (hmode : st.mode = .process) (x : Option SrcData)
    (hO : ∀ d, x = some d → Ordinary 1 ch d) (hm : ∀ d, x = some d → InOk u m d ch)
    {e : ℤ} {m' : Mem} {st1 : Option SrcState} {x' : Option SrcData} (h : srcProcess m (some st) x = .ok (e, m', st1, x')) :
    ∃ st', st1 = some st' ∧ (∃ p l before, View K st' ch p l before ∧ BeforeOk u ch before) ∧ st'.mode = .process ∧
      (e = 0 → ∀ d, x = some d → ∃ d', x' = some d' ∧ ∀ i, 0 ≤ i → i < d'.outputFramesGen * ch → Within u (m' (d.dataOut + i))) := by
  cases x with
  | none =>
    simp only [srcProcess] at h
    rw [if_neg (by simp [hmode])] at h
    have h := ok_inj h
    simp only [Prod.mk.injEq] at h
    obtain ⟨rfl, rfl, rfl, rfl⟩ := h
    exact ⟨st, rfl, ⟨p, l, before, V, hb⟩, hmode, fun _ d hd => by cases hd⟩
  | some d =>
    have hO := hO d rfl
    have hm := hm d rfl
    rcases ordinary_cases V.hch hmode hO with ⟨e1, hf⟩ | ⟨_, _, _, t, g⟩
    · obtain ⟨d', hd'⟩ := process_rejects (m := m) hf (by
        rintro s y h1 h2; cases h1; cases h2
        have b1 := hO.inSize
        have b2 := hO.outSize
        rw [V.hch]
        exact ⟨by positivity, by omega, by omega⟩)
      rw [hd'] at h
      have h := Except.ok.inj h
      simp only [Prod.mk.injEq] at h
      obtain ⟨rfl, rfl, rfl, rfl⟩ := h
      refine ⟨st, rfl, ⟨p, l, before, V, hb⟩, hmode, fun h0 => ?_⟩
      have := firstFailing_arg hf
      rw [h0] at this
      simp [ArgError] at this
    · by_cases hn : d.inputFrames.toNat = 0
      · rw [hn] at g
        obtain ⟨st', h1, h2, h3⟩ := call_empty (m := m) V hmode g
        rw [h1] at h
        have h := Except.ok.inj h
        simp only [Prod.mk.injEq] at h
        obtain ⟨rfl, rfl, rfl, rfl⟩ := h
        refine ⟨st', rfl, ⟨_, _, _, h2, hb⟩, by rw [h3]; exact hmode, fun _ d1 _ => ⟨_, rfl, fun i i0 i1 => ?_⟩⟩
        simp only [callData] at i1
        omega
      · obtain ⟨gen, st', h1, h2, h3, h4, h5, h6⟩ := call_spec (m := m) V hmode g (by omega) (Or.inr ⟨_, h⟩)
        rw [h1] at h
        have h := Except.ok.inj h
        simp only [Prod.mk.injEq] at h
        obtain ⟨rfl, rfl, rfl, rfl⟩ := h
        have hin : ∀ k < d.inputFrames.toNat, ∀ c < ch, Within u (inFrames m d ch k c) := by
          intro k hk c hc
          refine hm _ (by positivity) ?_
          have : ch * (k + 1) ≤ ch * d.inputFrames.toNat := Nat.mul_le_mul_left _ hk
          have e : ch * (k + 1) = ch * k + ch := by ring
          have : ((ch * k + c : ℕ) : ℤ) < ((ch * d.inputFrames.toNat : ℕ) : ℤ) := by exact_mod_cast (by omega : ch * k + c < ch * d.inputFrames.toNat)
          rw [Nat.cast_mul ch, Int.toNat_of_nonneg (by omega), mul_comm (ch : ℤ)] at this
          exact this
        have hf0 : ∀ c < ch, Within u (lastFn (frame0 m d ch before) c) := by
          intro c hc
          cases before with
          | some lv => exact hb lv rfl c hc
          | none =>
            have := hin 0 (by omega) c hc
            simp only [frame0, Option.getD_none, lastFn, frameList_get hc, Option.getD_some]
            simpa [inFrames] using this
        have hnn : d.inputFrames.toNat ≤ 2 ^ 52 := le_trans (Nat.le_mul_of_pos_left _ V.hch1) g.hnb
        have hchM := V.hchM
        refine ⟨st', rfl, ⟨_, _, _, h5, ?_⟩, by rw [h6]; exact hmode, fun _ d1 hd1 => ⟨_, rfl, fun i i0 i1 => ?_⟩⟩
        · intro lv hlv c hc
          have hlv := Option.some.inj hlv
          rw [← hlv]
          split_ifs with hz
          · exact hf0 c hc
          · simp only [lastFn, frameList_get hc, Option.getD_some]
            have := hin (min (callPos ch d.outputFrames.toNat p l t gen).k d.inputFrames.toNat - 1) (by omega) c hc
            simp only [inFrames] at this
            push_cast at this ⊢
            rw [add_assoc]
            exact this
        · cases hd1
          simp only [callData] at i1
          obtain ⟨a, rfl⟩ := Int.eq_ofNat_of_zero_le i0
          have ha : a < ch * gen := by
            rw [mul_comm]
            exact_mod_cast i1
          rw [Mem.setRange_in ha]
          unfold outSamples
          have hj : a / ch < gen := Nat.div_lt_of_lt_mul ha
          have hc : a % ch < ch := Nat.mod_lt _ V.hch1
          generalize a / ch = j at hj
          generalize a % ch = c at hc
          have hCt := h3 j hj
          have hfr := posAt_frac (start := Pos.ofQ p) (ρ := ratioAt (startRatio l t) t ch d.outputFrames.toNat) (ofQ_frac p) j
          have vs := startRatio_valid V.vl g.vt
          have hsr : Rep0 f64 (startRatio l t) := by
            unfold startRatio
            split_ifs
            · exact rep64_val g.ht
            · exact rep64_val V.hl
          have hrep := posOf_rep (rep64_val V.hpos) V.hp0 V.hp1 hsr (rep64_val g.ht) vs g.vt V.hch1 g.hob j (by omega)
          generalize hP : callPos ch d.outputFrames.toNat p l t j = P at hCt
          have hrep : Rep0 f64 P.i := by rw [← hP]; exact hrep
          have hfr : 0 ≤ P.i ∧ P.i < 1 := by rw [← hP]; exact hfr
          have hprev : P.k ≤ d.inputFrames.toNat → Within u (prevFrame (lastFn (frame0 m d ch before)) (inFrames m d ch) P.k c) := by
            intro hk
            cases hk' : P.k with
            | zero => exact hf0 c hc
            | succ k => exact hin k (by omega) c hc
          cases K with
          | zoh =>
            simp only [Kind.out, zohOut]
            apply hprev
            rcases hCt with hk | hG
            · omega
            · exact zohG_bound V.hch1 (by have := g.hnb; omega) hG hfr.1
          | linear =>
            simp only [Kind.out, linearOut]
            have hk : P.k < d.inputFrames.toNat := by
              rcases hCt with hk | hG
              · omega
              · exact linG_bound (by have := g.hnb; omega) hG hfr.1
            have hlt1 : (1 : ℚ) < p2 f64.emax := by rw [← p2_zero]; exact p2_lt (by decide)
            exact linearSample_within (hprev hk.le) (hin P.k hk c hc)
              (Fl.val_round_of_rep ⟨hrep, by rw [abs_of_nonneg hfr.1]; exact hfr.2.trans hlt1⟩) hfr.1 hfr.2

theorem interp_history_lev : ∀ (ops : List Op) {st : SrcState}, (∃ p l before, View K st ch p l before ∧ BeforeOk u ch before) → st.mode = .process →
    (∀ op ∈ ops, OrdinaryOp 1 ch op) → (∀ op ∈ ops, InputWithin u ch op) →
    ∀ {os : List Obs} {st1 : SrcState}, run ops st = .ok (os, st1) → List.Forall₂ (OutputWithin u ch) ops os := by
  intro ops
  induction ops with
  | nil =>
    intro st V hm _ _ os st1 h
    have h := ok_inj h; simp only [Prod.mk.injEq] at h
    obtain ⟨rfl, rfl⟩ := h
    exact .nil
  | cons op ops ih =>
    rintro st ⟨p, l, before, V, hb⟩ hm hO hI os st1 h
    obtain ⟨⟨o, s1⟩, h1, h⟩ := bind_ok h
    obtain ⟨⟨os', s2⟩, h2, h⟩ := bind_ok h
    have h := ok_inj h; simp only [Prod.mk.injEq] at h
    obtain ⟨rfl, rfl⟩ := h
    suffices OutputWithin u ch op o ∧ (∃ p l before, View K s1 ch p l before ∧ BeforeOk u ch before) ∧ s1.mode = .process from
      .cons this.1 (ih this.2.1 this.2.2 (fun o ho => hO o (by simp [ho])) (fun o ho => hI o (by simp [ho])) h2)
    have hI := hI op (by simp)
    cases hO op (by simp) with
    | process m d hd =>
      obtain ⟨⟨e, m', sx, d'⟩, h1, h⟩ := bind_ok h1
      obtain ⟨s', rfl, L', hm', hR⟩ := interp_process_lev V hb hm d hd (fun x hx => hI m x (by rw [hx])) h1
      have h := ok_inj h
      simp only [Prod.mk.injEq] at h
      obtain ⟨rfl, rfl⟩ := h
      refine ⟨?_, L', hm'⟩
      intro m0 d0 hop h0
      cases hop
      obtain ⟨x', a, b⟩ := hR h0 d0 rfl
      exact ⟨x', m', a, rfl, b⟩
    | setRatio r hr =>
      obtain ⟨e, st', h1', h2', ⟨l', h3⟩, h4⟩ := setRatio_view V hr
      simp only [Op.run, h1'] at h1
      have h := ok_inj h1
      simp only [Prod.mk.injEq] at h
      obtain ⟨rfl, rfl⟩ := h
      exact ⟨fun _ _ hop => (by cases hop), ⟨_, _, _, h3, hb⟩, by show st'.mode = _; rw [h4]; exact hm⟩
    | reset =>
      have h := ok_inj h1
      simp only [Prod.mk.injEq] at h
      obtain ⟨rfl, rfl⟩ := h
      exact ⟨fun _ _ hop => (by cases hop), ⟨_, _, _, reset_view V, fun _ h => by cases h⟩, hm⟩

end Verif
