import Verif.Spec.Endless
import Verif.Proof.CallbackError
import Verif.Proof.CallbackSafe

/-! Reads from a callback that always has input (C59). -/

namespace Verif
open Spec

section
variable {cfg : Config} {type e0 : ℤ} {ch : ℕ} {st0 : SrcState} {cb : Callback} {ud calls : ℕ} {ratio : F64} {frames dummy data inp len : ℤ}

/-- `n` frames at `a` lie inside the `len` samples at `inp`, or there are none. -/
def Within (ch : ℕ) (inp len a n : ℤ) : Prop := 0 ≤ n ∧ samples ch n < 2 ^ 31 ∧ (n = 0 ∨ (inp ≤ a ∧ a + n * ch ≤ inp + len))

/-- Invariant of the loop. -/
structure ELoop (ch : ℕ) (st0 : SrcState) (cb : Callback) (inp len : ℤ) (ud calls : ℕ) (ratio : F64) (frames data : ℤ) (s : CbSt) : Prop where
  held : HeldLoop ch st0 cb ud calls ratio frames s
  within : Within ch inp len s.d.dataIn s.d.inputFrames
  out : s.d.dataOut = data + s.gen * ch

theorem cbFetch_eloop (hcb : Supplies ch inp len cb) {s : CbSt} (H : ELoop ch st0 cb inp len ud calls ratio frames data s) :
    ELoop ch st0 cb inp len ud calls ratio frames data (cbFetch cb dummy s) ∧ 1 ≤ (cbFetch cb dummy s).d.inputFrames := by
  have F := cbFetch_held (dummy := dummy) (fun ud c m => samples_lt (hcb ud c m).2.1) H.held
  have key : Within ch inp len (cbFetch cb dummy s).d.dataIn (cbFetch cb dummy s).d.inputFrames ∧ (cbFetch cb dummy s).d.dataOut = data + (cbFetch cb dummy s).gen * ch ∧
      1 ≤ (cbFetch cb dummy s).d.inputFrames := by
    unfold cbFetch
    split_ifs with h1
    · obtain ⟨a1, a2, a, a3, a4, a5⟩ := hcb s.st.userData s.calls s.mem
      dsimp only
      refine ⟨⟨by omega, a2, Or.inr ?_⟩, H.out, a1⟩
      rw [a3, Option.getD_some]
      refine ⟨a4, ?_⟩
      unfold samples at a5
      rw [max_eq_left (by omega)] at a5
      exact a5
    · refine ⟨H.within, H.out, ?_⟩
      have := H.within.1
      omega
  exact ⟨⟨F, key.1, key.2.1⟩, key.2.2⟩

theorem cbStep_eloop (hL : LibraryTables cfg) (hc : ch ≤ 8355967) (h0 : srcNew cfg type ch = .ok (e0, some st0)) (hinp : 0 < inp)
    (hcb : Supplies ch inp len cb) (hr : GoodRatio ratio) (hf : samples ch frames ≤ 2 ^ 50) (hdata : 0 < data)
    (hdis : data + samples ch frames ≤ inp ∨ inp + len ≤ data) {s s' : CbSt} {b : Bool}
    (H : ELoop ch st0 cb inp len ud calls ratio frames data s) (h : cbStep cb dummy frames s = .ok (b, s')) :
    (b = true → ELoop ch st0 cb inp len ud calls ratio frames data s') ∧ s'.err = 0 ∧ Within ch inp len s'.d.dataIn s'.d.inputFrames := by
  have hcb' := fun ud c m => samples_lt (hcb ud c m).2.1
  have hf' : samples ch frames ≤ 2 ^ 52 := by norm_num at hf ⊢; omega
  obtain ⟨q, hq, q1, q2⟩ := hr
  have hnan : ratio ≠ .nan := by rintro rfl; cases hq
  have hbad : ¬ BadRatio ratio := by
    cases hr : ratio with
    | nan => exact absurd hr hnan
    | inf s => rw [hr] at hq; cases hq
    | fin x hx =>
      rw [hr] at hq
      cases hq
      simp only [BadRatio, not_or, not_lt]
      exact ⟨q1, q2⟩
  have hh := cbStep_held hL hc h0 hcb' hnan hf' H.held h
  obtain ⟨F, hin1⟩ := cbFetch_eloop (dummy := dummy) hcb H
  have hgen : (cbFetch cb dummy s).gen = s.gen := by unfold cbFetch; split_ifs <;> rfl
  rcases cbStep_inv h with ⟨_, rfl, rfl⟩ | ⟨hg, e, mem, st, d, hp, hcase⟩
  · exact ⟨fun h => (by cases h), H.held.err, H.within⟩
  obtain ⟨ps, qs, p, Bk⟩ := H.held.back
  have hsz : samples ch (cbFetch cb dummy s).d.outputFrames ≤ 2 ^ 52 := le_trans (samples_mono (by rw [F.held.room]; have := F.held.gen0; omega)) hf'
  have hO : Ordinary 1 ch (cbFetch cb dummy s).d := ordinary_of (by rw [F.held.hrat]; exact hnan) F.held.insize hsz
  obtain ⟨o, p', B', _, ho1, ho2, ho3, hok⟩ := Bk.step hL hc h0 hO hp
  have hch : st.channels = ch := by
    rw [(alike_iff.1 B'.alike).2.2.2.1, (reach_like (.new _ _ _ _ h0) ⟨_, _, B'.run⟩).channels]
    exact (new_params h0).2
  have hch0 : s.st.channels = ch := by
    rw [(alike_iff.1 Bk.alike).2.2.2.1, (reach_like (.new _ _ _ _ h0) ⟨_, _, Bk.run⟩).channels]
    exact (new_params h0).2
  have hpos : (0 : ℤ) < ch := by
    have := (reach_like (.new _ _ _ _ h0) ⟨_, _, Bk.run⟩).pos
    rwa [(new_params h0).2] at this
  have he : e = 0 := by
    rcases process_error_inv hp with ⟨hff, _⟩ | ⟨hpe, _⟩
    · exfalso
      cases hff with
      | state hh => simp at hh
      | mode s a b => cases a; exact b rfl
      | data s a b c => cases c
      | buffer s y a b c d =>
        cases c
        rcases d with ⟨d1, d2⟩ | ⟨d1, d2⟩
        · rcases F.within.2.2 with h | h <;> omega
        · rw [F.out] at d1
          have := mul_nonneg F.held.gen0 (Int.natCast_nonneg ch)
          omega
      | ratio s y a b c d e => cases c; rw [F.held.hrat] at e; exact hbad e
      | overlap s y a b c d e f =>
        cases a
        cases c
        dsimp only at f
        rw [hch0] at f
        obtain ⟨w1, w2⟩ := F.within.2.2.resolve_left (by omega)
        have e1 : samples ch (cbFetch cb dummy s).d.inputFrames = (cbFetch cb dummy s).d.inputFrames * ch := by
          unfold samples; rw [max_eq_left (by omega)]
        have e2 : samples ch (cbFetch cb dummy s).d.outputFrames = (frames - s.gen) * ch := by
          unfold samples; rw [F.held.room, hgen, max_eq_left (by omega)]
        have e3 : samples ch frames = frames * ch := by
          have := H.held.gen0
          unfold samples; rw [max_eq_left (by omega)]
        rw [e3] at hdis
        rw [e1, e2, F.out, hgen] at f
        have g0 := mul_nonneg H.held.gen0 (Int.natCast_nonneg ch)
        have g1 : (frames - s.gen) * (ch : ℤ) = frames * ch - s.gen * ch := by ring
        rw [g1] at f
        have g2 : s.gen * (ch : ℤ) ≤ frames * ch := mul_le_mul_of_nonneg_right H.held.gen1 (Int.natCast_nonneg ch)
        have g3 : 0 < (cbFetch cb dummy s).d.inputFrames * (ch : ℤ) := mul_pos (by omega) hpos
        rcases f with f | f <;> rcases hdis with h | h <;> omega
    · have hlast : SoundObs ch (.process (cbFetch cb dummy s).mem (some (cbFetch cb dummy s).d)) o := by
        have hall := (all_history hL hc h0 B'.ord B'.run).1
        have := List.forall₂_reverse_iff.2 hall
        simp only [List.reverse_append, List.reverse_cons, List.reverse_nil, List.nil_append, List.singleton_append] at this
        cases this with
        | cons h _ => exact h.1
      rcases hlast with ⟨ha, _⟩ | ⟨h0, _⟩ | ⟨_, x, _, _, hx, _, _, hx2, _⟩
      · rw [ho1] at ha
        unfold ArgError at ha
        unfold ProcErr at hpe
        omega
      · exact ho1.symm.trans h0
      · cases hx
        have := F.within.2.1
        norm_num at this
        omega
  subst he
  rcases hcase with ⟨he, _⟩ | ⟨_, hb, c1, c2, c3, c4, c5, c6⟩
  · exact absurd rfl he
  obtain ⟨hA, _, hK, _⟩ := hok rfl
  have hu0 := hA.used0
  have hu1 := hA.used1
  have hki := hK.inputFrames
  have hw : Within ch inp len s'.d.dataIn s'.d.inputFrames := by
    rw [c4]
    dsimp only
    rw [hch, hK.dataIn, hki, max_eq_left (by omega)]
    rw [max_eq_left (by omega)] at hu1
    refine ⟨by omega, lt_of_le_of_lt (samples_mono (by omega)) F.within.2.1, ?_⟩
    obtain ⟨w1, w2⟩ := F.within.2.2.resolve_left (by omega)
    right
    have := mul_nonneg hu0 (Int.natCast_nonneg ch)
    refine ⟨by omega, ?_⟩
    calc _ = (cbFetch cb dummy s).d.dataIn + (cbFetch cb dummy s).d.inputFrames * ch := by ring
      _ ≤ _ := w2
  refine ⟨fun hb => ⟨hh.1 hb, hw, ?_⟩, by rw [c1]; exact H.held.err, hw⟩
  rw [c4, c5]
  dsimp only
  rw [hch, hK.dataOut, F.out, hgen]; ring

/-- A handle between reads. -/
structure EReady (ch : ℕ) (st0 : SrcState) (inp len : ℤ) (st : SrcState) : Prop where
  held : Held ch st0 st
  within : Within ch inp len st.savedData st.savedFrames
  err : st.error = 0

/-- A read from a callback that always has input delivers what was asked for. -/
theorem read_endless (hL : LibraryTables cfg) (hc : ch ≤ 8355967) (h0 : srcNew cfg type ch = .ok (e0, some st0)) (hinp : 0 < inp)
    (hcb : Supplies ch inp len cb) (hr : GoodRatio ratio) (hf1 : 1 ≤ frames) (hf : samples ch frames ≤ 2 ^ 50) (hdata : 0 < data)
    (hdis : data + samples ch frames ≤ inp ∨ inp + len ≤ data) {st : SrcState} (E : EReady ch st0 inp len st) (hm : st.mode = .callback)
    (hfn : st.callbackFunc ≠ none) {fuel : ℕ} {m m' : Mem} {n : ℤ} {st' : Option SrcState} {k : ℕ}
    (h : srcCallbackRead cb dummy fuel calls m (some st) ratio frames data = .ok (n, m', st', k)) :
    n = frames ∧ ∃ s', st' = some s' ∧ EReady ch st0 inp len s' := by
  have hcb' := fun ud c m => samples_lt (hcb ud c m).2.1
  have hf' : samples ch frames ≤ 2 ^ 52 := by norm_num at hf ⊢; omega
  obtain ⟨q, hq, q1, q2⟩ := id hr
  have hnan : ratio ≠ .nan := by rintro rfl; cases hq
  obtain ⟨s', rfl, H', _, _, hn⟩ := read_held hL hc h0 hcb' hnan hf' E.held h
  obtain ⟨s1, hs1, he, _⟩ := read_errno h
  cases hs1
  unfold srcCallbackRead at h
  dsimp only at h
  rw [if_neg (by omega), if_neg (by rw [hm]; simp), if_neg hfn] at h
  split at h
  · exfalso
    rename_i hb
    rw [isBad_iff] at hb
    cases hr' : ratio with
    | nan => exact absurd hr' hnan
    | inf s => rw [hr'] at hq; cases hq
    | fin x hx =>
      rw [hr'] at hq hb
      cases hq
      rcases hb with hb | hb <;> linarith
  obtain ⟨r, hw, h⟩ := bind_ok h
  have I0 : ELoop ch st0 cb inp len st.userData calls ratio frames data { st := st, mem := m, d := cbData st ratio frames data, gen := 0, calls, err := 0 } :=
    ⟨⟨E.held.back, E.held.saved, rfl, rfl, le_rfl, by dsimp only; omega, by simp [cbData], le_rfl, fun h => by simp [cbData] at h, rfl⟩, E.within, by simp [cbData]⟩
  have hend := whileM_partial (ELoop ch st0 cb inp len st.userData calls ratio frames data)
    (fun s => HeldEnd ch st0 cb st.userData calls frames s ∧ s.err = 0 ∧ Within ch inp len s.d.dataIn s.d.inputFrames)
    (fun s hs b s' h' => by
      obtain ⟨a1, a2, a3⟩ := cbStep_eloop (dummy := dummy) hL hc h0 hinp hcb hr hf hdata hdis hs h'
      exact ⟨a1, fun hb => ⟨(cbStep_held hL hc h0 hcb' hnan hf' hs.held h').2 hb, a2, a3⟩⟩) _ _ _ I0 hw
  obtain ⟨⟨_, _, _, hcount⟩, hz, hwi⟩ := hend
  rw [if_neg (by rw [not_not]; exact hz)] at h
  have h := ok_inj h; simp only [Prod.mk.injEq, Option.some.injEq] at h
  obtain ⟨rfl, _, rfl, rfl⟩ := h
  have hg : r.gen = frames := by
    obtain ⟨a, b, c⟩ := hcount.resolve_left (not_not.2 hz)
    by_contra hne
    obtain ⟨i, m, _, _, h1⟩ := c (by omega)
    have := (hcb st.userData i m).1
    omega
  refine ⟨hg, _, rfl, H', hwi, ?_⟩
  rcases he with he | he | ⟨_, he⟩
  · rw [he]; exact E.err
  · exact he
  · omega

theorem history_endless (hL : LibraryTables cfg) (hc : ch ≤ 8355967) (h0 : srcNew cfg type ch = .ok (e0, some st0)) (hinp : 0 < inp) {stc : SrcState}
    (hm : stc.mode = .callback) (hfn : stc.callbackFunc ≠ none) :
    ∀ (ops : List Op) {st st' : SrcState} {os : List Obs}, EReady ch st0 inp len st → Like stc st →
      (∀ op ∈ ops, EndlessCall ch inp len op) → run ops st = .ok (os, st') → EReady ch st0 inp len st' ∧ Like stc st' := by
  intro ops
  induction ops with
  | nil =>
    intro st st' os H L _ h
    have h := ok_inj h; simp only [Prod.mk.injEq] at h
    obtain ⟨rfl, rfl⟩ := h
    exact ⟨H, L⟩
  | cons op ops ih =>
    intro st st' os H L hO h
    obtain ⟨⟨o, s1⟩, h1, h⟩ := bind_ok h
    obtain ⟨⟨os', s2⟩, h2, h⟩ := bind_ok h
    have h := ok_inj h; simp only [Prod.mk.injEq] at h
    obtain ⟨rfl, rfl⟩ := h
    refine ih ?_ (op_like L h1) (fun o ho => hO o (by simp [ho])) h2
    have hO1 := hO op (by simp)
    cases op with
    | process m d => exact hO1.elim
    | read cb dummy fuel calls m ratio frames data =>
      obtain ⟨⟨n, m', s1, k⟩, h1, h⟩ := bind_ok h1
      obtain ⟨a1, a2, a3, a4, a5, a6⟩ := hO1
      obtain ⟨_, s', rfl, E'⟩ := read_endless hL hc h0 hinp a1 a2 a3 a4 a5 a6 H (L.mode.trans hm) (by rw [L.cb]; exact hfn) h1
      have h := ok_inj h; simp only [Prod.mk.injEq] at h
      rw [← h.2]; exact E'
    | setRatio r =>
      obtain ⟨ps, qs, p, B⟩ := H.held.back
      obtain ⟨o', p', _, B', e1, e2⟩ := B.setRatio h0 hO1 h1
      have : s1.savedData = st.savedData ∧ s1.error = st.error := by
        simp only [Op.run, srcSetRatio] at h1
        split at h1 <;>
        · have h1 := ok_inj h1; simp only [Option.getD_some, Prod.mk.injEq] at h1
          rw [← h1.2]; exact ⟨rfl, rfl⟩
      exact ⟨⟨⟨_, _, _, B'⟩, by rw [e1]; exact H.held.saved⟩, by rw [e1, this.1]; exact H.within, by rw [this.2]; exact H.err⟩
    | reset =>
      obtain ⟨ps, qs, p, B⟩ := H.held.back
      obtain ⟨o', B'⟩ := B.reset h0
      have h := ok_inj h1; simp only [Prod.mk.injEq] at h
      obtain ⟨_, rfl⟩ := h
      exact ⟨⟨⟨_, _, _, B'⟩, by simp [srcResetState, samples]⟩, ⟨le_rfl, by simp [srcResetState, samples], Or.inl rfl⟩, rfl⟩

end
end Verif
