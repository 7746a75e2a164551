import Verif.Spec.CallbackSafe
import Verif.Proof.CallbackSinc
import Verif.Props.LinearFault

/-! `src_callback_read` does nothing undefined (C58). -/

namespace Verif
open Spec

theorem whileM_fault {σ : Type} {step : σ → M (Bool × σ)} (bad : Fault → Prop) (I : σ → Prop)
    (h : ∀ s, I s → (∀ f, step s = .error f → bad f) ∧ ∀ s', step s = .ok (true, s') → I s') :
    ∀ (n : ℕ) (s : σ), I s → ∀ f, whileM step n s = .error f → f = .outOfFuel ∨ bad f := by
  intro n
  induction n with
  | zero => intro s _ f hf; simp only [whileM, Except.error.injEq] at hf; exact Or.inl hf.symm
  | succ n ih =>
    intro s hI f hf
    simp only [whileM, bind, Except.bind] at hf
    split at hf
    · rename_i g hg
      simp only [Except.error.injEq] at hf
      subst hf
      exact Or.inr ((h s hI).1 _ hg)
    · rename_i v hv
      obtain ⟨b, s1⟩ := v
      cases b with
      | false => simp [pure, Except.pure] at hf
      | true => exact ih s1 ((h s hI).2 _ hv) f (by simpa using hf)

/-- The whole call, if its loop has no fault. -/
theorem read_fault {cb : Callback} {dummy frames data : ℤ} {fuel calls : ℕ} {m : Mem} {st : SrcState} {ratio : F64} {bad : Fault → Prop}
    (h : 0 < frames → isBadSrcRatio ratio = false → ∀ f, whileM (cbStep cb dummy frames) fuel
      { st := st, mem := m, d := cbData st ratio frames data, gen := 0, calls, err := 0 } = .error f → bad f) :
    ∀ f, srcCallbackRead cb dummy fuel calls m (some st) ratio frames data = .error f → bad f := by
  intro f hf
  unfold srcCallbackRead at hf
  dsimp only at hf
  iterate 4
    split at hf
    · simp [pure, Except.pure] at hf
  rename_i h1 _ _ h2
  simp only [bind, Except.bind] at hf
  split at hf
  · rename_i g hg
    simp only [Except.error.injEq] at hf
    subst hf
    exact h (by omega) (by simpa using h2) _ hg
  · split at hf <;> simp [pure, Except.pure] at hf

section
variable {cfg : Config} {type e0 : ℤ} {ch : ℕ} {st0 : SrcState} {cb : Callback} {ud calls : ℕ} {ratio : F64} {frames dummy : ℤ}

theorem samples_own {ch : ℕ} {x y : ℤ} (h0 : 0 ≤ x) (h1 : x ≤ max y 0) : 0 ≤ x * ch ∧ x * ch ≤ samples ch y := by
  unfold samples
  exact ⟨mul_nonneg h0 (by positivity), mul_le_mul_of_nonneg_right h1 (by positivity)⟩

theorem cbStep_fault (hL : LibraryTables cfg) (hc : ch ≤ 8355967) (h0 : srcNew cfg type ch = .ok (e0, some st0))
    (hcb : ∀ ud c m, samples ch (cb ud c m).1 ≤ 2 ^ 52) (hr : ratio ≠ .nan) (hf : samples ch frames ≤ 2 ^ 52) {s : CbSt}
    (H : HeldLoop ch st0 cb ud calls ratio frames s) {bad : Fault → Prop}
    (hb : s.gen < frames → ∀ f, srcProcess (cbFetch cb dummy s).mem (some { s.st with mode := .process }) (some (cbFetch cb dummy s).d) = .error f → bad f) :
    ∀ f, cbStep cb dummy frames s = .error f → bad f := by
  have hst : (cbFetch cb dummy s).st = s.st := by unfold cbFetch; split_ifs <;> rfl
  intro f h
  unfold cbStep at h
  split at h
  · simp [pure, Except.pure] at h
  rename_i hg
  dsimp only at h
  rw [hst] at h
  cases hp : srcProcess (cbFetch cb dummy s).mem (some { s.st with mode := .process }) (some (cbFetch cb dummy s).d) with
  | error g =>
    rw [hp] at h
    simp only [bind, Except.bind, Except.error.injEq] at h
    subst h
    exact hb (not_not.1 hg) _ hp
  | ok r =>
    exfalso
    obtain ⟨e, mem, st, d⟩ := r
    have hs : ∃ a b, st = some a ∧ d = some b := by
      have hp' := hp
      unfold srcProcess at hp'
      dsimp only at hp'
      rw [if_neg (by simp)] at hp'
      obtain ⟨r, _, hp'⟩ := bind_ok hp'
      have hp' := ok_inj hp'
      simp only [Prod.mk.injEq] at hp'
      exact ⟨_, _, hp'.2.2.1.symm, hp'.2.2.2.symm⟩
    obtain ⟨a, x, rfl, rfl⟩ := hs
    rw [hp] at h
    simp only [bind, Except.bind, Option.getD_some] at h
    split at h
    · simp [pure, Except.pure] at h
    rename_i he
    rw [not_not] at he
    subst he
    have F := cbFetch_held (dummy := dummy) hcb H
    obtain ⟨ps, qs, p, B⟩ := H.back
    have hsz : samples ch (cbFetch cb dummy s).d.outputFrames ≤ 2 ^ 52 := le_trans (samples_mono (by rw [F.room]; have := F.gen0; omega)) hf
    have hO : Ordinary 1 ch (cbFetch cb dummy s).d := ordinary_of (by rw [F.hrat]; exact hr) F.insize hsz
    obtain ⟨o, p', B', _, _, _, _, hok⟩ := B.step hL hc h0 hO hp
    obtain ⟨hA, _, _, _⟩ := hok rfl
    have hch : a.channels = ch := by
      rw [(alike_iff.1 B'.alike).2.2.2.1, (reach_like (.new _ _ _ _ h0) ⟨_, _, B'.run⟩).channels]
      exact (new_params h0).2
    have c1 := samples_own (ch := ch) hA.used0 hA.used1
    have c2 := samples_own (ch := ch) hA.gen0 hA.gen1
    have i1 := F.insize
    norm_num at i1 hsz
    have k1 : chkI64 (x.inputFramesUsed * a.channels) = .ok (x.inputFramesUsed * a.channels) := by
      unfold chkI64
      rw [hch, if_pos (by omega)]; rfl
    have k2 : chkI64 (x.outputFramesGen * a.channels) = .ok (x.outputFramesGen * a.channels) := by
      unfold chkI64
      rw [hch, if_pos (by omega)]; rfl
    rw [k1] at h
    dsimp only at h
    rw [k2] at h
    simp [pure, Except.pure] at h

/-- `src_callback_read` on a handle of which every `src_process` call returns, or has a fault of the given kind. -/
theorem read_interp_fault {K : Kind} (hk : type = K.type) (hL : LibraryTables cfg) (hc : ch ≤ 8355967) (h0 : srcNew cfg type ch = .ok (e0, some st0))
    (hcb : ∀ ud c m, samples ch (cb ud c m).1 ≤ 2 ^ 52) (hr : ratio ≠ .nan)
    (hf : samples ch frames ≤ 2 ^ 52) {st : SrcState} (H : Held ch st0 st) {m : Mem} {data : ℤ} {fuel : ℕ} {f : Fault}
    (h : srcCallbackRead cb dummy fuel calls m (some st) ratio frames data = .error f) : f = .outOfFuel ∨ (K = .linear ∧ f = .oobRead) := by
  refine read_fault (bad := fun f => f = .outOfFuel ∨ (K = .linear ∧ f = .oobRead)) (fun hf0 _ => ?_) f h
  refine whileM_fault (fun f => K = .linear ∧ f = .oobRead) (fun s => HeldLoop ch st0 cb st.userData calls ratio frames s) (fun s hs => ⟨?_, fun s' h' => ?_⟩) _ _ ?_
  · refine cbStep_fault hL hc h0 hcb hr hf hs fun _ g hg => ?_
    obtain ⟨ps, qs, p, B⟩ := hs.back
    obtain ⟨q, l, bf, V⟩ := backed_view hk hc h0 B
    have V' : View K { s.st with mode := .process } ch q l bf := V.alike (alike_iff.2 ⟨rfl, rfl, rfl, rfl, rfl⟩)
    have F := cbFetch_held (dummy := dummy) hcb hs
    have hsz : samples ch (cbFetch cb dummy s).d.outputFrames ≤ 2 ^ 52 := le_trans (samples_mono (by rw [F.room]; have := F.gen0; omega)) hf
    have hO : Ordinary 1 ch (cbFetch cb dummy s).d := ordinary_of (by rw [F.hrat]; exact hr) F.insize hsz
    have hOp : OrdinaryOp 1 ch (.process (cbFetch cb dummy s).mem (some (cbFetch cb dummy s).d)) := .process _ _ (by rintro x ⟨⟩; exact hO)
    cases K with
    | zoh =>
      exfalso
      obtain ⟨os, s', h1, _⟩ := history_core [.process (cbFetch cb dummy s).mem (some (cbFetch cb dummy s).d)] ⟨_, _, _, V'⟩ rfl (by simpa using hOp)
        (Or.inl (by simpa [Kind.lo] using hOp))
      unfold run at h1
      obtain ⟨q, hq, _⟩ := bind_ok h1
      simp only [Op.run, hg, bind, Except.bind] at hq
      cases hq
    | linear =>
      refine ⟨rfl, ?_⟩
      rcases linear_op_fault V' rfl hOp with ⟨o, s', h1, _⟩ | ⟨m1, d1, h1, _, h2, _⟩
      · simp only [Op.run, hg, bind, Except.bind] at h1
        cases h1
      · cases h1
        rw [hg] at h2
        exact Except.error.inj h2
  · exact (cbStep_held hL hc h0 hcb hr hf hs h').1 rfl
  · exact ⟨H.back, H.saved, rfl, rfl, le_rfl, by dsimp only; omega, by simp [cbData], le_rfl, fun h => by simp [cbData] at h, rfl⟩

/-! ### sinc -/

variable {co : ℤ → F32} {N inc B : ℤ}

/-- The phase does not change if the call is repeated at the same ratio. -/
theorem next_next {p : Phase} {r : F64} {v : ℚ} (hv : r.val = some v) (hr : ValidRatio v) {a b : ℤ} (h : a ≠ 0 → b ≠ 0) :
    (p.next r a).next r b = p.next r b := by
  cases p with
  | endless => rfl
  | live =>
    by_cases ha : a = 0
    · simp [Phase.next, ha]
    · simp [Phase.next, ha, h ha, riseTo_valid hv hr]
  | flushing q => simp [Phase.next, riseTo_valid hv hr]
  | rising q => simp [Phase.next, riseTo_valid hv hr]

theorem next_allows {p : Phase} {r : F64} {v : ℚ} (hv : r.val = some v) (hr : ValidRatio v) {a b c : ℤ} (ha : p.Allows c r a) (hb : p.Allows c r b) :
    (p.next r a).Allows c r b := by
  have key : ∀ x : ℚ, AtLeast (min 1 (riseTo x r)) r := by
    intro x w hw _ _
    rw [hv] at hw
    cases hw
    rw [riseTo_valid hv hr]
    exact min_le_right _ _
  cases p with
  | endless => exact hb
  | live =>
    by_cases h : a = 0
    · simp only [Phase.next, h, if_true]; exact hb
    · simp only [Phase.next, h, if_false]
      exact ⟨hb, Or.inr (key _)⟩
  | flushing q => exact ⟨hb.1, Or.inr (key _)⟩
  | rising q => exact ⟨hb.1, key _⟩

theorem SHist.next {p : Phase} {st : SrcState} (S : SHist co N inc B ch p st) {r : F64} {eoi : ℤ} (hn : p.Allows ch r eoi) :
    SHist co N inc B ch (p.next r eoi) st := by
  obtain ⟨P, l, y, f, D, k, R, i, h, V, hU⟩ := S.view
  exact ⟨S.mode, S.hB, P, l, y, f, D, k, R, i, h, V, hU.next V.geo hn⟩

/-- Loop of `src_callback_read` on a sinc handle used safely. -/
structure PLoop (co : ℤ → F32) (N inc B : ℤ) (ch : ℕ) (st0 : SrcState) (cb : Callback) (cnt : ℕ → ℤ) (ud calls : ℕ) (ratio : F64) (frames : ℤ) (p : Phase) (s : CbSt) : Prop where
  held : HeldLoop ch st0 cb ud calls ratio frames s
  insize : samples ch s.d.inputFrames < 2 ^ 31
  eoi : (s.d.endOfInput = 0 ∧ ∀ i, calls ≤ i → i < s.calls → cnt i ≠ 0) ∨ (s.d.endOfInput = 1 ∧ ∃ i, calls ≤ i ∧ i < s.calls ∧ cnt i = 0)
  hist : SHist co N inc B ch (p.next ratio s.d.endOfInput) { s.st with mode := .process }

/-- A handle after a read. -/
def PEnd (co : ℤ → F32) (N inc B : ℤ) (ch : ℕ) (cnt : ℕ → ℤ) (calls : ℕ) (ratio : F64) (p : Phase) (st : SrcState) (k : ℕ) : Prop :=
  ((∀ i, calls ≤ i → i < k → cnt i ≠ 0) ∧ SHist co N inc B ch (p.next ratio 0) { st with mode := .process }) ∨
  ((∃ i, calls ≤ i ∧ i < k ∧ cnt i = 0) ∧ SHist co N inc B ch (p.next ratio 1) { st with mode := .process })

theorem cbStep_ploop (hL : LibraryTables cfg) (hc : ch ≤ 8355967) (h0 : srcNew cfg type ch = .ok (e0, some st0)) {cnt : ℕ → ℤ} (hcnt : Counts cnt cb)
    (hcb : ∀ ud c m, samples ch (cb ud c m).1 < 2 ^ 31) {v : ℚ} (hv : ratio.val = some v) (hvr : ValidRatio v) (hf : samples ch frames ≤ 2 ^ 50) {p : Phase}
    (hP : AllowsPull ch cnt calls p ratio) {s : CbSt} (H : PLoop co N inc B ch st0 cb cnt ud calls ratio frames p s) :
    (∀ f, cbStep cb dummy frames s ≠ .error f) ∧ ∀ b s', cbStep cb dummy frames s = .ok (b, s') →
      (b = true → PLoop co N inc B ch st0 cb cnt ud calls ratio frames p s') ∧ PEnd co N inc B ch cnt calls ratio p s'.st s'.calls ∧
      samples ch s'.d.inputFrames < 2 ^ 31 := by
  have hr : ratio ≠ .nan := by rintro rfl; cases hv
  have hcb' := fun ud c m => samples_lt (hcb ud c m)
  have hf' : samples ch frames ≤ 2 ^ 52 := by norm_num at hf ⊢; omega
  have F := cbFetch_held (dummy := dummy) hcb' H.held
  have hst : (cbFetch cb dummy s).st = s.st := by unfold cbFetch; split_ifs <;> rfl
  have fin : samples ch (cbFetch cb dummy s).d.inputFrames < 2 ^ 31 := by
    unfold cbFetch
    split_ifs
    · exact hcb _ _ _
    · exact H.insize
  have feoi : (((cbFetch cb dummy s).d.endOfInput = 0 ∧ ∀ i, calls ≤ i → i < (cbFetch cb dummy s).calls → cnt i ≠ 0) ∨
      ((cbFetch cb dummy s).d.endOfInput = 1 ∧ ∃ i, calls ≤ i ∧ i < (cbFetch cb dummy s).calls ∧ cnt i = 0)) ∧
      (s.d.endOfInput ≠ 0 → (cbFetch cb dummy s).d.endOfInput ≠ 0) := by
    unfold cbFetch
    split_ifs with h1
    · dsimp only
      rw [hcnt]
      by_cases h2 : cnt s.calls = 0
      · rw [if_pos h2]
        exact ⟨Or.inr ⟨rfl, s.calls, H.held.hcal, Nat.lt_succ_self _, h2⟩, fun _ => one_ne_zero⟩
      · rw [if_neg h2]
        refine ⟨?_, id⟩
        rcases H.eoi with ⟨a, b⟩ | ⟨a, i, b1, b2, b3⟩
        · refine Or.inl ⟨a, fun i hi hi' => ?_⟩
          rcases Nat.lt_or_ge i s.calls with h | h
          · exact b i hi h
          · rw [show i = s.calls by omega]; exact h2
        · exact Or.inr ⟨a, i, b1, by omega, b3⟩
    · exact ⟨H.eoi, id⟩
  have hAl : ∀ x : ℤ, x = s.d.endOfInput ∨ x = (cbFetch cb dummy s).d.endOfInput → p.Allows ch ratio x := by
    intro x hx
    refine hP x fun hx0 => ?_
    have : (cbFetch cb dummy s).d.endOfInput ≠ 0 := by
      rcases hx with rfl | rfl
      · exact feoi.2 hx0
      · exact hx0
    rcases feoi.1 with ⟨a, _⟩ | ⟨_, i, a, _, b⟩
    · exact absurd a this
    · exact ⟨i, a, b⟩
  have hO : SincSized ch (cbFetch cb dummy s).d :=
    ⟨by rw [F.hrat]; exact hr, fin, le_trans (samples_mono (by rw [F.room]; have := F.gen0; omega)) hf⟩
  have hall : (p.next ratio s.d.endOfInput).Allows ch (cbFetch cb dummy s).d.srcRatio (cbFetch cb dummy s).d.endOfInput := by
    rw [F.hrat]
    exact next_allows hv hvr (hAl _ (Or.inl rfl)) (hAl _ (Or.inr rfl))
  obtain ⟨e, m', st', x', hp, hS, hcase⟩ := sinc_process_total H.hist hO hall (cbFetch cb dummy s).mem
  rw [F.hrat, next_next hv hvr feoi.2] at hS
  refine ⟨fun f hff => ?_, fun b s' h => ?_⟩
  · refine cbStep_fault (bad := fun _ => False) hL hc h0 hcb' hr hf' H.held (fun _ g hg => ?_) f hff
    rw [hp] at hg
    cases hg
  have hend : ∀ {a : SrcState} {k : ℕ}, SHist co N inc B ch (p.next ratio (cbFetch cb dummy s).d.endOfInput) { a with mode := .process } →
      k = (cbFetch cb dummy s).calls → PEnd co N inc B ch cnt calls ratio p a k := by
    rintro a k ha rfl
    rcases feoi.1 with ⟨z1, z2⟩ | ⟨z1, z2⟩
    · exact Or.inl ⟨z2, by rw [z1] at ha; exact ha⟩
    · exact Or.inr ⟨z2, by rw [z1] at ha; exact ha⟩
  have hh := cbStep_held hL hc h0 hcb' hr hf' H.held h
  rcases cbStep_inv h with ⟨_, rfl, rfl⟩ | ⟨hg, e1, mem, st, d, hp1, hc1⟩
  · refine ⟨fun h => (by cases h), ?_, H.insize⟩
    rcases H.eoi with ⟨z1, z2⟩ | ⟨z1, z2⟩
    · exact Or.inl ⟨z2, by have := H.hist; rw [z1] at this; exact this⟩
    · exact Or.inr ⟨z2, by have := H.hist; rw [z1] at this; exact this⟩
  rw [hp] at hp1
  have hp1' := ok_inj hp1
  simp only [Prod.mk.injEq, Option.some.injEq] at hp1'
  obtain ⟨rfl, rfl, rfl, rfl⟩ := hp1'
  have hm : ({ st' with mode := .process } : SrcState) = st' := by rw [← hS.mode]
  have hkeep : d.inputFrames = (cbFetch cb dummy s).d.inputFrames ∨ d.inputFrames = max (cbFetch cb dummy s).d.inputFrames 0 := process_keeps_in hp
  have hin : samples ch d.inputFrames < 2 ^ 31 := by
    rcases hkeep with h | h <;> rw [h]
    · exact fin
    · rw [samples_max]; exact fin
  have hS' : SHist co N inc B ch (p.next ratio (cbFetch cb dummy s).d.endOfInput) { st' with mode := .process } := by rw [hm]; exact hS
  rcases hc1 with ⟨he, hb, c1, c2, c3, c4, c5, c6⟩ | ⟨he, hb, c1, c2, c3, c4, c5, c6⟩
  · refine ⟨fun h => (by rw [hb] at h; cases h), hend (by rw [c3]; exact hS') c6, by rw [c4]; exact hin⟩
  · subst he
    rcases hcase with ⟨ha, _⟩ | ⟨_, d', hd', hA, _, hK, _⟩
    · unfold ArgError at ha; omega
    cases hd'
    have hin' : samples ch s'.d.inputFrames < 2 ^ 31 := by
      rw [c4]
      exact lt_of_le_of_lt (samples_mono (by dsimp only; have := hA.used0; omega)) hin
    have heo : s'.d.endOfInput = (cbFetch cb dummy s).d.endOfInput := by rw [c4]; exact hK.endOfInput
    refine ⟨fun h => ⟨hh.1 h, hin', by rw [heo, c6]; exact feoi.1, by rw [heo, c3]; exact hS'⟩, hend (by rw [c3]; exact hS') c6, hin'⟩

/-- A read on a sinc handle used safely. -/
theorem read_sinc_safe (hL : LibraryTables cfg) (hc : ch ≤ 8355967) (h0 : srcNew cfg type ch = .ok (e0, some st0)) {cnt : ℕ → ℤ} (hcnt : Counts cnt cb)
    (hcb : ∀ ud c m, samples ch (cb ud c m).1 < 2 ^ 31) (hr : ratio ≠ .nan) (hf : samples ch frames ≤ 2 ^ 50) {p : Phase}
    (hP : AllowsPull ch cnt calls p ratio) {st : SrcState} (H : Held ch st0 st) (hs : samples ch st.savedFrames < 2 ^ 31)
    (S : SHist co N inc B ch p { st with mode := .process }) {m : Mem} {data : ℤ} {fuel : ℕ} :
    (∀ f, srcCallbackRead cb dummy fuel calls m (some st) ratio frames data = .error f → f = .outOfFuel) ∧
    ∀ n m' st' k, srcCallbackRead cb dummy fuel calls m (some st) ratio frames data = .ok (n, m', some st', k) →
      PEnd co N inc B ch cnt calls ratio p st' k ∧ samples ch st'.savedFrames < 2 ^ 31 := by
  have hAl0 : p.Allows ch ratio 0 := hP 0 fun h => absurd rfl h
  have I0 : 0 < frames → PLoop co N inc B ch st0 cb cnt st.userData calls ratio frames p
      { st := st, mem := m, d := cbData st ratio frames data, gen := 0, calls, err := 0 } := fun hf0 =>
    ⟨⟨H.back, H.saved, rfl, rfl, le_rfl, by dsimp only; omega, by simp [cbData], le_rfl, fun h => by simp [cbData] at h, rfl⟩, hs,
      Or.inl ⟨rfl, fun i a b => by dsimp only at b; omega⟩, S.next hAl0⟩
  have hvalid : isBadSrcRatio ratio = false → ∃ v, ratio.val = some v ∧ ValidRatio v := by
    intro hb
    have hb : ¬ isBadSrcRatio ratio = true := by rw [hb]; simp
    rw [isBad_iff] at hb
    cases hr' : ratio with
    | nan => exact absurd hr' hr
    | inf s => rw [hr'] at hb; exact absurd trivial hb
    | fin q hq =>
      rw [hr'] at hb
      simp only [BadRatio, not_or, not_lt] at hb
      exact ⟨q, rfl, hb.1, hb.2⟩
  refine ⟨read_fault (bad := fun f => f = .outOfFuel) fun hf0 hb => ?_, fun n m' st' k h => ?_⟩
  · obtain ⟨v, hv, hvr⟩ := hvalid hb
    intro f hff
    refine (whileM_fault (fun _ => False) (PLoop co N inc B ch st0 cb cnt st.userData calls ratio frames p) (fun s hs => ?_) _ _ (I0 hf0) f hff).resolve_right id
    obtain ⟨a, b⟩ := cbStep_ploop (dummy := dummy) hL hc h0 hcnt hcb hv hvr hf hP hs
    exact ⟨fun f h => a f h, fun s' h => (b _ _ h).1 rfl⟩
  · unfold srcCallbackRead at h
    dsimp only at h
    iterate 4
      split at h
      · have h := ok_inj h; simp only [Prod.mk.injEq, Option.some.injEq] at h
        obtain ⟨_, _, rfl, rfl⟩ := h
        exact ⟨Or.inl ⟨fun i a b => by omega, (S.next hAl0).alike (alike_iff.2 ⟨rfl, rfl, rfl, rfl, rfl⟩) rfl⟩, hs⟩
    rename_i hfr _ _ hb
    obtain ⟨v, hv, hvr⟩ := hvalid (by simpa using hb)
    obtain ⟨r, hw, h⟩ := bind_ok h
    have hend := whileM_partial (PLoop co N inc B ch st0 cb cnt st.userData calls ratio frames p)
      (fun s => PEnd co N inc B ch cnt calls ratio p s.st s.calls ∧ samples ch s.d.inputFrames < 2 ^ 31)
      (fun s hs b s' h' => by
        obtain ⟨a1, a2⟩ := (cbStep_ploop (dummy := dummy) hL hc h0 hcnt hcb hv hvr hf hP hs).2 _ _ h'
        exact ⟨a1, fun _ => a2⟩) _ _ _ (I0 (by omega)) hw
    split at h
    all_goals
      have h := ok_inj h; simp only [Prod.mk.injEq, Option.some.injEq] at h
      obtain ⟨_, _, rfl, rfl⟩ := h
      refine ⟨hend.1.imp (fun ⟨a, b⟩ => ⟨a, ?_⟩) (fun ⟨a, b⟩ => ⟨a, ?_⟩), hend.2⟩ <;>
        exact b.alike (alike_iff.2 ⟨rfl, rfl, rfl, rfl, rfl⟩) rfl

/-- A history of a sinc handle used safely. -/
theorem history_phase (hL : LibraryTables cfg) (hc : ch ≤ 8355967) (h0 : srcNew cfg type ch = .ok (e0, some st0)) {cnt : ℕ → ℤ} {stc : SrcState}
    (hm : stc.mode = .callback) {c c' : ℕ} {p p' : Phase} {ops : List Op} {os : List Obs} (hD : SafePulls ch cnt c p ops os c' p') :
    ∀ {st st' : SrcState}, Held ch st0 st → samples ch st.savedFrames < 2 ^ 31 → SHist co N inc B ch p { st with mode := .process } → Like stc st →
      (∀ op ∈ ops, SincPull ch op) → run ops st = .ok (os, st') →
      Held ch st0 st' ∧ samples ch st'.savedFrames < 2 ^ 31 ∧ SHist co N inc B ch p' { st' with mode := .process } ∧ Like stc st' := by
  have hrd : ∀ {c : ℕ} {p : Phase} {cb : Callback} {dummy : ℤ} {fuel : ℕ} {m : Mem} {r : F64} {frames data : ℤ} {o : Obs} {st s1 : SrcState},
      Held ch st0 st → samples ch st.savedFrames < 2 ^ 31 → SHist co N inc B ch p { st with mode := .process } → Counts cnt cb → AllowsPull ch cnt c p r →
      SincPull ch (.read cb dummy fuel c m r frames data) → (Op.read cb dummy fuel c m r frames data).run st = .ok (o, s1) →
      PEnd co N inc B ch cnt c r p s1 o.calls ∧ Held ch st0 s1 ∧ samples ch s1.savedFrames < 2 ^ 31 := by
    intro c p cb dummy fuel m r frames data o st s1 H hs S hcnt hP hO h1
    obtain ⟨⟨n, m', s, k⟩, hr, h⟩ := bind_ok h1
    obtain ⟨s', rfl, H', _⟩ := read_held hL hc h0 (fun ud c m => samples_lt (hO.2.2 ud c m)) hO.1 (by have := hO.2.1; norm_num at this ⊢; omega) H hr
    have h := ok_inj h; simp only [Prod.mk.injEq] at h
    obtain ⟨rfl, rfl⟩ := h
    obtain ⟨a, b⟩ := (read_sinc_safe hL hc h0 hcnt hO.2.2 hO.1 hO.2.1 hP H hs S).2 _ _ _ _ hr
    exact ⟨a, H', b⟩
  induction hD with
  | nil c p =>
    intro st st' H hs S L _ h
    have h := ok_inj h; simp only [Prod.mk.injEq] at h
    obtain ⟨_, rfl⟩ := h
    exact ⟨H, hs, S, L⟩
  | reset c p p1 o ops os c' p' hp1 _ ih =>
    intro st st' H hs S L hO h
    obtain ⟨⟨o1, s1⟩, h1, h⟩ := bind_ok h
    obtain ⟨⟨os', s2⟩, h2, h⟩ := bind_ok h
    have h := ok_inj h; simp only [Prod.mk.injEq, List.cons.injEq] at h
    obtain ⟨⟨rfl, rfl⟩, rfl⟩ := h
    have L1 := op_like L h1
    obtain ⟨ps, qs, q, Bk⟩ := H.back
    obtain ⟨o', B'⟩ := Bk.reset h0
    have h := ok_inj h1; simp only [Prod.mk.injEq] at h
    obtain ⟨_, rfl⟩ := h
    refine ih ⟨⟨_, _, _, B'⟩, by simp [srcResetState, samples]⟩ (by simp [srcResetState, samples]) ?_ L1 (fun o ho => hO o (by simp [ho])) h2
    exact (sinc_reset_total S hp1).alike (alike_iff.2 ⟨rfl, rfl, rfl, rfl, rfl⟩) rfl
  | process c p m d o ops os c' p' _ ih =>
    intro st st' H hs S L hO h
    obtain ⟨⟨o1, s1⟩, h1, h⟩ := bind_ok h
    obtain ⟨⟨os', s2⟩, h2, h⟩ := bind_ok h
    have h := ok_inj h; simp only [Prod.mk.injEq, List.cons.injEq] at h
    obtain ⟨⟨rfl, rfl⟩, rfl⟩ := h
    simp only [Op.run, srcProcess] at h1
    rw [if_pos (by rw [L.mode.trans hm]; decide)] at h1
    have h1 := ok_inj h1; simp only [Prod.mk.injEq] at h1
    obtain ⟨_, rfl⟩ := h1
    exact ih H hs S L (fun o ho => hO o (by simp [ho])) h2
  | ratio c p r o ops os c' p' hAl _ ih =>
    intro st st' H hs S L hO h
    obtain ⟨⟨o1, s1⟩, h1, h⟩ := bind_ok h
    obtain ⟨⟨os', s2⟩, h2, h⟩ := bind_ok h
    have h := ok_inj h; simp only [Prod.mk.injEq, List.cons.injEq] at h
    obtain ⟨⟨rfl, rfl⟩, rfl⟩ := h
    have hP : r ≠ .nan := hO _ List.mem_cons_self
    have L1 := op_like L h1
    obtain ⟨ps, qs, q, Bk⟩ := H.back
    obtain ⟨o', p', _, B', e1, _⟩ := Bk.setRatio h0 hP h1
    refine ih ⟨⟨_, _, _, B'⟩, by rw [e1]; exact H.saved⟩ (by rw [e1]; exact hs) ?_ L1 (fun o ho => hO o (by simp [ho])) h2
    obtain ⟨e, s, w1, _, w3⟩ := sinc_setRatio_total S hP hAl
    simp only [Op.run, srcSetRatio] at h1
    unfold srcSetRatio at w1
    dsimp only at w1
    split at h1
    · rename_i hb
      rw [if_pos hb] at w1
      have h1 := ok_inj h1; simp only [Option.getD_some, Prod.mk.injEq] at h1
      simp only [Prod.mk.injEq, Option.some.injEq] at w1
      rw [← w1.2] at w3
      rw [← h1.2]
      exact w3
    · rename_i hb
      rw [if_neg hb] at w1
      have h1 := ok_inj h1; simp only [Option.getD_some, Prod.mk.injEq] at h1
      simp only [Prod.mk.injEq, Option.some.injEq] at w1
      rw [← w1.2] at w3
      rw [← h1.2]
      exact w3
  | read c p cb dummy fuel m r frames data o ops os c' p' hcnt hP hz _ ih =>
    intro st st' H hs S L hO h
    obtain ⟨⟨o1, s1⟩, h1, h⟩ := bind_ok h
    obtain ⟨⟨os', s2⟩, h2, h⟩ := bind_ok h
    have h := ok_inj h; simp only [Prod.mk.injEq, List.cons.injEq] at h
    obtain ⟨⟨rfl, rfl⟩, rfl⟩ := h
    obtain ⟨a, b, c⟩ := hrd H hs S hcnt hP (hO _ List.mem_cons_self) h1
    rcases a with ⟨_, a⟩ | ⟨⟨i, x, y, z⟩, _⟩
    · exact ih b c a (op_like L h1) (fun o ho => hO o (by simp [ho])) h2
    · exact absurd z (hz i x y)
  | readEnd c p cb dummy fuel m r frames data o ops os c' p' hcnt hP hz _ ih =>
    intro st st' H hs S L hO h
    obtain ⟨⟨o1, s1⟩, h1, h⟩ := bind_ok h
    obtain ⟨⟨os', s2⟩, h2, h⟩ := bind_ok h
    have h := ok_inj h; simp only [Prod.mk.injEq, List.cons.injEq] at h
    obtain ⟨⟨rfl, rfl⟩, rfl⟩ := h
    obtain ⟨a, b, c⟩ := hrd H hs S hcnt hP (hO _ List.mem_cons_self) h1
    obtain ⟨i, x, y, z⟩ := hz
    rcases a with ⟨a, _⟩ | ⟨_, a⟩
    · exact absurd z (a i x y)
    · exact ih b c a (op_like L h1) (fun o ho => hO o (by simp [ho])) h2

end
end Verif
