import Verif.Proof.Numeric
import Verif.Model.Api
import Verif.Spec.Args

/-! Which error numbers `src_process` can return, and its argument checks. -/

namespace Verif
open Spec

/-- Partial correctness of loops. -/
theorem whileM_inv {σ : Type} {step : σ → M (Bool × σ)} (I : σ → Prop)
    (h : ∀ s b s', I s → step s = .ok (b, s') → I s') : ∀ n s s', I s → whileM step n s = .ok s' → I s' := by
  intro n
  induction n with
  | zero => intro s s' _ hw; simp [whileM] at hw
  | succ n ih =>
    intro s s' hI hw
    simp only [whileM, bind, Except.bind] at hw
    cases hs : step s with
    | error e => rw [hs] at hw; simp at hw
    | ok r =>
      obtain ⟨b, s1⟩ := r
      rw [hs] at hw
      have h1 := h s b s1 hI hs
      cases b with
      | true => exact ih s1 s' h1 hw
      | false =>
        simp only [Bool.false_eq_true, if_false, pure, Except.pure, Except.ok.injEq] at hw
        rw [← hw]; exact h1

/-- Inversion of a bind. -/
theorem bind_ok {α β : Type} {x : M α} {f : α → M β} {b : β} (h : (x >>= f) = .ok b) :
    ∃ a, x = .ok a ∧ f a = .ok b := by
  cases x with
  | error e => simp [bind, Except.bind] at h
  | ok a => exact ⟨a, rfl, h⟩

/-- Result codes of the process functions. -/
def ProcErr (e : ℤ) : Prop := e = 0 ∨ e = 5 ∨ e = 21 ∨ e = 22

theorem zoh_err {m : Mem} {st : SrcState} {d : SrcData} {r : ProcRes} (h : zohVariProcess m st d = .ok r) : ProcErr r.err := by
  unfold zohVariProcess at h
  split at h
  · simp only [pure, Except.pure, Except.ok.injEq] at h; subst h; left; rfl
  · split at h
    · simp only [pure, Except.pure, Except.ok.injEq] at h; subst h; right; left; rfl
    · obtain ⟨_, _, h⟩ := bind_ok h
      obtain ⟨_, _, h⟩ := bind_ok h
      obtain ⟨_, _, h⟩ := bind_ok h
      dsimp only at h
      split at h
      · simp only [pure, Except.pure, Except.ok.injEq] at h; subst h; right; right; right; rfl
      · obtain ⟨_, _, h⟩ := bind_ok h
        obtain ⟨_, _, h⟩ := bind_ok h
        obtain ⟨_, _, h⟩ := bind_ok h
        split at h
        · simp [throw, throwThe, MonadExceptOf.throw, bind, Except.bind] at h
        · obtain ⟨_, _, h⟩ := bind_ok h
          simp only [pure, Except.pure, Except.ok.injEq] at h; subst h; left; rfl
    · simp [throw, throwThe, MonadExceptOf.throw] at h

theorem linear_err {m : Mem} {st : SrcState} {d : SrcData} {r : ProcRes} (h : linearVariProcess m st d = .ok r) :
    ProcErr r.err := by
  unfold linearVariProcess at h
  split at h
  · simp only [pure, Except.pure, Except.ok.injEq] at h; subst h; left; rfl
  · split at h
    · simp only [pure, Except.pure, Except.ok.injEq] at h; subst h; right; left; rfl
    · obtain ⟨_, _, h⟩ := bind_ok h
      obtain ⟨_, _, h⟩ := bind_ok h
      obtain ⟨_, _, h⟩ := bind_ok h
      dsimp only at h
      split at h
      · simp only [pure, Except.pure, Except.ok.injEq] at h; subst h; right; right; right; rfl
      · obtain ⟨_, _, h⟩ := bind_ok h
        obtain ⟨_, _, h⟩ := bind_ok h
        obtain ⟨_, _, h⟩ := bind_ok h
        split at h
        · simp [throw, throwThe, MonadExceptOf.throw, bind, Except.bind] at h
        · obtain ⟨_, _, h⟩ := bind_ok h
          simp only [pure, Except.pure, Except.ok.injEq] at h; subst h; left; rfl
    · simp [throw, throwThe, MonadExceptOf.throw] at h

theorem prepareData_err {m : Mem} {f : SincFilter} {ch : ℤ} {d : SrcData} {half : ℤ} {r : ℤ × SincFilter}
    (h : prepareData m f ch d half = .ok r) : r.1 = 0 ∨ r.1 = 21 := by
  unfold prepareData at h
  split at h
  · simp only [pure, Except.pure, Except.ok.injEq] at h; subst h; left; rfl
  split at h
  · simp only [pure, Except.pure, Except.ok.injEq] at h; subst h; left; rfl
  obtain ⟨⟨_, _⟩, _, h⟩ := bind_ok h
  obtain ⟨_, _, h⟩ := bind_ok h
  obtain ⟨_, _, h⟩ := bind_ok h
  split at h
  · simp only [pure, Except.pure, Except.ok.injEq] at h; subst h; right; rfl
  obtain ⟨_, _, h⟩ := bind_ok h
  obtain ⟨_, _, h⟩ := bind_ok h
  simp only [pure, Except.pure, Except.ok.injEq] at h; subst h; left; rfl

theorem sincReload_stop {st : SrcState} {d : SrcData} {half : ℤ} {s s' : SincLoop} {b : Bool}
    (h : sincReload st d half s = .ok (b, s')) (hs : s.stop = 0 ∨ s.stop = 21) : s'.stop = 0 ∨ s'.stop = 21 := by
  unfold sincReload at h
  obtain ⟨_, _, h⟩ := bind_ok h
  split at h
  · obtain ⟨⟨e, f⟩, he, h⟩ := bind_ok h
    have := prepareData_err he
    dsimp only at h
    split at h
    · simp only [pure, Except.pure, Except.ok.injEq, Prod.mk.injEq] at h; rw [← h.2]; exact this
    · obtain ⟨_, _, h⟩ := bind_ok h
      simp only [pure, Except.pure, Except.ok.injEq, Prod.mk.injEq] at h; rw [← h.2]; exact hs
  · simp only [pure, Except.pure, Except.ok.injEq, Prod.mk.injEq] at h; rw [← h.2]; exact hs

theorem sincStep_stop {v : SincVariant} {st : SrcState} {d : SrcData} {half : ℤ} {t : F64} {s s' : SincLoop} {b : Bool}
    (h : sincStep v st d half t s = .ok (b, s')) (hs : s.stop = 0 ∨ s.stop = 21) : s'.stop = 0 ∨ s'.stop = 21 := by
  unfold sincStep at h
  split at h
  · simp only [pure, Except.pure, Except.ok.injEq, Prod.mk.injEq] at h; rw [← h.2]; exact hs
  obtain ⟨⟨brk, s1⟩, h1, h⟩ := bind_ok h
  have := sincReload_stop h1 hs
  dsimp only at h
  split at h
  · simp only [pure, Except.pure, Except.ok.injEq, Prod.mk.injEq] at h; rw [← h.2]; exact this
  split at h
  · simp only [pure, Except.pure, Except.ok.injEq, Prod.mk.injEq] at h; rw [← h.2]; exact this
  obtain ⟨_, _, h⟩ := bind_ok h
  obtain ⟨_, _, h⟩ := bind_ok h
  obtain ⟨⟨_, _⟩, _, h⟩ := bind_ok h
  simp only [pure, Except.pure, Except.ok.injEq, Prod.mk.injEq] at h; rw [← h.2]; exact this

theorem sinc_err {v : SincVariant} {m : Mem} {st : SrcState} {d : SrcData} {r : ProcRes} (h : sincVariProcess v m st d = .ok r) :
    ProcErr r.err := by
  unfold sincVariProcess at h
  split at h
  · simp only [pure, Except.pure, Except.ok.injEq] at h; subst h; right; left; rfl
  · obtain ⟨_, _, h⟩ := bind_ok h
    obtain ⟨_, _, h⟩ := bind_ok h
    dsimp only at h
    split at h
    · simp only [pure, Except.pure, Except.ok.injEq] at h; subst h; right; right; right; rfl
    obtain ⟨_, _, h⟩ := bind_ok h
    obtain ⟨⟨_, _⟩, _, h⟩ := bind_ok h
    obtain ⟨s, hs, h⟩ := bind_ok h
    have := whileM_inv (fun s : SincLoop => s.stop = 0 ∨ s.stop = 21) (fun s b s' hI h => sincStep_stop h hI) _ _ _
      (by left; rfl) hs
    split at h
    · simp only [pure, Except.pure, Except.ok.injEq] at h; subst h
      rcases this with h | h
      · left; exact h
      · right; right; left; exact h
    · obtain ⟨_, _, h⟩ := bind_ok h
      obtain ⟨_, _, h⟩ := bind_ok h
      simp only [pure, Except.pure, Except.ok.injEq] at h; subst h; left; rfl
  · simp [throw, throwThe, MonadExceptOf.throw] at h

theorem vari_err {m : Mem} {st : SrcState} {d : SrcData} {r : ProcRes} (h : variProcess m st d = .ok r) : ProcErr r.err := by
  unfold variProcess at h
  split at h
  · exact zoh_err h
  · exact linear_err h
  all_goals exact sinc_err h

theorem isBad_iff (r : F64) : isBadSrcRatio r = true ↔ BadRatio r := by
  cases r with
  | nan =>
    obtain ⟨_, h2⟩ := Fl.eq_fin_of_val max_ratio_val
    rw [isBadSrcRatio, h2]
    simp [BadRatio, Fl.lt, Fl.gt]
  | inf s =>
    obtain ⟨_, h1⟩ := Fl.eq_fin_of_val min_ratio_val
    obtain ⟨_, h2⟩ := Fl.eq_fin_of_val max_ratio_val
    rw [isBadSrcRatio, h1, h2]
    cases s <;> simp [BadRatio, Fl.lt, Fl.gt]
  | fin q h =>
    rw [isBad_val (q := q) rfl]; simp [BadRatio]

theorem clamp_eq (a : ℤ) : (if a < 0 then 0 else a) = max a 0 := by
  split_ifs <;> omega

theorem overlapTest_eq {ch : ℤ} {d : SrcData} {b : Bool} (h : overlapTest ch (clampFrames d) = .ok b) :
    b = true ↔ Clash d.dataIn (samples ch d.inputFrames) d.dataOut (samples ch d.outputFrames) := by
  unfold overlapTest at h
  have e1 : (clampFrames d).inputFrames * ch = samples ch d.inputFrames := by
    simp only [clampFrames, samples]; rw [clamp_eq]
  have e2 : (clampFrames d).outputFrames * ch = samples ch d.outputFrames := by
    simp only [clampFrames, samples]; rw [clamp_eq]
  rw [e1, e2] at h
  have e3 : (clampFrames d).dataIn = d.dataIn := rfl
  have e4 : (clampFrames d).dataOut = d.dataOut := rfl
  rw [e3, e4] at h
  split at h
  · obtain ⟨x, hx, h⟩ := bind_ok h
    unfold chkI64 at hx
    split at hx
    · simp only [pure, Except.pure, Except.ok.injEq] at hx h
      subst hx
      rw [← h]
      simp only [Clash, decide_eq_true_eq]
      omega
    · simp [throw, throwThe, MonadExceptOf.throw] at hx
  · obtain ⟨x, hx, h⟩ := bind_ok h
    unfold chkI64 at hx
    split at hx
    · simp only [pure, Except.pure, Except.ok.injEq] at hx h
      subst hx
      rw [← h]
      simp only [Clash, decide_eq_true_eq]
      omega
    · simp [throw, throwThe, MonadExceptOf.throw] at hx

theorem overlapTest_ok {ch : ℤ} {d : SrcData} (h1 : samples ch d.inputFrames < 2 ^ 63) (h2 : samples ch d.outputFrames < 2 ^ 63)
    (hch : 0 ≤ ch) : ∃ b, overlapTest ch (clampFrames d) = .ok b := by
  unfold overlapTest
  have e1 : (clampFrames d).inputFrames * ch = samples ch d.inputFrames := by
    simp only [clampFrames, samples]; rw [clamp_eq]
  have e2 : (clampFrames d).outputFrames * ch = samples ch d.outputFrames := by
    simp only [clampFrames, samples]; rw [clamp_eq]
  rw [e1, e2]
  have p1 : 0 ≤ samples ch d.inputFrames := mul_nonneg (by omega) hch
  have p2 : 0 ≤ samples ch d.outputFrames := mul_nonneg (by omega) hch
  have c1 : chkI64 (samples ch d.inputFrames) = .ok (samples ch d.inputFrames) := by
    unfold chkI64; rw [if_pos ⟨by omega, by omega⟩]; rfl
  have c2 : chkI64 (samples ch d.outputFrames) = .ok (samples ch d.outputFrames) := by
    unfold chkI64; rw [if_pos ⟨by omega, by omega⟩]; rfl
  rw [c1, c2]
  split
  · exact ⟨_, rfl⟩
  · exact ⟨_, rfl⟩

/-- The argument checks of `src_process` in the order of the specification. -/
theorem process_rejects {m : Mem} {st : Option SrcState} {d : Option SrcData} {e : ℤ} (h : FirstFailing st d e)
    (hch : ∀ s x, st = some s → d = some x → 0 ≤ s.channels ∧ samples s.channels x.inputFrames < 2 ^ 63 ∧
      samples s.channels x.outputFrames < 2 ^ 63) :
    ∃ d', srcProcess m st d = .ok (e, m, st, d') := by
  cases h with
  | state h => subst h; exact ⟨d, rfl⟩
  | mode s h1 h2 =>
    subst h1
    refine ⟨d, ?_⟩
    simp only [srcProcess]
    rw [if_pos h2]; rfl
  | data s h1 h2 h3 =>
    subst h1; subst h3
    refine ⟨none, ?_⟩
    simp only [srcProcess]
    rw [if_neg (by simpa using h2)]; rfl
  | buffer s x h1 h2 h3 h4 =>
    subst h1; subst h3
    refine ⟨some x, ?_⟩
    simp only [srcProcess]
    rw [if_neg (by simpa using h2)]
    unfold srcProcessData
    rw [if_pos (show _ ∨ _ from h4)]; rfl
  | ratio s x h1 h2 h3 h4 h5 =>
    subst h1; subst h3
    refine ⟨some x, ?_⟩
    simp only [srcProcess]
    rw [if_neg (by simpa using h2)]
    unfold srcProcessData
    rw [if_neg (show ¬ (_ ∨ _) from h4), if_pos ((isBad_iff _).2 h5)]; rfl
  | overlap s x h1 h2 h3 h4 h5 h6 =>
    subst h1; subst h3
    refine ⟨some (clampFrames x), ?_⟩
    obtain ⟨c1, c2, c3⟩ := hch s x rfl rfl
    obtain ⟨b, hb⟩ := overlapTest_ok (d := x) c2 c3 c1
    have hbt := (overlapTest_eq hb).2 h6
    subst hbt
    simp only [srcProcess]
    rw [if_neg (by simpa using h2)]
    unfold srcProcessData
    rw [if_neg (show ¬ (_ ∨ _) from h4), if_neg (by rw [isBad_iff]; exact h5)]
    dsimp only
    rw [hb]; rfl

/-- What a returned argument error means. -/
theorem process_error_inv {m m' : Mem} {st st' : Option SrcState} {d d' : Option SrcData} {e : ℤ}
    (h : srcProcess m st d = .ok (e, m', st', d')) :
    (FirstFailing st d e ∧ m' = m ∧ st' = st) ∨
    (ProcErr e ∧ ∃ s x, st = some s ∧ d = some x ∧ s.mode = .process ∧ ¬ MissingBuffer x ∧ ¬ BadRatio x.srcRatio ∧
      ¬ Clash x.dataIn (samples s.channels x.inputFrames) x.dataOut (samples s.channels x.outputFrames)) := by
  cases st with
  | none =>
    simp only [srcProcess, pure, Except.pure, Except.ok.injEq, Prod.mk.injEq] at h
    obtain ⟨rfl, rfl, rfl, rfl⟩ := h
    exact Or.inl ⟨.state rfl, rfl, rfl⟩
  | some s =>
    simp only [srcProcess] at h
    split at h
    · rename_i hm
      simp only [pure, Except.pure, Except.ok.injEq, Prod.mk.injEq] at h
      obtain ⟨rfl, rfl, rfl, rfl⟩ := h
      exact Or.inl ⟨.mode s rfl hm, rfl, rfl⟩
    · rename_i hm
      have hm' : s.mode = .process := by simpa using hm
      cases d with
      | none =>
        simp only [pure, Except.pure, Except.ok.injEq, Prod.mk.injEq] at h
        obtain ⟨rfl, rfl, rfl, rfl⟩ := h
        exact Or.inl ⟨.data s rfl hm' rfl, rfl, rfl⟩
      | some x =>
        obtain ⟨r, hr, h⟩ := bind_ok h
        simp only [pure, Except.pure, Except.ok.injEq, Prod.mk.injEq] at h
        obtain ⟨rfl, rfl, rfl, rfl⟩ := h
        unfold srcProcessData at hr
        split at hr
        · rename_i hb
          simp only [pure, Except.pure, Except.ok.injEq] at hr; subst hr
          exact Or.inl ⟨.buffer s x rfl hm' rfl hb, rfl, rfl⟩
        rename_i hb
        split at hr
        · rename_i hc
          simp only [pure, Except.pure, Except.ok.injEq] at hr; subst hr
          exact Or.inl ⟨.ratio s x rfl hm' rfl hb ((isBad_iff _).1 hc), rfl, rfl⟩
        rename_i hc
        rw [isBad_iff] at hc
        dsimp only at hr
        obtain ⟨b, hov, hr⟩ := bind_ok hr
        have hbi := overlapTest_eq hov
        cases b with
        | true =>
          simp only [pure, Except.pure, if_true, Except.ok.injEq] at hr; subst hr
          exact Or.inl ⟨.overlap s x rfl hm' rfl hb hc (hbi.1 rfl), rfl, rfl⟩
        | false =>
          simp only [Bool.false_eq_true, if_false] at hr
          refine Or.inr ⟨?_, s, x, rfl, rfl, hm', hb, hc, fun h => by simpa using hbi.2 h⟩
          split at hr <;> split at hr <;> exact vari_err hr

end Verif
