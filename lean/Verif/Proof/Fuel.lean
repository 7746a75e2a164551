import Verif.Proof.Frame

/-! Termination: the loops of the interpolating converters never exhaust their fuel, whatever the state. -/

namespace Verif

/-- The computation does not run out of fuel. -/
structure NoFuel {α : Type} (x : M α) : Prop where
  ne : x ≠ .error .outOfFuel

theorem NoFuel.pure {α : Type} (a : α) : NoFuel (pure a : M α) := ⟨by intro h; cases h⟩

theorem NoFuel.bind {α β : Type} {x : M α} {f : α → M β} (h : NoFuel x) (h' : ∀ a, x = .ok a → NoFuel (f a)) : NoFuel (x >>= f) := by
  refine ⟨fun hc => ?_⟩
  cases hx : x with
  | error e => rw [hx] at hc h; exact h.ne (by simpa [Bind.bind, Except.bind] using hc)
  | ok a => rw [hx] at hc; exact (h' a hx).ne hc

theorem NoFuel.throw {α : Type} {e : Fault} (h : e ≠ .outOfFuel) : NoFuel (throw e : M α) := by
  refine ⟨fun hc => ?_⟩
  exact h (by simpa [MonadExcept.throw, throwThe, MonadExceptOf.throw] using hc)

theorem NoFuel.forM' {σ : Type} {body : ℕ → σ → M σ} (h : ∀ i s, NoFuel (body i s)) : ∀ (n : ℕ) (s : σ), NoFuel (forM' n body s) := by
  intro n
  induction n with
  | zero => intro s; exact NoFuel.pure s
  | succ n ih => intro s; rw [forM'_succ]; exact (ih s).bind fun a _ => h n a

theorem whileM_noFuel {σ : Type} {step : σ → M (Bool × σ)} (I : σ → Prop) (meas : σ → ℕ)
    (h : ∀ s, I s → NoFuel (step s) ∧ ∀ s', step s = .ok (true, s') → I s' ∧ meas s' < meas s) :
    ∀ (n : ℕ) (s : σ), I s → meas s < n → NoFuel (whileM step n s) := by
  intro n
  induction n with
  | zero => intro s _ hm; omega
  | succ n ih =>
    intro s hI hm
    unfold whileM
    refine (h s hI).1.bind fun ⟨b, s'⟩ hb => ?_
    dsimp only
    cases b with
    | false => exact NoFuel.pure _
    | true =>
      obtain ⟨h1, h2⟩ := (h s hI).2 s' hb
      exact ih s' h1 (by omega)

theorem noFuel_rdIn (m : Mem) (d : SrcData) (c i : ℤ) : NoFuel (rdIn m d c i) := by
  unfold rdIn
  split_ifs
  · exact .throw (by decide)
  · exact .pure _
  · exact .throw (by decide)

theorem noFuel_wrOut (m : Mem) (d : SrcData) (c i : ℤ) (v : F32) : NoFuel (wrOut m d c i v) := by
  unfold wrOut
  split_ifs
  · exact .throw (by decide)
  · exact .pure _
  · exact .throw (by decide)

theorem noFuel_rdLast (lv : List F32) (c : ℕ) : NoFuel (rdLast lv c) := by
  unfold rdLast
  split
  · exact .pure _
  · exact .throw (by decide)

theorem noFuel_wrLast (lv : List F32) (c : ℕ) (v : F32) : NoFuel (wrLast lv c v) := by
  unfold wrLast
  split_ifs
  · exact .pure _
  · exact .throw (by decide)

theorem noFuel_chkI64 (n : ℤ) : NoFuel (chkI64 n) := by
  unfold chkI64
  split_ifs
  · exact .pure _
  · exact .throw (by decide)

theorem noFuel_chkI32 (n : ℤ) : NoFuel (chkI32 n) := by
  unfold chkI32
  split_ifs
  · exact .pure _
  · exact .throw (by decide)

theorem noFuel_loadLast (m : Mem) (d : SrcData) (c b : ℤ) (lv : List F32) : NoFuel (loadLast m d c b lv) :=
  NoFuel.forM' (fun _ _ => (noFuel_rdIn ..).bind fun _ _ => noFuel_wrLast ..) _ _

theorem noFuel_initLast (m : Mem) (d : SrcData) (c : ℤ) (z : InterpData) : NoFuel (initLast m d c z) := by
  unfold initLast
  split_ifs
  · exact .pure _
  · exact noFuel_loadLast ..

theorem noFuel_saveLast (m : Mem) (d : SrcData) (c u : ℤ) (lv : List F32) : NoFuel (saveLast m d c u lv) := by
  unfold saveLast
  split_ifs
  · exact noFuel_loadLast ..
  · exact .pure _

theorem noFuel_normIdx (c : ℤ) (s : LoopSt) : NoFuel (normIdx c s) := (noFuel_chkI32 _).bind fun _ _ => .pure _

/-- Kernels whose reads do not loop. -/
structure KNoFuel (k : Kernel) : Prop where
  first : ∀ d c lv i m n, NoFuel (k.firstV d c lv i m n)
  main : ∀ d c u i m n, NoFuel (k.mainV d c u i m n)

theorem zoh_noFuel : KNoFuel zohKernel := ⟨fun _ _ _ _ _ _ => noFuel_rdLast .., fun _ _ _ _ _ _ => noFuel_rdIn ..⟩
theorem linear_noFuel : KNoFuel linearKernel :=
  ⟨fun _ _ _ _ _ _ => (noFuel_rdLast ..).bind fun _ _ => (noFuel_rdIn ..).bind fun _ _ => .pure _,
    fun _ _ _ _ _ _ => (noFuel_rdIn ..).bind fun _ _ => (noFuel_rdIn ..).bind fun _ _ => .pure _⟩

/-- One output frame is written per iteration. -/
theorem emit_gen {v : Mem → ℕ → M F32} {d : SrcData} {c : ℤ} : ∀ (n : ℕ) (p p' : Mem × ℤ),
    forM' n (fun ch (p : Mem × ℤ) => do
      let x ← v p.1 ch
      let mem ← wrOut p.1 d c p.2 x
      pure (mem, p.2 + 1)) p = .ok p' → p'.2 = p.2 + n := by
  intro n
  induction n with
  | zero => intro p p' h; cases h; simp
  | succ n ih =>
    intro p p' h
    rw [forM'_succ] at h
    obtain ⟨q, hq, h⟩ := bind_ok h
    have := ih p q hq
    obtain ⟨x, _, h⟩ := bind_ok h
    obtain ⟨mem, _, h⟩ := bind_ok h
    have h := ok_inj h
    rw [← h]
    dsimp only
    rw [this]; push_cast; ring


/-- The number of frames generated so far is whole. -/
def Whole (ch : ℕ) (s : LoopSt) : Prop := ∃ i : ℕ, s.outGen = ch * i

theorem whole_step {ch o : ℕ} (h1 : 1 ≤ ch) {s s' : LoopSt} (hs : Whole ch s) (hlt : s.outGen < ((o * ch : ℕ) : ℤ)) (he : s'.outGen = s.outGen + ch) :
    Whole ch s' ∧ o - (s'.outGen / ch).toNat < o - (s.outGen / ch).toNat := by
  obtain ⟨i, hi⟩ := hs
  have hp : (0 : ℤ) < ch := by omega
  have hio : i < o := by
    rw [hi] at hlt
    have : ch * i < ch * o := by push_cast at hlt; rw [mul_comm (o : ℤ)] at hlt; exact_mod_cast hlt
    exact Nat.lt_of_mul_lt_mul_left this
  have e : s'.outGen = ch * ((i + 1 : ℕ) : ℤ) := by rw [he, hi]; push_cast; ring
  refine ⟨⟨i + 1, e⟩, ?_⟩
  rw [e, hi, Int.mul_ediv_cancel_left _ hp.ne', Int.mul_ediv_cancel_left _ hp.ne']
  omega

section
variable {k : Kernel} (hk : KNoFuel k) {st : SrcState} {d : SrcData} {ch o : ℕ} (hch : st.channels = ch) (h1 : 1 ≤ ch)
include hk hch h1

theorem first_noFuel (lv : List F32) (inCount : ℤ) (s : LoopSt) (hs : Whole ch s) :
    NoFuel (whileM (skFirst k st d lv inCount ((o * ch : ℕ) : ℤ)) (o + 1) s) := by
  refine whileM_noFuel (Whole ch) (fun s => o - (s.outGen / ch).toNat) (fun s hs => ⟨?_, ?_⟩) _ s hs (by omega)
  · unfold skFirst
    split
    · exact .pure _
    split
    · exact .pure _
    · exact (NoFuel.forM' (fun _ _ => (hk.first ..).bind fun _ _ => (noFuel_wrOut ..).bind fun _ _ => .pure _) _ _).bind fun _ _ => .pure _
  · intro s' h
    unfold skFirst at h
    by_cases a : ¬ (Fl.lt s.idx one64 = true ∧ s.outGen < ((o * ch : ℕ) : ℤ))
    · rw [if_pos a] at h; cases ok_inj h
    rw [if_neg a] at h
    by_cases b : k.brk st.channels inCount s = true
    · rw [if_pos b] at h; cases ok_inj h
    · rw [if_neg b] at h
      obtain ⟨⟨mem, g⟩, hg, h⟩ := bind_ok h
      have := emit_gen _ _ _ hg
      have h := ok_inj h
      simp only [Prod.mk.injEq, true_and] at h
      refine whole_step h1 hs (not_not.1 a).2 ?_
      rw [← h]
      dsimp only at this ⊢
      rw [this, hch, Int.toNat_natCast]

theorem main_noFuel (inCount : ℤ) (s : LoopSt) (hs : Whole ch s) :
    NoFuel (whileM (skMain k st d inCount ((o * ch : ℕ) : ℤ)) (o + 1) s) := by
  refine whileM_noFuel (Whole ch) (fun s => o - (s.outGen / ch).toNat) (fun s hs => ⟨?_, ?_⟩) _ s hs (by omega)
  · unfold skMain
    split
    · exact .pure _
    · exact (NoFuel.forM' (fun _ _ => (hk.main ..).bind fun _ _ => (noFuel_wrOut ..).bind fun _ _ => .pure _) _ _).bind fun _ _ =>
        (noFuel_normIdx ..).bind fun _ _ => .pure _
  · intro s' h
    unfold skMain at h
    by_cases a : ¬ (s.outGen < ((o * ch : ℕ) : ℤ) ∧ k.guard st.channels inCount s = true)
    · rw [if_pos a] at h; cases ok_inj h
    · rw [if_neg a] at h
      obtain ⟨⟨mem, g⟩, hg, h⟩ := bind_ok h
      have := emit_gen _ _ _ hg
      obtain ⟨s2, hn, h⟩ := bind_ok h
      have h := ok_inj h
      simp only [Prod.mk.injEq, true_and] at h
      refine whole_step h1 hs (not_not.1 a).1 ?_
      rw [← h]
      obtain ⟨q, _, hn⟩ := bind_ok hn
      have hn := ok_inj hn
      rw [← hn]
      dsimp only at this ⊢
      rw [this, hch, Int.toNat_natCast]

theorem body_noFuel (wrap : InterpData → Priv) (m : Mem) (z : InterpData) (ho : 0 ≤ d.outputFrames) : NoFuel (skBody k wrap m st d z) := by
  unfold skBody
  refine (noFuel_initLast ..).bind fun lv _ => (noFuel_chkI64 _).bind fun ic _ => (noFuel_chkI64 _).bind fun oc hoc => ?_
  have hoc : oc = ((d.outputFrames.toNat * ch : ℕ) : ℤ) := by
    unfold chkI64 at hoc
    split_ifs at hoc
    have := ok_inj hoc
    rw [← this, hch]; push_cast; rw [Int.toNat_of_nonneg ho]
  subst hoc
  dsimp only
  split
  · exact .pure _
  refine (first_noFuel hk hch h1 lv ic _ ⟨0, by simp⟩).bind fun s hs => (noFuel_normIdx ..).bind fun s2 hs2 => ?_
  have hw : Whole ch s := whileM_partial (Whole ch) (Whole ch) (fun s hs b s' h => by
    have key : s'.outGen = s.outGen ∨ s'.outGen = s.outGen + ch := by
      unfold skFirst at h
      by_cases a : ¬ (Fl.lt s.idx one64 = true ∧ s.outGen < ((d.outputFrames.toNat * ch : ℕ) : ℤ))
      · rw [if_pos a] at h; cases ok_inj h; exact Or.inl rfl
      rw [if_neg a] at h
      by_cases b : k.brk st.channels ic s = true
      · rw [if_pos b] at h; cases ok_inj h; exact Or.inl rfl
      · rw [if_neg b] at h
        obtain ⟨⟨mem, g⟩, hg, h⟩ := bind_ok h
        have := emit_gen _ _ _ hg
        have h := ok_inj h
        simp only [Prod.mk.injEq] at h
        refine Or.inr ?_
        rw [← h.2]
        dsimp only at this ⊢
        rw [this, hch, Int.toNat_natCast]
    have : Whole ch s' := by
      obtain ⟨i, hi⟩ := hs
      rcases key with h | h
      · exact ⟨i, by rw [h, hi]⟩
      · exact ⟨i + 1, by rw [h, hi]; push_cast; ring⟩
    exact ⟨fun _ => this, fun _ => this⟩) _ _ _ ⟨0, by simp⟩ hs
  have hw2 : Whole ch s2 := by
    obtain ⟨q, _, hn⟩ := bind_ok hs2
    have hn := ok_inj hn
    rw [← hn]
    exact hw
  refine (main_noFuel hk hch h1 ic s2 hw2).bind fun s3 _ => ?_
  split
  · exact (NoFuel.throw (by decide)).bind fun _ _ => (noFuel_saveLast ..).bind fun _ _ => .pure _
  · exact (noFuel_saveLast ..).bind fun _ _ => .pure _

end

theorem noFuel_overlapTest (c : ℤ) (d : SrcData) : NoFuel (overlapTest c d) := by
  unfold overlapTest
  split_ifs
  · exact (noFuel_chkI64 _).bind fun _ _ => .pure _
  · exact (noFuel_chkI64 _).bind fun _ _ => .pure _

/-- `src_process` of an interpolating converter never runs out of fuel, whatever the state and the arguments. -/
theorem process_noFuel {m : Mem} {st : SrcState} {d : Option SrcData} (hv : st.vt = .zoh ∨ st.vt = .linear) (hch : 1 ≤ st.channels) :
    NoFuel (srcProcess m (some st) d) := by
  obtain ⟨ch, hc⟩ := Int.eq_ofNat_of_zero_le (by omega : 0 ≤ st.channels)
  have hch1 : 1 ≤ ch := by omega
  have key : ∀ (l : F64) (d : SrcData), 0 ≤ d.outputFrames → NoFuel (variProcess m { st with lastRatio := l } d) := by
    intro l d ho
    unfold variProcess
    rcases hv with h | h <;> simp only [h]
    · by_cases hn : d.inputFrames ≤ 0
      · unfold zohVariProcess; rw [if_pos hn]; exact .pure _
      cases hp : st.priv with
      | zoh z =>
        rw [zoh_eq_body (z := z) rfl (not_le.1 hn)]
        refine body_noFuel zoh_noFuel ?_ hch1 _ _ _ ho; exact hc
      | null => unfold zohVariProcess; rw [if_neg hn]; simp only [hp]; exact .pure _
      | linear z => unfold zohVariProcess; rw [if_neg hn]; simp only [hp]; exact .throw (by decide)
      | sinc z => unfold zohVariProcess; rw [if_neg hn]; simp only [hp]; exact .throw (by decide)
    · by_cases hn : d.inputFrames ≤ 0
      · unfold linearVariProcess; rw [if_pos hn]; exact .pure _
      cases hp : st.priv with
      | linear z =>
        rw [linear_eq_body (z := z) rfl (not_le.1 hn)]
        refine body_noFuel linear_noFuel ?_ hch1 _ _ _ ho; exact hc
      | null => unfold linearVariProcess; rw [if_neg hn]; simp only [hp]; exact .pure _
      | zoh z => unfold linearVariProcess; rw [if_neg hn]; simp only [hp]; exact .throw (by decide)
      | sinc z => unfold linearVariProcess; rw [if_neg hn]; simp only [hp]; exact .throw (by decide)
  unfold srcProcess
  dsimp only
  split
  · exact .pure _
  cases d with
  | none => exact .pure _
  | some d =>
    refine NoFuel.bind ?_ fun _ _ => .pure _
    unfold srcProcessData
    split
    · exact .pure _
    split
    · exact .pure _
    refine (noFuel_overlapTest ..).bind fun b _ => ?_
    cases b with
    | true => exact .pure _
    | false =>
      simp only [Bool.false_eq_true, if_false, constProcess, ite_self]
      have ho : 0 ≤ (clampFrames d).outputFrames := by
        simp only [clampFrames]; split_ifs <;> omega
      split
      · exact key _ _ ho
      · exact key st.lastRatio _ ho

end Verif
