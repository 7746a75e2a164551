import Verif.Model.Basic

/-! Proof rules for the loops of the model, and memory lemmas. -/

namespace Verif

/-- Total correctness rule for `whileM`. -/
theorem whileM_spec {σ : Type} {step : σ → M (Bool × σ)} (I Q : σ → Prop) (meas : σ → ℕ)
    (h : ∀ s, I s → ∃ b s', step s = .ok (b, s') ∧ (b = true → I s' ∧ meas s' < meas s) ∧ (b = false → Q s')) :
    ∀ (n : ℕ) (s : σ), I s → meas s < n → ∃ s', whileM step n s = .ok s' ∧ Q s' := by
  intro n
  induction n with
  | zero => intro s _ hm; omega
  | succ n ih =>
    intro s hI hm
    obtain ⟨b, s', hs, ht, hf⟩ := h s hI
    cases b with
    | false => exact ⟨s', by simp [whileM, hs, bind, Except.bind, pure, Except.pure], hf rfl⟩
    | true =>
      obtain ⟨hI', hm'⟩ := ht rfl
      obtain ⟨s'', hs'', hQ⟩ := ih s' hI' (by omega)
      exact ⟨s'', by simpa [whileM, hs, bind, Except.bind, pure, Except.pure] using hs'', hQ⟩

/-- Partial correctness rule for `whileM`. -/
theorem whileM_partial {σ : Type} {step : σ → M (Bool × σ)} (I Q : σ → Prop)
    (h : ∀ s, I s → ∀ b s', step s = .ok (b, s') → (b = true → I s') ∧ (b = false → Q s')) :
    ∀ (n : ℕ) (s s' : σ), I s → whileM step n s = .ok s' → Q s' := by
  intro n
  induction n with
  | zero => intro s s' _ hm; simp [whileM] at hm
  | succ n ih =>
    intro s s' hI hm
    simp only [whileM, bind, Except.bind] at hm
    split at hm
    · cases hm
    · rename_i v hv
      obtain ⟨b, s1⟩ := v
      have := h s hI b s1 hv
      cases b with
      | false => simp [pure, Except.pure] at hm; subst hm; exact this.2 rfl
      | true => exact ih s1 s' (this.1 rfl) (by simpa using hm)

/-- More fuel does not change the result of a finished loop. -/
theorem whileM_mono {σ : Type} {step : σ → M (Bool × σ)} :
    ∀ (n k : ℕ) (s s' : σ), whileM step n s = .ok s' → whileM step (n + k) s = .ok s' := by
  intro n
  induction n with
  | zero => intro k s s' h; simp [whileM] at h
  | succ n ih =>
    intro k s s' h
    rw [Nat.succ_add]
    simp only [whileM, bind, Except.bind] at h ⊢
    split at h
    · cases h
    · rename_i v hv
      obtain ⟨b, s1⟩ := v
      cases b with
      | false => simpa using h
      | true => simpa using ih k s1 s' (by simpa using h)

theorem forM'_zero {σ : Type} (body : ℕ → σ → M σ) (s : σ) : forM' 0 body s = .ok s := rfl

theorem forM'_succ {σ : Type} (n : ℕ) (body : ℕ → σ → M σ) (s : σ) :
    forM' (n + 1) body s = (forM' n body s >>= fun s' => body n s') := by
  simp only [forM', List.range_succ, List.foldlM_append, List.foldlM_cons, List.foldlM_nil]
  congr 1
  funext s'
  cases body n s' <;> rfl

/-- Total correctness rule for `forM'`. -/
theorem forM'_spec {σ : Type} {body : ℕ → σ → M σ} (P : ℕ → σ → Prop) (n : ℕ)
    (h : ∀ i < n, ∀ s, P i s → ∃ s', body i s = .ok s' ∧ P (i + 1) s') (s : σ) (h0 : P 0 s) :
    ∃ s', forM' n body s = .ok s' ∧ P n s' := by
  induction n with
  | zero => exact ⟨s, rfl, h0⟩
  | succ n ih =>
    obtain ⟨s1, h1, hP⟩ := ih (fun i hi => h i (by omega))
    obtain ⟨s2, h2, hP2⟩ := h n (by omega) s1 hP
    exact ⟨s2, by rw [forM'_succ, h1]; exact h2, hP2⟩

/-- Two loops with bodies that agree on the iterations performed agree. -/
theorem forM'_congr {σ : Type} {b1 b2 : ℕ → σ → M σ} (n : ℕ) (h : ∀ i < n, ∀ s, b1 i s = b2 i s) (s : σ) :
    forM' n b1 s = forM' n b2 s := by
  induction n generalizing s with
  | zero => rfl
  | succ n ih =>
    rw [forM'_succ, forM'_succ, ih (fun i hi => h i (by omega))]
    congr 1
    funext s'
    exact h n (by omega) s'

/-- Write `n` consecutive samples. -/
def Mem.setRange (m : Mem) (base : ℤ) (n : ℕ) (f : ℕ → F32) : Mem :=
  fun a => if base ≤ a ∧ a < base + n then f (a - base).toNat else m a

theorem Mem.setRange_zero (m : Mem) (base : ℤ) (f : ℕ → F32) : m.setRange base 0 f = m := by
  funext a; simp only [Mem.setRange]; rw [if_neg]; push_cast; omega

theorem Mem.setRange_out {m : Mem} {base : ℤ} {n : ℕ} {f : ℕ → F32} {a : ℤ} (h : ¬ (base ≤ a ∧ a < base + n)) :
    m.setRange base n f a = m a := by simp [Mem.setRange, h]

theorem Mem.setRange_in {m : Mem} {base : ℤ} {n : ℕ} {f : ℕ → F32} {i : ℕ} (h : i < n) :
    m.setRange base n f (base + i) = f i := by
  simp only [Mem.setRange]
  rw [if_pos (by omega)]
  congr 1; omega

theorem Mem.set_setRange (m : Mem) (base : ℤ) (n : ℕ) (f : ℕ → F32) :
    (m.setRange base n f).set (base + n) (f n) = m.setRange base (n + 1) f := by
  funext a
  simp only [Mem.set, Mem.setRange]
  by_cases h : a = base + n
  · subst h
    rw [if_pos rfl, if_pos (by push_cast; omega)]
    congr 1; omega
  · rw [if_neg h]
    by_cases h2 : base ≤ a ∧ a < base + n
    · rw [if_pos h2, if_pos (by push_cast; omega)]
    · rw [if_neg h2, if_neg (by push_cast; omega)]

theorem Mem.setRange_append (m : Mem) (base : ℤ) (n k : ℕ) (f g : ℕ → F32) (h : ∀ i < k, g i = f (n + i)) :
    (m.setRange base n f).setRange (base + n) k g = m.setRange base (n + k) f := by
  funext a
  simp only [Mem.setRange]
  by_cases h1 : base + n ≤ a ∧ a < base + n + k
  · rw [if_pos h1, if_pos (by push_cast; omega), h _ (by omega)]
    congr 1; omega
  · rw [if_neg h1]
    by_cases h2 : base ≤ a ∧ a < base + n
    · rw [if_pos h2, if_pos (by push_cast; omega)]
    · rw [if_neg h2, if_neg (by push_cast; omega)]

/-- The output part of one loop iteration: the values `f ch` are written one after the other. -/
theorem emit_spec {d : SrcData} {channels : ℤ} {v : Mem → ℕ → M F32} {m0 : Mem} {f : ℕ → F32} (n : ℕ) (g0 : ℕ)
    (hout : d.dataOut ≠ 0) (hb : (g0 : ℤ) + n ≤ d.outputFrames * channels)
    (hv : ∀ ch < n, v (m0.setRange (d.dataOut + g0) ch f) ch = .ok (f ch)) :
    forM' n (fun ch (p : Mem × ℤ) => do
      let x ← v p.1 ch
      let mem ← wrOut p.1 d channels p.2 x
      pure (mem, p.2 + 1)) (m0, (g0 : ℤ)) =
    (.ok (m0.setRange (d.dataOut + g0) n f, ((g0 + n : ℕ) : ℤ)) : M (Mem × ℤ)) := by
  induction n with
  | zero => simp [forM'_zero, Mem.setRange_zero]
  | succ n ih =>
    rw [forM'_succ, ih (by push_cast at hb; omega) (fun ch hch => hv ch (by omega))]
    simp only [bind, Except.bind]
    rw [hv n (by omega)]
    simp only [wrOut, hout, if_false]
    rw [if_pos (by push_cast at hb ⊢; omega)]
    simp only [pure, Except.pure]
    have : d.dataOut + ((g0 + n : ℕ) : ℤ) = d.dataOut + g0 + n := by push_cast; ring
    rw [this, Mem.set_setRange]
    congr 2

end Verif
