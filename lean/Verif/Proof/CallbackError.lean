import Verif.Proof.CallbackStream

/-! What the calls do to the error number kept in the handle (C40, C01). -/

namespace Verif
open Spec

theorem skBody_err {k : Kernel} {wrap : InterpData → Priv} {m : Mem} {st : SrcState} {d : SrcData} {z : InterpData} {r : ProcRes}
    (h : skBody k wrap m st d z = .ok r) : r.st.error = st.error ∧ r.data.srcRatio = d.srcRatio ∧ r.st.vt = st.vt := by
  unfold skBody at h
  obtain ⟨_, _, h⟩ := bind_ok h
  obtain ⟨_, _, h⟩ := bind_ok h
  obtain ⟨_, _, h⟩ := bind_ok h
  dsimp only at h
  split at h
  · rw [← ok_inj h]; exact ⟨rfl, rfl, rfl⟩
  obtain ⟨_, _, h⟩ := bind_ok h
  obtain ⟨_, _, h⟩ := bind_ok h
  obtain ⟨_, _, h⟩ := bind_ok h
  split at h
  · (simp [throw, throwThe, MonadExceptOf.throw, bind, Except.bind] at h; done)
  obtain ⟨_, _, h⟩ := bind_ok h
  rw [← ok_inj h]; exact ⟨rfl, rfl, rfl⟩

theorem sincReload_err {st : SrcState} {d : SrcData} {half : ℤ} {s s' : SincLoop} {b : Bool} (h : sincReload st d half s = .ok (b, s')) :
    (s'.error = s.error ∧ s'.stop = s.stop) ∨ (s'.error = 0 ∧ s'.stop = s.stop) ∨ (s'.error ≠ 0 ∧ s'.stop = s'.error ∧ b = true) := by
  unfold sincReload at h
  obtain ⟨n, _, h⟩ := bind_ok h
  split at h
  · obtain ⟨⟨e, f⟩, _, h⟩ := bind_ok h
    dsimp only at h
    split at h
    · rename_i he
      have h := ok_inj h; simp only [Prod.mk.injEq] at h
      obtain ⟨rfl, rfl⟩ := h
      exact Or.inr (Or.inr ⟨he, rfl, rfl⟩)
    · rename_i he
      obtain ⟨n, _, h⟩ := bind_ok h
      have h := ok_inj h; simp only [Prod.mk.injEq] at h
      obtain ⟨_, rfl⟩ := h
      exact Or.inr (Or.inl ⟨by simpa using he, rfl⟩)
  · have h := ok_inj h; simp only [Prod.mk.injEq] at h
    obtain ⟨_, rfl⟩ := h
    exact Or.inl ⟨rfl, rfl⟩

theorem sincStep_err {v : SincVariant} {st : SrcState} {d : SrcData} {half : ℤ} {t : F64} {s s' : SincLoop} {b : Bool}
    (h : sincStep v st d half t s = .ok (b, s')) :
    (s'.error = s.error ∧ s'.stop = s.stop) ∨ (s'.error = 0 ∧ s'.stop = s.stop) ∨ (s'.error ≠ 0 ∧ s'.stop = s'.error ∧ b = false) := by
  unfold sincStep at h
  split at h
  · have h := ok_inj h; simp only [Prod.mk.injEq] at h
    obtain ⟨_, rfl⟩ := h
    exact Or.inl ⟨rfl, rfl⟩
  obtain ⟨⟨brk, s1⟩, h1, h⟩ := bind_ok h
  have hE := sincReload_err h1
  dsimp only at h
  split at h
  · have h := ok_inj h; simp only [Prod.mk.injEq] at h
    obtain ⟨rfl, rfl⟩ := h
    rcases hE with hE | hE | ⟨a, b, _⟩
    · exact Or.inl hE
    · exact Or.inr (Or.inl hE)
    · exact Or.inr (Or.inr ⟨a, b, rfl⟩)
  rename_i hb
  have hE' : (s1.error = s.error ∧ s1.stop = s.stop) ∨ (s1.error = 0 ∧ s1.stop = s.stop) := by
    rcases hE with hE | hE | ⟨_, _, e⟩
    · exact Or.inl hE
    · exact Or.inr hE
    · exact absurd e hb
  split at h
  · have h := ok_inj h; simp only [Prod.mk.injEq] at h
    obtain ⟨_, rfl⟩ := h
    exact hE'.imp id Or.inl
  obtain ⟨_, _, h⟩ := bind_ok h
  obtain ⟨_, _, h⟩ := bind_ok h
  obtain ⟨_, _, h⟩ := bind_ok h
  have h := ok_inj h; simp only [Prod.mk.injEq] at h
  obtain ⟨_, rfl⟩ := h
  exact hE'.imp id Or.inl

theorem sinc_errno {v : SincVariant} {m : Mem} {st : SrcState} {d : SrcData} {r : ProcRes} (h : sincVariProcess v m st d = .ok r) :
    (r.st.error = st.error ∨ r.st.error = r.err) ∧ r.data.srcRatio = d.srcRatio ∧ r.st.vt = st.vt := by
  unfold sincVariProcess at h
  split at h
  · rw [← ok_inj h]; exact ⟨Or.inl rfl, rfl, rfl⟩
  · obtain ⟨_, _, h⟩ := bind_ok h
    obtain ⟨_, _, h⟩ := bind_ok h
    dsimp only at h
    split at h
    · rw [← ok_inj h]; exact ⟨Or.inl rfl, rfl, rfl⟩
    obtain ⟨_, _, h⟩ := bind_ok h
    obtain ⟨⟨f, idx⟩, _, h⟩ := bind_ok h
    obtain ⟨s, hs, h⟩ := bind_ok h
    have key : (s.stop = 0 ∧ (s.error = st.error ∨ s.error = 0)) ∨ s.stop = s.error := by
      refine whileM_partial (fun s => s.stop = 0 ∧ (s.error = st.error ∨ s.error = 0))
        (fun s => (s.stop = 0 ∧ (s.error = st.error ∨ s.error = 0)) ∨ s.stop = s.error) ?_ _ _ _ ⟨rfl, Or.inl rfl⟩ hs
      intro s hI b s' hs
      rcases sincStep_err hs with ⟨a, c⟩ | ⟨a, c⟩ | ⟨a, c, e⟩
      · have : s'.stop = 0 ∧ (s'.error = st.error ∨ s'.error = 0) := by rw [a, c]; exact hI
        exact ⟨fun _ => this, fun _ => Or.inl this⟩
      · have : s'.stop = 0 ∧ (s'.error = st.error ∨ s'.error = 0) := ⟨c.trans hI.1, Or.inr a⟩
        exact ⟨fun _ => this, fun _ => Or.inl this⟩
      · exact ⟨fun h => (by rw [e] at h; cases h), fun _ => Or.inr c⟩
    split at h
    · rename_i hz
      rw [← ok_inj h]
      rcases key with ⟨k, _⟩ | k
      · exact absurd k hz
      · exact ⟨Or.inr k.symm, rfl, rfl⟩
    rename_i hz
    rw [not_not] at hz
    obtain ⟨_, _, h⟩ := bind_ok h
    obtain ⟨_, _, h⟩ := bind_ok h
    rw [← ok_inj h]
    rcases key with ⟨_, k | k⟩ | k
    · exact ⟨Or.inl k, rfl, rfl⟩
    · exact ⟨Or.inr k, rfl, rfl⟩
    · exact ⟨Or.inr (k.symm.trans hz), rfl, rfl⟩
  · (simp [throw, throwThe, MonadExceptOf.throw, bind, Except.bind] at h; done)

theorem vari_errno {m : Mem} {st : SrcState} {d : SrcData} {r : ProcRes} (h : variProcess m st d = .ok r) :
    (r.st.error = st.error ∨ r.st.error = r.err) ∧ r.data.srcRatio = d.srcRatio ∧
      (st.vt = .zoh ∨ st.vt = .linear → r.st.error = st.error) ∧ r.st.vt = st.vt := by
  unfold variProcess at h
  split at h
  · have : r.st.error = st.error ∧ r.data.srcRatio = d.srcRatio ∧ r.st.vt = st.vt := by
      by_cases hn : d.inputFrames ≤ 0
      · unfold zohVariProcess at h
        rw [if_pos hn] at h
        rw [← ok_inj h]; exact ⟨rfl, rfl, rfl⟩
      · cases hp : st.priv
        case zoh z =>
          rw [zoh_eq_body hp (by omega)] at h
          exact skBody_err h
        all_goals
          unfold zohVariProcess at h
          rw [if_neg hn, hp] at h
          first
            | (rw [← ok_inj h]; exact ⟨rfl, rfl, rfl⟩)
            | (simp [throw, throwThe, MonadExceptOf.throw, bind, Except.bind] at h; done)
    exact ⟨Or.inl this.1, this.2.1, fun _ => this.1, this.2.2⟩
  · have : r.st.error = st.error ∧ r.data.srcRatio = d.srcRatio ∧ r.st.vt = st.vt := by
      by_cases hn : d.inputFrames ≤ 0
      · unfold linearVariProcess at h
        rw [if_pos hn] at h
        rw [← ok_inj h]; exact ⟨rfl, rfl, rfl⟩
      · cases hp : st.priv
        case linear z =>
          rw [linear_eq_body hp (by omega)] at h
          exact skBody_err h
        all_goals
          unfold linearVariProcess at h
          rw [if_neg hn, hp] at h
          first
            | (rw [← ok_inj h]; exact ⟨rfl, rfl, rfl⟩)
            | (simp [throw, throwThe, MonadExceptOf.throw, bind, Except.bind] at h; done)
    exact ⟨Or.inl this.1, this.2.1, fun _ => this.1, this.2.2⟩
  all_goals
    rename_i hv
    obtain ⟨a, b, c⟩ := sinc_errno h
    exact ⟨a, b, fun hk => (by rw [hv] at hk; rcases hk with hk | hk <;> cases hk), c⟩

/-- `src_process` keeps the error number of the handle, or (sinc converters only) puts its own result there. -/
theorem process_err {m m' : Mem} {st : SrcState} {d : Option SrcData} {d' : Option SrcData} {e : ℤ} {st' : Option SrcState}
    (h : srcProcess m (some st) d = .ok (e, m', st', d')) :
    ∃ s', st' = some s' ∧ (s'.error = st.error ∨ s'.error = e) ∧ (∀ x x', d = some x → d' = some x' → x'.srcRatio = x.srcRatio) ∧
      (st.vt = .zoh ∨ st.vt = .linear → s'.error = st.error) ∧ s'.vt = st.vt := by
  unfold srcProcess at h
  dsimp only at h
  split at h
  · have h := ok_inj h
    simp only [Prod.mk.injEq] at h
    obtain ⟨_, _, rfl, rfl⟩ := h
    exact ⟨_, rfl, Or.inl rfl, (fun x x' h1 h2 => by rw [h1] at h2; cases h2; rfl), fun _ => rfl, rfl⟩
  cases d with
  | none =>
    have h := ok_inj h
    simp only [Prod.mk.injEq] at h
    obtain ⟨_, _, rfl, rfl⟩ := h
    exact ⟨_, rfl, Or.inl rfl, (fun x x' h1 => by cases h1), fun _ => rfl, rfl⟩
  | some d =>
    obtain ⟨r, hr, h⟩ := bind_ok h
    have h := ok_inj h
    simp only [Prod.mk.injEq] at h
    obtain ⟨rfl, _, rfl, rfl⟩ := h
    refine ⟨_, rfl, ?_⟩
    have key : (r.st.error = st.error ∨ r.st.error = r.err) ∧ r.data.srcRatio = d.srcRatio ∧ (st.vt = .zoh ∨ st.vt = .linear → r.st.error = st.error) ∧ r.st.vt = st.vt := by
      unfold srcProcessData at hr
      split at hr
      · rw [← ok_inj hr]; exact ⟨Or.inl rfl, rfl, fun _ => rfl, rfl⟩
      split at hr
      · rw [← ok_inj hr]; exact ⟨Or.inl rfl, rfl, fun _ => rfl, rfl⟩
      obtain ⟨ov, _, hr⟩ := bind_ok hr
      split at hr
      · rw [← ok_inj hr]; exact ⟨Or.inl rfl, rfl, fun _ => rfl, rfl⟩
      unfold constProcess at hr
      dsimp only at hr
      split at hr <;> split at hr <;> (have := vari_errno hr; exact this)
    exact ⟨key.1, (fun x x' h1 h2 => by cases h1; cases h2; exact key.2.1), key.2.2⟩

theorem new_vt_interp {cfg : Config} {type ch e : ℤ} {st : SrcState} (ht : type = SRC_ZERO_ORDER_HOLD ∨ type = SRC_LINEAR)
    (h : srcNew cfg type ch = .ok (e, some st)) : st.vt = .zoh ∨ st.vt = .linear := by
  have hT : cfg.table type = none := by
    rcases ht with rfl | rfl <;> rfl
  unfold srcNew at h
  rw [hT] at h
  dsimp only at h
  rcases ht with rfl | rfl
  · rw [if_pos rfl] at h
    unfold zohStateNew at h
    obtain ⟨_, _, h⟩ := bind_ok h
    have h := ok_inj h; simp only [Prod.mk.injEq, Option.some.injEq] at h
    rw [← h.2]; exact Or.inl rfl
  · rw [if_neg (by decide), if_pos rfl] at h
    unfold linearStateNew at h
    obtain ⟨_, _, h⟩ := bind_ok h
    have h := ok_inj h; simp only [Prod.mk.injEq, Option.some.injEq] at h
    rw [← h.2]; exact Or.inr rfl

/-- What `src_callback_read` does to the error number. -/
theorem read_errno {cb : Callback} {dummy : ℤ} {fuel calls : ℕ} {m m' : Mem} {st : SrcState} {ratio : F64} {frames data n : ℤ}
    {st' : Option SrcState} {k : ℕ} (h : srcCallbackRead cb dummy fuel calls m (some st) ratio frames data = .ok (n, m', st', k)) :
    ∃ s', st' = some s' ∧ (s'.error = st.error ∨ s'.error = 0 ∨ (s'.error ≠ 0 ∧ n = 0)) ∧
      (st.vt = .zoh ∨ st.vt = .linear → s'.error = st.error ∨ (s'.error ≠ 0 ∧ n = 0)) ∧
      (¬ BadRatio ratio → s'.error = 6 → st.error = 6) ∧ s'.vt = st.vt := by
  unfold srcCallbackRead at h
  dsimp only at h
  split at h
  · have h := ok_inj h; simp only [Prod.mk.injEq] at h
    obtain ⟨rfl, rfl, rfl, rfl⟩ := h
    exact ⟨st, rfl, Or.inl rfl, fun _ => Or.inl rfl, fun _ h => h, rfl⟩
  split at h
  · have h := ok_inj h; simp only [Prod.mk.injEq] at h
    obtain ⟨rfl, rfl, rfl, rfl⟩ := h
    refine ⟨_, rfl, Or.inr (Or.inr ⟨?_, rfl⟩), fun _ => Or.inr ⟨?_, rfl⟩, fun _ h => ?_, rfl⟩ <;> simp [Err.BAD_MODE] at *
  split at h
  · have h := ok_inj h; simp only [Prod.mk.injEq] at h
    obtain ⟨rfl, rfl, rfl, rfl⟩ := h
    refine ⟨_, rfl, Or.inr (Or.inr ⟨?_, rfl⟩), fun _ => Or.inr ⟨?_, rfl⟩, fun _ h => ?_, rfl⟩ <;> simp [Err.NULL_CALLBACK] at *
  split at h
  · rename_i hb
    have h := ok_inj h; simp only [Prod.mk.injEq] at h
    obtain ⟨rfl, rfl, rfl, rfl⟩ := h
    exact ⟨_, rfl, Or.inr (Or.inr ⟨by simp [Err.BAD_SRC_RATIO], rfl⟩), fun _ => Or.inr ⟨by simp [Err.BAD_SRC_RATIO], rfl⟩,
      fun hg => absurd ((isBad_iff _).1 hb) hg, rfl⟩
  obtain ⟨r, hw, h⟩ := bind_ok h
  have key := whileM_partial
    (fun s : CbSt => (s.st.error = st.error ∨ s.st.error = 0) ∧ (st.vt = .zoh ∨ st.vt = .linear → s.st.error = st.error) ∧ s.st.vt = st.vt ∧ s.err = 0 ∧
      s.d.srcRatio = ratio)
    (fun s : CbSt => s.st.vt = st.vt ∧ (s.err = 0 → (s.st.error = st.error ∨ s.st.error = 0) ∧ (st.vt = .zoh ∨ st.vt = .linear → s.st.error = st.error)) ∧
      (¬ BadRatio ratio → s.err ≠ 6))
    (by
      rintro s ⟨i1, i2, i3, i4, i5⟩ b s' hs
      rcases cbStep_inv hs with ⟨_, rfl, rfl⟩ | ⟨hg, e, mem, s1, d, hp, hcase⟩
      · exact ⟨fun h => (by cases h), fun _ => ⟨i3, fun _ => ⟨i1, i2⟩, fun _ => by rw [i4]; decide⟩⟩
      obtain ⟨s2, e2, p1, p2, p3, p4⟩ := process_err hp
      cases e2
      dsimp only at p1 p3 p4
      have hrat : (cbFetch cb dummy s).d.srcRatio = ratio := by
        unfold cbFetch; split_ifs <;> exact i5
      rcases hcase with ⟨he, hb', c1, _, c3, _⟩ | ⟨he, hb', c1, c2, c3, c4, c5, c6⟩
      · refine ⟨fun h => (by rw [hb'] at h; cases h), fun _ => ⟨by rw [c3]; exact p4.trans i3, fun h0 => absurd (c1.symm.trans h0) he, fun hg => ?_⟩⟩
        rw [c1]
        rintro rfl
        rcases process_error_inv hp with ⟨hf, _⟩ | ⟨hq, _⟩
        · cases hf with
          | ratio s x h1 h2 h3 h4 h5 =>
            have := Option.some.inj h3
            rw [← this, hrat] at h5
            exact hg h5
        · rcases hq with h | h | h | h <;> norm_num at h
      · have q1 : (s'.st.error = st.error ∨ s'.st.error = 0) ∧ (st.vt = .zoh ∨ st.vt = .linear → s'.st.error = st.error) := by
          rw [c3]
          dsimp only
          refine ⟨?_, fun hv => (p3 (by rw [i3]; exact hv)).trans (i2 hv)⟩
          rcases p1 with p1 | p1
          · rw [p1]; exact i1
          · exact Or.inr (p1.trans he)
        have q2 : s'.st.vt = st.vt := by rw [c3]; exact p4.trans i3
        refine ⟨fun _ => ⟨q1.1, q1.2, q2, c1.trans i4, ?_⟩, fun _ => ⟨q2, fun _ => q1, fun _ => by rw [c1, i4]; decide⟩⟩
        rw [c4]
        exact (p2 _ _ rfl rfl).trans hrat)
    _ _ _ ⟨Or.inl rfl, fun _ => rfl, rfl, rfl, rfl⟩ hw
  obtain ⟨k1, k2, k3⟩ := key
  split at h
  · rename_i he
    have h := ok_inj h; simp only [Prod.mk.injEq] at h
    obtain ⟨rfl, rfl, rfl, rfl⟩ := h
    exact ⟨_, rfl, Or.inr (Or.inr ⟨he, rfl⟩), fun _ => Or.inr ⟨he, rfl⟩, fun hg h6 => absurd h6 (k3 hg), k1⟩
  · rename_i he
    rw [not_not] at he
    have h := ok_inj h; simp only [Prod.mk.injEq] at h
    obtain ⟨rfl, rfl, rfl, rfl⟩ := h
    obtain ⟨k4, k5⟩ := k2 he
    refine ⟨_, rfl, k4.imp id Or.inl, fun hv => Or.inl (k5 hv), fun _ h6 => ?_, k1⟩
    rcases k4 with k4 | k4
    · exact k4.symm.trans h6
    · rw [show r.st.error = 6 from h6] at k4; norm_num at k4

end Verif
