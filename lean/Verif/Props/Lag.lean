import Verif.Props.Duration

/-! Properties of streams whose ratio moves, below and above 1: the rest of C56. -/

namespace Verif
open Spec

/-- C56 for the sinc converters at any ratios, below as well as above 1, before the end of input: whatever the ratios, as long as they are between `a` and `b`:
whenever a call had room for more output than it generated, the output lags behind the `V` input frames used so far by no more than the reach of the filter
at `a` and by no less than its reach at `b`: the number `G` of output frames is between `(V - reach a) * a` and `(V - reach b) * b`, to within one frame
and accumulated rounding. -/
theorem C56_sinc_lag (cfg : Config) (hL : LibraryTables cfg) (type : ℤ) (ht : SincType type) (ch : ℕ) (e : ℤ) (st st1 st2 : SrcState)
    (h : srcNew cfg type ch = .ok (e, some st)) (x : ℕ → ℕ → F32) (a b : ℚ) (ha : 0 < a)
    (ops : List Op) (os : List Obs) (U : ℕ)
    (hO : ∀ op ∈ ops, SizedOp ch op ∧ RatioIn a b op) (hr : run ops st = .ok (os, st1)) (hF : FedTo x ch none 0 ops os U)
    (m : Mem) (d d' : SrcData) (o : Obs) (hd : SincSized ch d) (hA : RatioIn a b (.process m (some d))) (hP : Presents x ch U m d)
    (hend : d.endOfInput = 0)
    (hrun : (Op.process m (some d)).run st1 = .ok (o, st2)) (hret : o.ret = 0) (hdata : o.data = some d')
    (hroom : d'.outputFramesGen < d.outputFrames) (G V : ℚ) (hG : G = (outputs ch os).length + d'.outputFramesGen)
    (hV : V = U + d'.inputFramesUsed) :
    ∃ t : CoeffTable, cfg.table type = some t ∧
      (V - sincReach (t.count - 2) t.increment a - G / 2 ^ 44) * a ≤ G ∧
      G ≤ 1 + (max 0 (V - sincReach (t.count - 2) t.increment b) + G / 2 ^ 44) * b := by
  have hx : EndsAt x none := by rintro _ ⟨⟩
  obtain ⟨t, B, ρ, Ds, hT, Ge, hch1, hB, a1, a2, a3, aI, aR, a4, a5, a6, Q', l', h', u', T, SR, SU, hu', hQ, hh1⟩ :=
    sinc_stream_new hL ht h hx hF (lo := 0) (u := .freely) (tl := []) (Or.inl rfl) (fun op h => (hO op h).1) (fun h => absurd rfl h) hr
  have hAll : ∀ op ∈ ops, RatioIn a b op := fun op a => (hO op a).2
  have hQ := hQ a b hAll
  have aI := aI a b hAll
  obtain ⟨f, D, W, -, hQl, -⟩ := T.view
  obtain ⟨d1, Ds1, g, u, t', e1, e2, e3, e4, e5, e6, e7, e8, e9, e10, e11, e12, e13, eE, eS, T1⟩ :=
    (Or.resolve_left (strack_call T hx hd (fun _ => hP) (fun _ h => absurd hend h) hrun)
      (fun h => h.1 hret)).2
  rw [hdata] at e1
  cases e1
  have htab : a ≤ t' ∧ t' ≤ b := hA t' e6
  have hLab : a ≤ startRatio l' t' ∧ startRatio l' t' ≤ b := by
    unfold startRatio
    split_ifs with h
    · exact htab
    · exact (hQl a b hQ).resolve_left h
  have hob2 := sized_out hd
  generalize hL : startRatio l' t' = L at *
  have hab : a ≤ b := htab.1.trans htab.2
  have hmin : a ≤ min L t' := le_min hLab.1 htab.1
  have hHa := Ge.reach_anti ha hmin
  have hHb := Ge.reach_anti (ha.trans_le hmin) ((min_le_right L t').trans htab.2)
  set n := (outputs ch os).length with hn'
  set ρ1 := sincRatioAt L t' ch d.outputFrames.toNat with hρ1
  have hpos : ∀ j, posAt ⟨0, 0⟩ (joinAt n ρ ρ1) (n + j) = posAt (posAt ⟨0, 0⟩ ρ n) ρ1 j := fun j => posAt_join _ _ _ _ _
  have hposl : ∀ j ≤ n, posAt ⟨0, 0⟩ (joinAt n ρ ρ1) j = posAt ⟨0, 0⟩ ρ j := fun j hj => posAt_congr (fun i hi => by simp [joinAt, show i < n by omega])
  have hVq : V = ((U + u : ℕ) : ℚ) := by rw [hV, e2]; push_cast; ring
  have hGq : G = ((n + g : ℕ) : ℚ) := by rw [hG, e4]; push_cast; ring
  have hro : ∀ j < n + g, ValidRatio (joinAt n ρ ρ1 j) ∧ a ≤ joinAt n ρ ρ1 j ∧ joinAt n ρ ρ1 j ≤ b := by
    intro j hj
    unfold joinAt
    split_ifs with h
    · exact ⟨(a1 j h).1, aI j h⟩
    · obtain ⟨b1, b2⟩ := sincRatioAt_between e9 (rep64_val e6) e8 e7 hch1 (show j - n < d.outputFrames.toNat by omega) hob2
      refine ⟨⟨?_, ?_⟩, hmin.trans b1, b2.trans (max_le hLab.2 htab.2)⟩
      · exact (le_min e8.1 e7.1).trans b1
      · exact b2.trans (max_le e8.2 e7.2)
  have hup : ∀ j < n + g, ((posAt ⟨0, 0⟩ (joinAt n ρ ρ1) j).k : ℤ) + sincReach (t.count - 2) t.increment b + 1 ≤ ((U + u : ℕ) : ℤ) := by
    intro j hj
    by_cases h1 : j < n
    · rw [hposl j h1.le]
      rcases a6 a b ha hAll j h1 with c | ⟨n', _, c, _⟩
      · push_cast; omega
      · cases c
    · obtain ⟨i, rfl⟩ : ∃ i, j = n + i := ⟨j - n, by omega⟩
      rw [hpos]
      rcases e12 i (by omega) with h2 | ⟨h2, h3⟩
      · omega
      · cases h2
  have hst : ((U + u : ℕ) : ℤ) - (posAt ⟨0, 0⟩ (joinAt n ρ ρ1) (n + g)).k ≤ sincReach (t.count - 2) t.increment a := by
    rw [hpos]
    rcases e13 (by omega) with ⟨hs0, -⟩ | ⟨hs1, -⟩
    · omega
    · cases hs1
  refine ⟨t, hT, ?_, ?_⟩
  · have key := (count_range (ρ := joinAt n ρ ρ1) (N := V) (c := sincReach (t.count - 2) t.increment a) (e := 0) (s := V + 1 + n + g) ha hab hGq
      (by rw [hVq]; positivity) hro ?_ ?_).1
    · simpa using key
    · have tk := (time_k (joinAt n ρ ρ1) (n + g)).1
      have hs0q : V - (posAt ⟨0, 0⟩ (joinAt n ρ ρ1) (n + g)).k ≤ sincReach (t.count - 2) t.increment a := by rw [hVq]; exact_mod_cast hst
      rw [zero_div, sub_zero]
      linarith
    · intro j hj
      have tk := (time_k (joinAt n ρ ρ1) j).2
      have hu' : ((posAt ⟨0, 0⟩ (joinAt n ρ ρ1) j).k : ℚ) + sincReach (t.count - 2) t.increment b + 1 ≤ V := by rw [hVq]; exact_mod_cast hup j (by omega)
      have : (0 : ℚ) ≤ sincReach (t.count - 2) t.increment b := by
        have := Ge.reach_ge (e7.1.trans htab.2)
        exact_mod_cast (by omega : 0 ≤ sincReach (t.count - 2) t.increment b)
      have : (0 : ℚ) ≤ V := by rw [hVq]; positivity
      have : (0 : ℚ) ≤ n + g := by positivity
      linarith
  · have key := (count_range (ρ := joinAt n ρ ρ1) (N := max 0 (V - sincReach (t.count - 2) t.increment b)) (c := max 0 (V - sincReach (t.count - 2) t.increment b)) (e := 0) (s := 0) ha hab hGq
      (by rw [add_zero]; exact le_max_left _ _) hro ?_ ?_).2
    · simpa using key
    · have tk := (time_k (joinAt n ρ ρ1) (n + g)).1
      rw [zero_div, sub_zero, sub_self]
      refine le_trans ?_ tk
      positivity
    · intro j hj
      have tk := (time_k (joinAt n ρ ρ1) j).2
      have hu' : ((posAt ⟨0, 0⟩ (joinAt n ρ ρ1) j).k : ℚ) + sincReach (t.count - 2) t.increment b + 1 ≤ V := by rw [hVq]; exact_mod_cast hup j (by omega)
      rw [add_zero]
      refine le_trans ?_ (le_max_right _ _)
      linarith

set_option maxRecDepth 100000 in
/-- Non-vacuity of C56_sinc_lag: a stereo stream at ratio 1 that falls to 1/2; 120 frames are used and 79 put out. -/
example : ∃ e st st1 st2 o1 o2 d1 d2, srcNew fastCfg SRC_SINC_FASTEST (2 : ℕ) = .ok (e, some st) ∧
    run [plainCall 60 5 one64 0] st = .ok ([o1], st1) ∧ FedTo (fun _ _ => zero32) 2 none 0 [plainCall 60 5 one64 0] [o1] 60 ∧
    (∀ op ∈ [plainCall 60 5 one64 0, plainCall 60 500 (Fl.round f64 (1 / 2)) 0], SizedOp (2 : ℕ) op ∧ RatioIn (1 / 2) 1 op) ∧
    (plainCall 60 500 (Fl.round f64 (1 / 2)) 0).run st1 = .ok (o2, st2) ∧ o2.ret = 0 ∧ o1.data = some d1 ∧ d1.outputFramesGen = 5 ∧ o2.data = some d2 ∧
    d2.inputFramesUsed = 60 ∧ d2.outputFramesGen = 74 := by
  have h : outcome fastCfg SRC_SINC_FASTEST 2 [plainCall 60 5 one64 0, plainCall 60 500 (Fl.round f64 (1 / 2)) 0] = .ok [(0, some (60, 5)), (0, some (60, 74))] := by
    decide +kernel
  obtain ⟨e, st, o1, o2, st1, st2, hn, r1, r2, h1, h2⟩ := outcome_two h
  simp only [Prod.mk.injEq, Option.map_eq_some_iff] at h1 h2
  obtain ⟨z1, d1, a1, a2, a3⟩ := h1
  obtain ⟨z2, d2, b1, b2, b3⟩ := h2
  have h2v : (Fl.round f64 (1 / 2)).val = some (1 / 2) := by
    have e : (1 : ℚ) / 2 = p2 (-1) := by norm_num [p2]
    rw [e]
    exact Fl.val_round_of_rep ⟨rep0_p2 (by decide), by rw [abs_of_pos (p2_pos _)]; exact p2_lt (by decide)⟩
  refine ⟨e, st, st1, st2, o1, o2, d1, d2, hn, ?_, ?_, ?_, r2, z2, a1, a3, b1, b2, b3⟩
  · simp only [run, r1, bind, Except.bind]; rfl
  · refine .call _ _ _ _ d1 _ _ _ (fun k c _ _ => rfl) (fun h => absurd rfl h) z1 a1 ?_
    rw [a2]; exact .nil _
  · intro op hop
    simp only [List.mem_cons, List.not_mem_nil, or_false] at hop
    rcases hop with rfl | rfl
    · refine ⟨⟨?_, by norm_num [samples], by norm_num [samples]⟩, fun v hv => ?_⟩
      · intro hc
        have := one64_val
        rw [show one64 = Fl.nan from hc] at this
        cases this
      · have hv : one64.val = some v := hv
        rw [one64_val] at hv; cases hv; norm_num
    · refine ⟨⟨?_, by norm_num [samples], by norm_num [samples]⟩, fun v hv => ?_⟩
      · intro hc
        rw [show Fl.round f64 (1 / 2) = Fl.nan from hc] at h2v
        cases h2v
      · have hv : (Fl.round f64 (1 / 2)).val = some v := hv
        rw [h2v] at hv; cases hv; norm_num

end Verif
