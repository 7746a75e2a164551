import Verif.Props.Findings

/-! Properties of streams whose ratio moves: C56. -/

namespace Verif
open Spec

/-- Input time after `n` output frames whose ratios are between `a` and `b`. -/
theorem time_range {ρ : ℕ → ℚ} {a b : ℚ} (ha : 0 < a) : ∀ n : ℕ, (∀ j < n, ValidRatio (ρ j) ∧ a ≤ ρ j ∧ ρ j ≤ b) →
    n / b - n * p2 (-44) ≤ timeAt ρ n ∧ timeAt ρ n ≤ n / a + n * p2 (-44)
  | 0, _ => by simp [timeAt, posAt]
  | n + 1, h => by
    obtain ⟨h1, h2⟩ := time_range ha n (fun j hj => h j (by omega))
    obtain ⟨h3, h4⟩ := h n (by omega)
    obtain ⟨h5, h6⟩ := time_between h3 ha h4
    push_cast
    rw [add_div, add_div, add_mul, one_mul]
    constructor <;> linarith

/-- Bounds for the number of frames from bounds for the times of the last frame and of the next one. -/
theorem count_range {ρ : ℕ → ℚ} {a b N c e s : ℚ} {n : ℕ} {G : ℚ} (ha : 0 < a) (hab : a ≤ b) (hG : G = n) (hs : 0 ≤ N + s)
    (h : ∀ j < n, ValidRatio (ρ j) ∧ a ≤ ρ j ∧ ρ j ≤ b) (hlow : N - c - e / a ≤ timeAt ρ n) (hup : ∀ j, n = j + 1 → timeAt ρ j ≤ N + s) :
    (N - c - G / 2 ^ 44) * a - e ≤ G ∧ G ≤ 1 + (N + s + G / 2 ^ 44) * b := by
  have hb : p2 (-44) = 1 / 2 ^ 44 := by norm_num [p2]
  have hG0 : 0 ≤ G := by rw [hG]; positivity
  have hbp : 0 < b := ha.trans_le hab
  constructor
  · have h1 := (time_range ha n h).2
    rw [← hG, hb] at h1
    have : (N - c - G / 2 ^ 44) * a ≤ (G / a + e / a) * a := mul_le_mul_of_nonneg_right (by linarith) ha.le
    rw [add_mul, div_mul_cancel₀ _ ha.ne', div_mul_cancel₀ _ ha.ne'] at this
    linarith
  · rcases Nat.eq_zero_or_pos n with h0 | h0
    · rw [hG, h0]
      have : 0 ≤ (N + s) * b := by positivity
      simp only [Nat.cast_zero, zero_div]
      linarith
    · obtain ⟨j, hj⟩ : ∃ j, n = j + 1 := ⟨n - 1, by omega⟩
      have h1 := (time_range ha j (fun i hi => h i (by omega))).1
      have h2 := hup j hj
      have hjG : (j : ℚ) = G - 1 := by rw [hG, hj]; push_cast; ring
      rw [hjG, hb] at h1
      have : (G - 1) / b * b ≤ (N + s + G / 2 ^ 44) * b := mul_le_mul_of_nonneg_right (by linarith) hbp.le
      rw [div_mul_cancel₀ _ hbp.ne'] at this
      linarith

/-- C56 for zero order hold and linear: whatever the ratios, as long as they are between `a` and `b`: when a call had room for more output than it generated, the
total number `G` of output frames is between `N * a` and `N * b`, up to one output period, one input period and
accumulated rounding, where `N` is the number of frames presented so far. -/
theorem C56_interp (cfg : Config) (type : ℤ) (ht : type = SRC_ZERO_ORDER_HOLD ∨ type = SRC_LINEAR) (ch : ℕ)
    (hc : ch ≤ 8355967) (e : ℤ) (st st1 st2 : SrcState)
    (h : srcNew cfg type ch = .ok (e, some st)) (x : ℕ → ℕ → F32) (a b : ℚ) (ha : 0 < a) (ops : List Op) (os : List Obs) (U : ℕ)
    (hO : ∀ op ∈ ops, OrdinaryOp 1 ch op ∧ RatioIn a b op ∧ SmallOut ch op) (hr : run ops st = .ok (os, st1)) (hF : Fed x ch 0 ops os U)
    (m : Mem) (d d' : SrcData) (o : Obs) (hd : Ordinary 1 ch d) (hA : RatioIn a b (.process m (some d))) (hB : SmallOut ch (.process m (some d)))
    (hP : Presents x ch U m d)
    (hrun : (Op.process m (some d)).run st1 = .ok (o, st2)) (hret : o.ret = 0) (hdata : o.data = some d')
    (hin : 0 < d.inputFrames) (hroom : d'.outputFramesGen < d.outputFrames) (G N : ℚ)
    (hG : G = (outputs ch os).length + d'.outputFramesGen) (hN : N = U + d.inputFrames) :
    (N - 1 - G / 2 ^ 44) * a ≤ G ∧ G ≤ 1 + (N + 1 + G / 2 ^ 44) * b := by
  obtain ⟨K, rfl⟩ := kind_of ht
  obtain ⟨ρ, h1, h2, h3, hI, hR, h4, l, T, _, hl⟩ := stream_new h hc (fun op a => (hO op a).1) hF hr
  obtain ⟨d1, ρ1, g, u, t, e1, e2, _, e3, _, e4, e5, e6, e7, e8, eb, es, eu, ek, l1, T1, vl1, e9, eB, _⟩ := track_call T hd hP hrun hret
  rw [hdata] at e1
  simp only [Option.some.injEq] at e1
  subst e1
  have htab : a ≤ t ∧ t ≤ b := hA t e4
  have hLab : a ≤ startRatio l t ∧ startRatio l t ≤ b := by
    unfold startRatio
    split_ifs with h
    · exact htab
    · exact (hl a b (fun op h => (hO op h).2)).resolve_left h
  have hI := hI a b (fun op h => (hO op h).2)
  obtain ⟨b1, -⟩ := eB hB
  set n := (outputs ch os).length with hn
  have hpos : ∀ j, posAt ⟨0, 0⟩ (joinAt n ρ ρ1) (n + j) = posAt (posAt ⟨0, 0⟩ ρ n) ρ1 j := fun j => posAt_join _ _ _ _ _
  have hposl : ∀ j ≤ n, posAt ⟨0, 0⟩ (joinAt n ρ ρ1) j = posAt ⟨0, 0⟩ ρ j := fun j hj => posAt_congr (fun i hi => by simp [joinAt, show i < n by omega])
  have hs := es (by rw [← e3]; exact hroom) hin
  rw [← hpos] at hs
  have hNi : (U : ℤ) + d.inputFrames ≤ (posAt ⟨0, 0⟩ (joinAt n ρ ρ1) (n + g)).k + 1 := by
    cases K <;> dsimp only at hs <;> omega
  have hGq : G = ((n + g : ℕ) : ℚ) := by rw [hG, e3]; push_cast; ring
  have key := count_range (ρ := joinAt n ρ ρ1) (N := N) (c := 1) (e := 0) (s := 1) ha (htab.1.trans htab.2) hGq (by
      rw [hN]; have : (0 : ℚ) < d.inputFrames := by exact_mod_cast hin
      positivity) ?_ ?_ ?_
  · simpa using key
  · intro j hj
    unfold joinAt
    split_ifs with h
    · exact ⟨h1 j h, hI j h⟩
    · obtain ⟨c1, c2⟩ := b1 (j - n) (by omega)
      exact ⟨e6 _ (by omega), (le_min hLab.1 htab.1).trans c1, c2.trans (max_le hLab.2 htab.2)⟩
  · have tk := (time_k (joinAt n ρ ρ1) (n + g)).1
    have : N ≤ (posAt ⟨0, 0⟩ (joinAt n ρ ρ1) (n + g)).k + 1 := by rw [hN]; exact_mod_cast hNi
    rw [zero_div]; linarith
  · intro j hj
    have tk := (time_k (joinAt n ρ ρ1) j).2
    have : ((posAt ⟨0, 0⟩ (joinAt n ρ ρ1) j).k : ℤ) ≤ U + d.inputFrames := by
      by_cases hg : g = 0
      · rw [hposl j (by omega)]
        have := h4 j (by omega)
        omega
      · have := (eb (g - 1) (by omega)).2
        rw [← hpos, show n + (g - 1) = j by omega] at this
        exact this
    have : ((posAt ⟨0, 0⟩ (joinAt n ρ ρ1) j).k : ℚ) ≤ N := by rw [hN]; exact_mod_cast this
    linarith

/-- One more call of a stream at ratios of at least 1. -/
theorem sinc_last_up {cfg : Config} (hL : LibraryTables cfg) {type e : ℤ} {ch : ℕ} {st st1 st2 : SrcState} (ht : SincType type)
    (h : srcNew cfg type ch = .ok (e, some st)) {x : ℕ → ℕ → F32} {len : Option ℕ} (hx : EndsAt x len) {ops : List Op} {os : List Obs} {U : ℕ} {a b : ℚ}
    (ha : 1 ≤ a)
    (hO : ∀ op ∈ ops, SizedOp ch op ∧ RatioIn a b op) (hr : run ops st = .ok (os, st1)) (hF : FedTo x ch len 0 ops os U)
    {m : Mem} {d d' : SrcData} {o : Obs} (hd : SincSized ch d) (hA : RatioIn a b (.process m (some d))) (hP : Presents x ch U m d)
    (hE : d.endOfInput ≠ 0 → len = some (U + d.inputFrames.toNat))
    (hrun : (Op.process m (some d)).run st1 = .ok (o, st2)) (hret : o.ret = 0) (hdata : o.data = some d') :
    ∃ (t : CoeffTable) (B : ℤ) (u g : ℕ) (ρ : ℕ → ℚ) (L : ℚ), cfg.table type = some t ∧ Geom (t.count - 2) t.increment B ∧ 1 ≤ ch ∧
      B = 3 * sincReach (t.count - 2) t.increment (1 / 256) ∧ a ≤ L ∧ a ≤ b ∧
      d'.inputFramesUsed = u ∧ d'.outputFramesGen = g ∧ u ≤ d.inputFrames.toNat ∧
      (∀ j < (outputs ch os).length + g, ValidRatio (ρ j) ∧ a ≤ ρ j ∧ ρ j ≤ b) ∧
      (∀ j < (outputs ch os).length + g, (posAt ⟨0, 0⟩ ρ j).k < U + u ∧
        (((posAt ⟨0, 0⟩ ρ j).k : ℤ) + sincReach (t.count - 2) t.increment 1 + 1 ≤ ((U + u : ℕ) : ℤ) ∨ ∃ n, len = some n)) ∧
      (g < d.outputFrames.toNat → Stopped B ch d len True L d.inputFrames.toNat U u (sincReach (t.count - 2) t.increment 1)
        (posAt ⟨0, 0⟩ ρ ((outputs ch os).length + g))) := by
  obtain ⟨t, B, ρ, Ds, hT, G, hch1, hB, a1, a2, a3, aI, aR, a4, a5, a6, Q', l', h', u', T, SR, SU, hu', hQ, hh1⟩ :=
    sinc_stream_new hL ht h hx hF (lo := 0) (u := .freely) (tl := []) (Or.inl rfl) (fun op h => (hO op h).1) (fun h => absurd rfl h) hr
  have hAll : ∀ op ∈ ops, RatioIn a b op := fun op a => (hO op a).2
  have hQ := hQ a b hAll
  have aI := aI a b hAll
  obtain ⟨f, D, W, -, hQl, -⟩ := T.view
  obtain ⟨d1, Ds1, g, u, t', e1, e2, e3, e4, e5, e6, e7, e8, e9, e10, e11, e12, e13, eE, eS, T1⟩ :=
    (Or.resolve_left (strack_call T hx hd (fun _ => hP) (fun _ => hE) hrun)
      (fun h => h.1 hret)).2
  rw [hdata] at e1
  cases e1
  have htab : a ≤ t' ∧ t' ≤ b := hA t' e6
  have hLab : a ≤ startRatio l' t' ∧ startRatio l' t' ≤ b := by
    unfold startRatio
    split_ifs with h
    · exact htab
    · exact (hQl a b hQ).resolve_left h
  have hob2 := sized_out hd
  generalize hL : startRatio l' t' = L at *
  have hsame : SameReach (t.count - 2) t.increment a b := by
    refine ⟨by linarith, ?_⟩
    rw [← (sameReach_one (N := t.count - 2) (inc := t.increment) ha).2, ← (sameReach_one (N := t.count - 2) (inc := t.increment) (ha.trans (htab.1.trans htab.2))).2]
  have hH : sincReach (t.count - 2) t.increment (min L t') = sincReach (t.count - 2) t.increment 1 :=
    ((sameReach_one (N := t.count - 2) (inc := t.increment) (ha.trans (le_min hLab.1 htab.1))).2).symm
  rw [hH] at e12 e13
  set n := (outputs ch os).length with hn'
  set ρ1 := sincRatioAt L t' ch d.outputFrames.toNat with hρ1
  have hpos : ∀ j, posAt ⟨0, 0⟩ (joinAt n ρ ρ1) (n + j) = posAt (posAt ⟨0, 0⟩ ρ n) ρ1 j := fun j => posAt_join _ _ _ _ _
  have hposl : ∀ j ≤ n, posAt ⟨0, 0⟩ (joinAt n ρ ρ1) j = posAt ⟨0, 0⟩ ρ j := fun j hj => posAt_congr (fun i hi => by simp [joinAt, show i < n by omega])
  refine ⟨t, B, u, g, joinAt n ρ ρ1, L, hT, G, hch1, hB, hLab.1, htab.1.trans htab.2, e2, e4, e3, ?_, ?_, ?_⟩
  · intro j hj
    unfold joinAt
    split_ifs with h
    · exact ⟨(a1 j h).1, aI j h⟩
    · obtain ⟨b1, b2⟩ := sincRatioAt_between e9 (rep64_val e6) e8 e7 hch1 (show j - n < d.outputFrames.toNat by omega) hob2
      refine ⟨⟨?_, ?_⟩, (le_min hLab.1 htab.1).trans b1, b2.trans (max_le hLab.2 htab.2)⟩
      · exact (le_min e8.1 e7.1).trans b1
      · exact b2.trans (max_le e8.2 e7.2)
  · intro j hj
    by_cases h1 : j < n
    · rw [hposl j h1.le]
      have b := (a5 j h1).1
      refine ⟨by omega, ?_⟩
      rcases a6 a _ (by linarith) hAll j h1 with c | ⟨n', _, c, _⟩
      · left
        rw [← (sameReach_one (N := t.count - 2) (inc := t.increment) (ha.trans (htab.1.trans htab.2))).2] at c
        push_cast; omega
      · exact Or.inr ⟨n', c⟩
    · obtain ⟨i, rfl⟩ : ∃ i, j = n + i := ⟨j - n, by omega⟩
      rw [hpos]
      have h6 := G.reach_ge (r := 1) (by norm_num)
      rcases e12 i (by omega) with h2 | ⟨h2, h3⟩
      · exact ⟨by omega, Or.inl h2⟩
      · refine ⟨?_, Or.inr ⟨_, h2⟩⟩
        have e3' : 0 < 1 / L - 1 / 1000000 := by
          have : 1 / 256 ≤ 1 / L := one_div_le_one_div_of_le (lt_of_lt_of_le (by norm_num) e8.1) e8.2
          linarith
        have hi := (posAt_frac (ρ := ρ1) (posAt_frac0 ρ n) i).1
        generalize posAt (posAt ⟨0, 0⟩ ρ n) ρ1 i = p at *
        have hp : (0 : ℚ) < ((ch * (((U + u : ℕ) : ℤ) - p.k) : ℤ) : ℚ) := by linarith
        have hp' : 0 < (ch : ℤ) * (((U + u : ℕ) : ℤ) - p.k) := by exact_mod_cast hp
        have := pos_of_mul_pos_right hp' (by positivity)
        omega
  · intro hg
    have hcl : ∃ a b, Q' a b ∧ SameReach (t.count - 2) t.increment a b ∧ a ≤ t' ∧ t' ≤ b := ⟨a, b, hQ, hsame, htab⟩
    have := e13 hg
    rw [hpos]
    unfold Stopped at this ⊢
    exact this.imp (fun h => ⟨h.1, h.2.imp_right fun h => ⟨fun _ => h.1 hcl, h.2⟩⟩) (fun h => ⟨h.1, fun _ => h.2 hcl⟩)

/-- C56 for the sinc converters after the end of input: whatever the ratios, as long as they are between `a ≥ 1` and `b`: a converter that has been told the end of the stream and had room
for more output has taken in the whole stream of `N` frames and generated between `N * a` and `N * b` output frames, to within one frame and accumulated rounding. -/
theorem C56_sinc (cfg : Config) (hL : LibraryTables cfg) (type : ℤ) (ht : SincType type) (ch : ℕ) (e : ℤ) (st st1 st2 : SrcState)
    (h : srcNew cfg type ch = .ok (e, some st)) (x : ℕ → ℕ → F32) (N : ℕ) (hx : EndsAt x (some N)) (a b : ℚ) (ha : 1 ≤ a)
    (ops : List Op) (os : List Obs) (U : ℕ)
    (hO : ∀ op ∈ ops, SizedOp ch op ∧ RatioIn a b op) (hr : run ops st = .ok (os, st1)) (hF : FedTo x ch (some N) 0 ops os U)
    (m : Mem) (d d' : SrcData) (o : Obs) (hd : SincSized ch d) (hA : RatioIn a b (.process m (some d))) (hP : Presents x ch U m d)
    (hend : d.endOfInput ≠ 0) (hN : N = U + d.inputFrames.toNat) (hin : d.dataIn ≠ 0)
    (hrun : (Op.process m (some d)).run st1 = .ok (o, st2)) (hret : o.ret = 0) (hdata : o.data = some d')
    (hroom : d'.outputFramesGen < d.outputFrames) (G : ℚ) (hG : G = (outputs ch os).length + d'.outputFramesGen) :
    U + d'.inputFramesUsed = N ∧ (N - G / 2 ^ 44 - 1 / 10 ^ 6) * a - 1 ≤ G ∧ G ≤ 1 + (N + G / 2 ^ 44) * b := by
  obtain ⟨t, B, u, g, ρ, L, hT, Ge, hch1, hB, hLa, hab, e1, e2, e3, e4, e5, e6⟩ := sinc_last_up hL ht h hx ha hO hr hF hd hA hP (fun _ => by rw [hN]) hrun hret hdata
  have hfl := Ge.reach_floor hB (r := 1) (by norm_num)
  have hch : (1 : ℤ) ≤ ch := by exact_mod_cast hch1
  have hs := e6 (by omega)
  set H := sincReach (t.count - 2) t.increment 1
  have h6 := Ge.reach_ge (r := 1) (by norm_num)
  rcases hs with ⟨_, hs⟩ | ⟨hs1, hs2⟩
  · exfalso
    rcases hs with hs | ⟨hs1, hs2⟩
    · exact hin hs
    · exact hs2 hend (hs1 trivial (Or.inr (by omega)))
  have hNu : N = U + u := by simpa using hs1
  refine ⟨by rw [e1, hNu]; push_cast; ring, ?_⟩
  have hs2 := hs2 trivial (by
    have : (ch : ℤ) * (4 * H + 4) ≤ ch * B := mul_le_mul_of_nonneg_left hfl (by omega)
    nlinarith)
  rw [← hNu] at hs2 e5
  set n := (outputs ch os).length
  have hGq : G = ((n + g : ℕ) : ℚ) := by rw [hG, e2]; push_cast; ring
  have key := count_range (ρ := ρ) (N := N) (c := 1 / 10 ^ 6) (e := 1) (s := 0) (by linarith) hab hGq (by positivity) e4 ?_ ?_
  · obtain ⟨k1, k2⟩ := key
    rw [add_zero] at k2
    refine ⟨?_, k2⟩
    rwa [sub_right_comm] at k1
  · have hfr := posAt_frac0 ρ (n + g)
    have htk : timeAt ρ (n + g) = (posAt ⟨0, 0⟩ ρ (n + g)).k + (posAt ⟨0, 0⟩ ρ (n + g)).i := rfl
    rw [htk]
    generalize posAt ⟨0, 0⟩ ρ (n + g) = p at *
    have hL0 : 1 / L ≤ 1 / a := one_div_le_one_div_of_le (by linarith) hLa
    rcases le_or_gt (N : ℤ) p.k with h | h
    · have : (N : ℚ) ≤ p.k := by exact_mod_cast h
      have : 0 < 1 / a := by positivity
      linarith [hfr.1]
    · have h1 : ((N : ℤ) - p.k) ≤ ch * ((N : ℤ) - p.k) := by nlinarith
      have h2 : (((N : ℤ) - p.k : ℤ) : ℚ) ≤ ((ch * ((N : ℤ) - p.k) : ℤ) : ℚ) := by exact_mod_cast h1
      push_cast at h2 hs2 ⊢
      linarith
  · intro j hj
    have hu := (e5 j (by omega)).1
    have tk := (time_k ρ j).2
    have hu' : ((posAt ⟨0, 0⟩ ρ j).k : ℚ) + 1 ≤ N := by exact_mod_cast hu
    linarith

/-- C56 for the sinc converters before the end of input: whatever the ratios, as long as they are between `a ≥ 1` and `b`: a call that had room for more output than it generated has used all
its input, and the output lags behind the input by the reach `H` of the filter: of `N` input frames, between `(N - H) * a` and `(N - H) * b` output
frames have been generated, to within one frame and accumulated rounding. -/
theorem C56_sinc_live (cfg : Config) (hL : LibraryTables cfg) (type : ℤ) (ht : SincType type) (ch : ℕ) (e : ℤ) (st st1 st2 : SrcState)
    (h : srcNew cfg type ch = .ok (e, some st)) (x : ℕ → ℕ → F32) (a b : ℚ) (ha : 1 ≤ a)
    (ops : List Op) (os : List Obs) (U : ℕ)
    (hO : ∀ op ∈ ops, SizedOp ch op ∧ RatioIn a b op) (hr : run ops st = .ok (os, st1)) (hF : FedTo x ch none 0 ops os U)
    (m : Mem) (d d' : SrcData) (o : Obs) (hd : SincSized ch d) (hA : RatioIn a b (.process m (some d))) (hP : Presents x ch U m d)
    (hend : d.endOfInput = 0) (hin : d.dataIn ≠ 0)
    (hrun : (Op.process m (some d)).run st1 = .ok (o, st2)) (hret : o.ret = 0) (hdata : o.data = some d')
    (hroom : d'.outputFramesGen < d.outputFrames) (G N : ℚ) (hG : G = (outputs ch os).length + d'.outputFramesGen)
    (hN : N = U + d.inputFrames.toNat) :
    d'.inputFramesUsed = max d.inputFrames 0 ∧ ∃ (t : CoeffTable) (M : ℚ), cfg.table type = some t ∧
      M = max 0 (N - sincReach (t.count - 2) t.increment 1) ∧
      (M - G / 2 ^ 44) * a ≤ G ∧ G ≤ 1 + (M + G / 2 ^ 44) * b := by
  obtain ⟨t, B, u, g, ρ, L, hT, Ge, hch1, hB, hLa, hab, e1, e2, e3, e4, e5, e6⟩ := sinc_last_up hL ht h (len := none) (by rintro _ ⟨⟩) ha
    hO hr hF hd hA hP (fun h => absurd hend h) hrun hret hdata
  have hfl := Ge.reach_floor hB (r := 1) (by norm_num)
  have hs := e6 (by omega)
  set H := sincReach (t.count - 2) t.increment 1 with hH
  have h6 := Ge.reach_ge (r := 1) (by norm_num)
  rcases hs with ⟨hs0, hs⟩ | ⟨hs1, hs2⟩
  swap
  · cases hs1
  have hu : u = d.inputFrames.toNat := by
    rcases hs with hs | ⟨hs1, hs2⟩
    · exact absurd hs hin
    · exact hs1 trivial (Or.inr (by omega))
  refine ⟨by rw [e1, hu]; omega, t, _, hT, rfl, ?_⟩
  rw [← hH]
  have hNq : N = ((U + u : ℕ) : ℚ) := by rw [hN, hu]; push_cast; ring
  set n := (outputs ch os).length
  have hGq : G = ((n + g : ℕ) : ℚ) := by rw [hG, e2]; push_cast; ring
  have key := count_range (ρ := ρ) (N := max 0 (N - H)) (c := 0) (e := 0) (s := 0) (by linarith) hab hGq (by rw [add_zero]; exact le_max_left _ _) e4 ?_ ?_
  · simpa using key
  · have tk := (time_k ρ (n + g)).1
    have hs0q : N - (posAt ⟨0, 0⟩ ρ (n + g)).k ≤ H := by rw [hNq]; exact_mod_cast hs0
    rw [zero_div, sub_zero, sub_zero]
    refine max_le ?_ (by linarith)
    refine le_trans ?_ tk
    positivity
  · intro j hj
    rcases (e5 j (by omega)).2 with hu | ⟨_, hu⟩
    swap
    · cases hu
    have tk := (time_k ρ j).2
    have hu' : ((posAt ⟨0, 0⟩ ρ j).k : ℚ) + H + 1 ≤ N := by rw [hNq]; exact_mod_cast hu
    rw [add_zero]
    refine le_trans ?_ (le_max_right _ _)
    linarith

/-- A computed outcome of two calls is a run of two calls. -/
theorem outcome_two {cfg : Config} {type ch : ℤ} {op1 op2 : Op} {v1 v2 : ℤ × Option (ℤ × ℤ)} (h : outcome cfg type ch [op1, op2] = .ok [v1, v2]) :
    ∃ e st o1 o2 st1 st2, srcNew cfg type ch = .ok (e, some st) ∧ op1.run st = .ok (o1, st1) ∧ op2.run st1 = .ok (o2, st2) ∧
      (o1.ret, o1.data.map (fun d => (d.inputFramesUsed, d.outputFramesGen))) = v1 ∧
      (o2.ret, o2.data.map (fun d => (d.inputFramesUsed, d.outputFramesGen))) = v2 := by
  unfold outcome at h
  split at h
  · rename_i e st hn
    split at h
    · rename_i os st' hr
      unfold run at hr
      obtain ⟨⟨o1, st1⟩, r1, hr⟩ := bind_ok hr
      obtain ⟨⟨os1, st1'⟩, r2, hr⟩ := bind_ok hr
      unfold run at r2
      obtain ⟨⟨o2, st2⟩, r2', r2⟩ := bind_ok r2
      obtain ⟨⟨os2, st3⟩, r3, r2⟩ := bind_ok r2
      unfold run at r3
      have r3 := ok_inj r3
      have r2 := ok_inj r2
      have hr := ok_inj hr
      simp only [Prod.mk.injEq] at r3 r2 hr
      obtain ⟨rfl, rfl⟩ := r3
      obtain ⟨rfl, rfl⟩ := r2
      obtain ⟨rfl, rfl⟩ := hr
      have h := ok_inj h
      simp only [List.map_cons, List.map_nil, List.cons.injEq, and_true] at h
      exact ⟨e, st, o1, o2, st1, st2, hn, r1, r2', h.1, h.2⟩
    · cases h
  · cases h
  · cases h

set_option maxRecDepth 100000 in
/-- Non-vacuity of C56_sinc: a stereo stream of 100 frames at ratios 1 and then 2, with `end_of_input` in the second call. -/
example : ∃ e st st1 st2 o1 o2 d1 d2, srcNew fastCfg SRC_SINC_FASTEST (2 : ℕ) = .ok (e, some st) ∧
    run [plainCall 60 10 one64 0] st = .ok ([o1], st1) ∧ FedTo (fun _ _ => zero32) 2 (some 100) 0 [plainCall 60 10 one64 0] [o1] 60 ∧
    (∀ op ∈ [plainCall 60 10 one64 0, plainCall 40 500 (dbl 2) 1], SizedOp (2 : ℕ) op ∧ RatioIn 1 2 op) ∧
    (plainCall 40 500 (dbl 2) 1).run st1 = .ok (o2, st2) ∧ o2.ret = 0 ∧ o1.data = some d1 ∧ d1.outputFramesGen = 10 ∧ o2.data = some d2 ∧
    d2.inputFramesUsed = 40 ∧ d2.outputFramesGen = 99 := by
  have h : outcome fastCfg SRC_SINC_FASTEST 2 [plainCall 60 10 one64 0, plainCall 40 500 (dbl 2) 1] = .ok [(0, some (60, 10)), (0, some (40, 99))] := by
    decide +kernel
  obtain ⟨e, st, o1, o2, st1, st2, hn, r1, r2, h1, h2⟩ := outcome_two h
  simp only [Prod.mk.injEq, Option.map_eq_some_iff] at h1 h2
  obtain ⟨z1, d1, a1, a2, a3⟩ := h1
  obtain ⟨z2, d2, b1, b2, b3⟩ := h2
  have h2v := dbl_ofInt_small (n := 2) (by norm_num) (by norm_num)
  refine ⟨e, st, st1, st2, o1, o2, d1, d2, hn, ?_, ?_, ?_, r2, z2, a1, a3, b1, b2, b3⟩
  · simp only [run, r1, bind, Except.bind]; rfl
  · refine .call _ _ _ _ d1 _ _ _ (fun k c _ _ => rfl) (fun h => absurd rfl h) z1 a1 ?_
    rw [a2]; exact .nil _
  · intro op hop
    simp only [List.mem_cons, List.not_mem_nil, or_false] at hop
    rcases hop with rfl | rfl
    · refine ⟨⟨?_, by norm_num [samples], by norm_num [samples]⟩, fun v hv => ?_⟩
      · intro hc
        have := one64_val
        rw [show one64 = Fl.nan from hc] at this
        cases this
      · have hv : one64.val = some v := hv
        rw [one64_val] at hv; cases hv; norm_num
    · refine ⟨⟨?_, by norm_num [samples], by norm_num [samples]⟩, fun v hv => ?_⟩
      · intro hc
        rw [show dbl 2 = Fl.nan from hc] at h2v
        cases h2v
      · have hv : (dbl 2).val = some v := hv
        rw [h2v] at hv; cases hv; norm_num

set_option maxRecDepth 100000 in
/-- Non-vacuity of C56_interp: the same with the linear converter; the second call continues after the ten frames used and has room left. -/
example : ∃ e st st1 st2 o1 o2 d1 d2, srcNew fastCfg SRC_LINEAR (2 : ℕ) = .ok (e, some st) ∧
    run [plainCall 60 10 one64 0] st = .ok ([o1], st1) ∧ Fed (fun _ _ => zero32) 2 0 [plainCall 60 10 one64 0] [o1] 10 ∧
    (plainCall 60 500 (dbl 2) 1).run st1 = .ok (o2, st2) ∧ o2.ret = 0 ∧ o1.data = some d1 ∧ d1.outputFramesGen = 10 ∧ o2.data = some d2 ∧
    d2.inputFramesUsed = 60 ∧ d2.outputFramesGen = 64 := by
  have h : outcome fastCfg SRC_LINEAR 2 [plainCall 60 10 one64 0, plainCall 60 500 (dbl 2) 1] = .ok [(0, some (10, 10)), (0, some (60, 64))] := by
    decide +kernel
  obtain ⟨e, st, o1, o2, st1, st2, hn, r1, r2, h1, h2⟩ := outcome_two h
  simp only [Prod.mk.injEq, Option.map_eq_some_iff] at h1 h2
  obtain ⟨z1, d1, a1, a2, a3⟩ := h1
  obtain ⟨z2, d2, b1, b2, b3⟩ := h2
  refine ⟨e, st, st1, st2, o1, o2, d1, d2, hn, ?_, ?_, r2, z2, a1, a3, b1, b2, b3⟩
  · simp only [run, r1, bind, Except.bind]; rfl
  · refine .call _ _ _ _ d1 _ _ _ (fun k c _ _ => rfl) z1 a1 ?_
    rw [a2]; exact .nil _

end Verif
