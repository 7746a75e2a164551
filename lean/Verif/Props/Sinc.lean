import Verif.Proof.SincStream
import Verif.Props.Interp

/-! Properties of the sinc converters: C04, C05, C08, C10-C12, C22, C24, C44, C46-C49. -/

namespace Verif
open Spec

theorem sinc_new_track {cfg : Config} (hL : LibraryTables cfg) {type e : ℤ} {ch : ℕ} {st : SrcState} (ht : SincType type)
    (h : srcNew cfg type ch = .ok (e, some st)) (x : ℕ → ℕ → F32) (len : Option ℕ) :
    ∃ (t : CoeffTable) (B h : ℤ), cfg.table type = some t ∧ B = 3 * sincReach (t.count - 2) t.increment (1 / 256) ∧ 1 ≤ ch ∧
      STrack t.coeffs (t.count - 2) t.increment B x ch len (fun _ _ => True) 0 ⟨0, 0⟩ 0 h st ∧ Geom (t.count - 2) t.increment B ∧
      (∀ u lo, u = .freely ∨ u = .rising 0 → SReg (t.count - 2) t.increment B lo 0 h u) ∧ sincReach (t.count - 2) t.increment 1 ≤ h := by
  obtain ⟨t, hT, hd⟩ := sinc_table hL ht h
  obtain ⟨B, f, G, hB, hk, V, hm, _⟩ := sinc_new_view (y := signal x) hT hd h (fun z hz c => by simp [signal, hz]) (3 * sincReach (t.count - 2) t.increment (1 / 256))
  have hf : f.bRealEnd < 0 := by
    rcases V.buf.hD with ⟨_, h, _⟩ | ⟨h, _⟩
    · exact h
    · omega
  refine ⟨t, B, _, hT, hB, V.hch1, ⟨hm, f, 0, V, fun h => by omega, fun _ _ _ => Or.inl rfl, fun _ _ _ _ _ => Or.inl rfl, fun _ _ _ _ _ h => by omega⟩, G, ?_, ?_⟩
  · rintro u lo (rfl | rfl)
    · trivial
    · exact ⟨Or.inl rfl, by simp [floorReach, hB], Or.inl rfl⟩
  · have := G.reach_anti (r := 1 / 256) (r' := 1) (by norm_num) (by norm_num)
    omega

theorem floor_timeZ (ρ : ℕ → ℚ) (j : ℕ) : ⌊timeAt ρ j⌋ = (posAt ⟨0, 0⟩ ρ j).k ∧ Int.fract (timeAt ρ j) = (posAt ⟨0, 0⟩ ρ j).i := by
  have := posAt_frac0 ρ j
  unfold timeAt
  rw [Int.fract_natCast_add, Int.floor_natCast_add, Int.floor_eq_zero_iff.2 this, Int.fract_eq_self.2 this, add_zero]
  exact ⟨rfl, rfl⟩

theorem sincIdeal_eq (t : CoeffTable) (x : ℕ → ℕ → F32) (D : ℤ) (q : ℚ) (ρ : ℕ → ℚ) (j : ℕ) :
    sincFrame t.coeffs (t.count - 2) t.increment x D q (posAt ⟨0, 0⟩ ρ j) = sincIdeal t x D q (timeAt ρ j) := by
  funext c
  unfold sincIdeal sincFrame
  rw [(floor_timeZ ρ j).1, (floor_timeZ ρ j).2]

/-- A history at a constant ratio is a rising one. -/
theorem use_const {x : ℕ → ℕ → F32} {ch U V : ℕ} {len : Option ℕ} {ops : List Op} {os : List Obs} (hF : FedTo x ch len U ops os V) {lo r : ℚ}
    (hlo : lo ≤ r) (hO : ∀ op ∈ ops, SizedOp ch op ∧ AtRatio r op) : ∀ q ≤ r, SincUse lo ch (.rising q) ops := by
  have key : ∀ {a : F64}, a.val = some r → ∀ q ≤ r, a ≠ .nan ∧ NotBelow lo q a ∧ riseTo q a ≤ r := by
    intro a ha q hq
    refine ⟨by rintro rfl; simp [Fl.val] at ha, ?_, ?_⟩
    · intro v hv _ _
      rw [ha] at hv
      cases hv
      exact ⟨hlo, hq⟩
    · unfold riseTo
      rw [ha]
      dsimp only
      split_ifs
      · exact le_refl _
      · exact hq
  induction hF with
  | nil => intro q _; exact .nil _
  | call U V m d d' o ops os hP hE h0 hd hF ih =>
    intro q hq
    obtain ⟨a, b⟩ := hO _ (List.mem_cons_self ..)
    obtain ⟨k1, k2, k3⟩ := key b q hq
    exact .riseCall _ _ _ _ a k2 (ih (fun op h => hO op (List.mem_cons_of_mem _ h)) _ k3)
  | setRatio U V a o ops os hF ih =>
    intro q hq
    obtain ⟨_, b⟩ := hO _ (List.mem_cons_self ..)
    obtain ⟨k1, k2, k3⟩ := key b q hq
    exact .riseRatio _ _ _ k1 k2 (ih (fun op h => hO op (List.mem_cons_of_mem _ h)) _ k3)

/-- C08, partial: on a new sinc handle every history of `src_process`, `src_set_ratio` and `src_reset` calls of the kind `SafeUse` runs
to its end without any fault of the model: no access outside the input and output buffers, the history buffer and the filter table, no
`int` overflow, no failed assertion.  `SafeUse` means that between two resets `end_of_input` is never set; or all ratios are at least 1/180
and, with several channels, ratios below 1 are not lowered once `end_of_input` has been set; or there is one channel and ratios below 1
are never lowered.  Missing: the other histories; there the code does fault, see `C08_ratio_drop` and `C08_flush_drop`. -/
theorem C08_partial (cfg : Config) (hL : LibraryTables cfg) (type : ℤ) (ht : SincType type) (ch : ℕ) (e : ℤ) (st : SrcState)
    (h : srcNew cfg type ch = .ok (e, some st)) (p : Phase) (hp : p.First) (ops : List Op)
    (hS : SafeUse ch p ops) : ∃ os st', run ops st = .ok (os, st') := by
  obtain ⟨t, B, _, H⟩ := sinc_new_hist hL ht h hp
  obtain ⟨os, st', _, h1, _⟩ := sinc_history_total hS H
  exact ⟨os, st', h1⟩

theorem atRatio_in {r : ℚ} {op : Op} (h : AtRatio r op) : RatioIn r r op := by
  rcases op with ⟨m, _ | d⟩ | _ | q | _
  · trivial
  · intro v hv
    simp only [AtRatio] at h
    rw [h] at hv; cases hv
    exact ⟨le_refl _, le_refl _⟩
  · trivial
  · intro v hv
    simp only [AtRatio] at h
    rw [h] at hv; cases hv
    exact ⟨le_refl _, le_refl _⟩
  · trivial

theorem sinc_stream_new {cfg : Config} (hL : LibraryTables cfg) {type e : ℤ} {ch : ℕ} {st st' : SrcState} (ht : SincType type)
    (h : srcNew cfg type ch = .ok (e, some st)) {x : ℕ → ℕ → F32} {len : Option ℕ} (hx : EndsAt x len) {ops : List Op} {os : List Obs} {V : ℕ}
    (hF : FedTo x ch len 0 ops os V) {lo : ℚ} {u : Use} {tl : List Op} (hu : u = .freely ∨ u = .rising 0) (hZ : ∀ op ∈ ops, SizedOp ch op)
    (hS : u ≠ .freely → SincUse lo ch u (ops ++ tl)) (hr : run ops st = .ok (os, st')) :
    ∃ (t : CoeffTable) (B : ℤ) (ρ : ℕ → ℚ) (Ds : ℕ → ℤ), cfg.table type = some t ∧ Geom (t.count - 2) t.increment B ∧ 1 ≤ ch ∧
      B = 3 * sincReach (t.count - 2) t.increment (1 / 256) ∧
      (∀ j < (outputs ch os).length, ValidRatio (ρ j) ∧ sincReach (t.count - 2) t.increment 1 ≤ Ds j ∧ (u = .rising 0 → Ds j = allHistory t)) ∧
      outputs ch os = (List.range (outputs ch os).length).map (fun j => frameOf ch (sincIdeal t x (Ds j) (ρ j) (timeAt ρ j))) ∧
      (∀ r, (∀ op ∈ ops, AtRatio r op) → ∀ j < (outputs ch os).length, ρ j = r) ∧
      (∀ a b, (∀ op ∈ ops, RatioIn a b op) → ∀ j < (outputs ch os).length, a ≤ ρ j ∧ ρ j ≤ b) ∧
      ratiosFrom sincRatioAt ch 0 ops os = (List.range (outputs ch os).length).map ρ ∧
      (SEnded st → V = 0 ∧ SEnded st') ∧
      (∀ j < (outputs ch os).length, (posAt ⟨0, 0⟩ ρ j).k < V ∧ ((∃ n ≤ V, len = some n) ∨ ∀ x' : ℕ → ℕ → F32, (∀ k < V, x k = x' k) →
        sincIdeal t x (Ds j) (ρ j) (timeAt ρ j) = sincIdeal t x' (Ds j) (ρ j) (timeAt ρ j))) ∧
      (∀ a b, 0 < a → (∀ op ∈ ops, RatioIn a b op) → ∀ j < (outputs ch os).length,
        ((posAt ⟨0, 0⟩ ρ j).k : ℤ) + sincReach (t.count - 2) t.increment b + 1 ≤ V ∨
        ∃ n ≤ V, len = some n ∧ (posAt ⟨0, 0⟩ ρ j).i + 1 / b - 1 / 1000000 ≤ ((ch * ((n : ℤ) - (posAt ⟨0, 0⟩ ρ j).k) : ℤ) : ℚ)) ∧
      ∃ (Q' : ℚ → ℚ → Prop) (l' : ℚ) (h' : ℤ) (u' : Use), STrack t.coeffs (t.count - 2) t.increment B x ch len Q' V (posAt ⟨0, 0⟩ ρ (outputs ch os).length) l' h' st' ∧
        SReg (t.count - 2) t.increment B lo l' h' u' ∧ (u' ≠ .freely → SincUse lo ch u' tl) ∧ (u' = .freely ↔ u = .freely) ∧ (∀ a b, (∀ op ∈ ops, RatioIn a b op) → Q' a b) ∧ sincReach (t.count - 2) t.increment 1 ≤ h' := by
  obtain ⟨t, B, h, hT, hB, h1, T, G, hR, hh1⟩ := sinc_new_track hL ht h x len
  obtain ⟨ρ, Ds, a1, a2, aI, aR, _, a4, a5, a6, Q', l', h', u', a7, a8, a8', a9, a10, a11⟩ := sinc_stream (lo := lo) hx hF T hZ hS (hR u lo hu) hh1 hr
  simp only [sincIdeal_eq] at a2 a5
  refine ⟨t, B, ρ, Ds, hT, G, h1, hB, ?_, a2, ?_, fun a b => aI a b (Or.inl rfl), aR, a4, a5, fun a b ha => a6 a b ha (Or.inl rfl), Q', l', h', u', a7, a8, a8', a9, fun a b => a10 a b trivial, a11⟩
  swap
  · intro r hA j hj
    obtain ⟨b1, b2⟩ := aI r r (Or.inl rfl) (fun op h => atRatio_in (hA op h)) j hj
    exact le_antisymm b2 b1
  intro j hj
  obtain ⟨b1, b2, b3⟩ := a1 j hj
  refine ⟨b1, b2, fun hu => ?_⟩
  rw [b3 0 hu]
  unfold allHistory
  ring

/-- At a constant ratio the output is a prefix of one stream that depends only on the input and the ratio. -/
theorem sinc_const {cfg : Config} (hL : LibraryTables cfg) {type e : ℤ} {ch : ℕ} {st st' : SrcState} (ht : SincType type)
    (h : srcNew cfg type ch = .ok (e, some st)) {x : ℕ → ℕ → F32} {len : Option ℕ} (hx : EndsAt x len) {ops : List Op} {os : List Obs} {V : ℕ}
    (hF : FedTo x ch len 0 ops os V) {r : ℚ} (hr0 : 0 ≤ r) (hO : ∀ op ∈ ops, SizedOp ch op ∧ AtRatio r op)
    (hr : run ops st = .ok (os, st')) : ∃ t, cfg.table type = some t ∧
    outputs ch os = (List.range (outputs ch os).length).map (fun j => frameOf ch (sincIdeal t x (allHistory t) r (timeAt (fun _ => r) j))) := by
  have hS := use_const (lo := r) hF (le_refl r) hO 0 hr0
  obtain ⟨t, B, ρ, Ds, hT, _, _, _, a1, a2, a3, _⟩ := sinc_stream_new hL ht h hx hF (u := .rising 0) (Or.inr rfl) (fun op h => (hO op h).1) (fun _ => by rw [List.append_nil]; exact hS) hr
  refine ⟨t, hT, ?_⟩
  conv_lhs => rw [a2]
  refine List.map_congr_left (fun j hj => ?_)
  have hj := List.mem_range.1 hj
  have hA : ∀ op ∈ ops, AtRatio r op := fun op h => (hO op h).2
  rw [(a1 j hj).2.2 rfl, a3 r hA j hj]
  unfold timeAt
  rw [posAt_congr (ρ := ρ) (ρ' := fun _ => r) (fun i hi => a3 r hA i (by omega))]

/-- C22: on two new handles of a sinc converter the same stream `x`, fed in two ways at the same ratio `r`, gives the same output
frames, bit for bit, as far as both go.  The two histories may cut the input and the output space into calls in any way.  `end_of_input` may
be set where the stream ends (after `len` frames). -/
theorem C22 (cfg : Config) (hL : LibraryTables cfg) (type : ℤ) (ht : SincType type) (ch : ℕ) (e e' : ℤ) (st st' st1 st1' : SrcState)
    (h : srcNew cfg type ch = .ok (e, some st)) (h' : srcNew cfg type ch = .ok (e', some st'))
    (x : ℕ → ℕ → F32) (len : Option ℕ) (hx : EndsAt x len) (r : ℚ) (hr0 : 0 ≤ r)
    (ops ops' : List Op) (os os' : List Obs) (V V' : ℕ)
    (hO : ∀ op ∈ ops, SizedOp ch op ∧ AtRatio r op) (hO' : ∀ op ∈ ops', SizedOp ch op ∧ AtRatio r op)
    (hr : run ops st = .ok (os, st1)) (hr' : run ops' st' = .ok (os', st1'))
    (hF : FedTo x ch len 0 ops os V) (hF' : FedTo x ch len 0 ops' os' V') :
    outputs ch os <+: outputs ch os' ∨ outputs ch os' <+: outputs ch os := by
  obtain ⟨t, hT, e1⟩ := sinc_const hL ht h hx hF hr0 hO hr
  obtain ⟨t', hT', e2⟩ := sinc_const hL ht h' hx hF' hr0 hO' hr'
  rw [hT] at hT'
  cases hT'
  rw [e1, e2]
  rcases Nat.le_total (outputs ch os).length (outputs ch os').length with h | h
  · exact Or.inl (range_map_prefix _ h)
  · exact Or.inr (range_map_prefix _ h)

/-- C24 for the sinc converters: a caller that always continues after the frames reported as used gets
the output of the uncut stream.  Output frame `j` is the filter response `sincIdeal` for the whole stream `x` at the time `timeAt ρ j`
given by the ratios `ρ`, although each call saw only the frames from the first unconsumed one on; and it involves no frame that has not been
consumed (only zeros beyond the end of the stream).  At least the history that the filter reaches at ratio 1 is used, and the full history of the
stream for every frame with a ratio of at least 1, and for all frames if ratios never decrease (after a decrease below 1 the code cuts the left half of the filter short).  The ratios `ρ` are the
ones of the schedule `ratiosFrom`: within each call the ratio moves linearly from the one reached before to the one requested; so it never leaves the range of the ratios
passed. -/
theorem C24_sinc (cfg : Config) (hL : LibraryTables cfg) (type : ℤ) (ht : SincType type) (ch : ℕ) (e : ℤ) (st st1 : SrcState)
    (h : srcNew cfg type ch = .ok (e, some st)) (x : ℕ → ℕ → F32) (len : Option ℕ) (hx : EndsAt x len) (ops : List Op) (os : List Obs) (V : ℕ)
    (hS : ∀ op ∈ ops, SizedOp ch op) (hr : run ops st = .ok (os, st1)) (hF : FedTo x ch len 0 ops os V) :
    ∃ (t : CoeffTable) (ρ : ℕ → ℚ) (D : ℕ → ℤ), cfg.table type = some t ∧
      (∀ j < (outputs ch os).length, 1 / 256 ≤ ρ j ∧ ρ j ≤ 256 ∧ sincReach (t.count - 2) t.increment 1 ≤ D j ∧ (1 ≤ ρ j ∨ SincUse 0 ch (.rising 0) ops → D j = allHistory t)) ∧
      (∀ a b, (∀ op ∈ ops, RatioIn a b op) → ∀ j < (outputs ch os).length, a ≤ ρ j ∧ ρ j ≤ b) ∧
      ratiosFrom sincRatioAt ch 0 ops os = (List.range (outputs ch os).length).map ρ ∧
      outputs ch os = (List.range (outputs ch os).length).map (fun j => frameOf ch (sincIdeal t x (D j) (ρ j) (timeAt ρ j))) ∧
      ∀ j < (outputs ch os).length, timeAt ρ j < V ∧ ((∃ n ≤ V, len = some n) ∨ ∀ x' : ℕ → ℕ → F32, (∀ k < V, x k = x' k) →
        sincIdeal t x (D j) (ρ j) (timeAt ρ j) = sincIdeal t x' (D j) (ρ j) (timeAt ρ j)) := by
  classical
  obtain ⟨t, B, ρ, Ds, hT, hG, _, _, a1, a2, _, aI, aR, _, a3, _⟩ := sinc_stream_new hL ht h hx hF (lo := 0)
    (u := if SincUse 0 ch (.rising 0) ops then .rising 0 else .freely) (tl := []) (by split_ifs <;> simp) hS
    (by rw [List.append_nil]; split_ifs with hU <;> simp [hU]) hr
  have hall : 4096 * (t.count - 2) ≤ allHistory t := by unfold allHistory; omega
  have hD : ∀ j < (outputs ch os).length, ∀ x : ℕ → ℕ → F32,
      sincIdeal t x (if 1 ≤ ρ j then allHistory t else Ds j) (ρ j) (timeAt ρ j) = sincIdeal t x (Ds j) (ρ j) (timeAt ρ j) := by
    intro j hj x
    split_ifs with h1
    · rw [← sincIdeal_eq, ← sincIdeal_eq]
      refine (sincFrame_hist hG (r := 1) (by norm_num) ?_ (a1 j hj).1.1 (posAt_frac0 ρ j) (a1 j hj).2.1 hall).symm
      rw [mul_one]
      have : 0 < p2 (-36) := by norm_num [p2]
      linarith
    · rfl
  refine ⟨t, ρ, fun j => if 1 ≤ ρ j then allHistory t else Ds j, hT, fun j hj => ?_, aI, aR, ?_, fun j hj => ?_⟩
  · obtain ⟨b1, b2, b3⟩ := a1 j hj
    refine ⟨b1.1, b1.2, ?_, ?_⟩
    · dsimp only
      split_ifs
      · have h1 := hG.reach_one_le
        unfold allHistory
        rwa [sub_add_cancel] at h1
      · exact b2
    · rintro (h1 | hU)
      · exact if_pos h1
      · dsimp only
        rw [b3 (if_pos hU), ite_self]
  · rw [List.map_congr_left (fun j hj => by rw [hD j (List.mem_range.1 hj)])]
    exact a2
  · obtain ⟨b1, b2⟩ := a3 j hj
    refine ⟨?_, ?_⟩
    · have a := (time_k ρ j).2
      have : (((posAt ⟨0, 0⟩ ρ j).k : ℕ) : ℚ) + 1 ≤ V := by exact_mod_cast b1
      linarith
    · simp only [hD j hj]
      exact b2

/-- C44 for the sinc converters: output frame `j` is the filter response at an input time `τ j`, and
these times increase, by between `1/257` and `257` input frames from frame to frame; if all ratios passed are in `[a, b]`, by between `1/b` and
`1/a`, up to rounding. -/
theorem C44_sinc (cfg : Config) (hL : LibraryTables cfg) (type : ℤ) (ht : SincType type) (ch : ℕ) (e : ℤ) (st st1 : SrcState)
    (h : srcNew cfg type ch = .ok (e, some st)) (x : ℕ → ℕ → F32) (len : Option ℕ) (hx : EndsAt x len) (ops : List Op) (os : List Obs) (V : ℕ)
    (hS : ∀ op ∈ ops, SizedOp ch op) (hr : run ops st = .ok (os, st1)) (hF : FedTo x ch len 0 ops os V) :
    ∃ (t : CoeffTable) (τ : ℕ → ℚ), cfg.table type = some t ∧ τ 0 = 0 ∧
      (∀ j < (outputs ch os).length, τ j + 1 / 257 ≤ τ (j + 1) ∧ τ (j + 1) ≤ τ j + 257) ∧
      (∀ a b, 0 < a → (∀ op ∈ ops, RatioIn a b op) → ∀ j < (outputs ch os).length, 1 / b - p2 (-44) ≤ τ (j + 1) - τ j ∧ τ (j + 1) - τ j ≤ 1 / a + p2 (-44)) ∧
      ∀ j f, (outputs ch os)[j]? = some f → ∃ ρ D, 1 / 256 ≤ ρ ∧ ρ ≤ 256 ∧ sincReach (t.count - 2) t.increment 1 ≤ D ∧ f = frameOf ch (sincIdeal t x D ρ (τ j)) := by
  obtain ⟨t, B, ρ, Ds, hT, _, _, _, a1, a2, _, aI, aR, _, a3, _⟩ := sinc_stream_new hL ht h hx hF (lo := 0) (u := .freely) (tl := [])
    (Or.inl rfl) hS (fun h => absurd rfl h) hr
  refine ⟨t, timeAt ρ, hT, by simp [timeAt, posAt], fun j hj => time_gap (a1 j hj).1,
    fun a b ha hA j hj => time_between (a1 j hj).1 ha (aI a b hA j hj), fun j f hf => ?_⟩
  obtain ⟨hj, rfl⟩ := getElem?_of_map a2 hf
  exact ⟨ρ j, Ds j, (a1 j hj).1.1, (a1 j hj).1.2, (a1 j hj).2.1, rfl⟩

/-- One more call of a stream at a constant ratio. -/
theorem sinc_last {cfg : Config} (hL : LibraryTables cfg) {type e : ℤ} {ch : ℕ} {st st1 st2 : SrcState} (ht : SincType type)
    (h : srcNew cfg type ch = .ok (e, some st)) {x : ℕ → ℕ → F32} {len : Option ℕ} (hx : EndsAt x len) {ops : List Op} {os : List Obs} {U : ℕ} {r : ℚ}
    (hr0 : 0 ≤ r)
    (hO : ∀ op ∈ ops, SizedOp ch op ∧ AtRatio r op) (hr : run ops st = .ok (os, st1)) (hF : FedTo x ch len 0 ops os U)
    {m : Mem} {d d' : SrcData} {o : Obs} (hd : SincSized ch d) (hA : AtRatio r (.process m (some d))) (hP : Presents x ch U m d)
    (hE : d.endOfInput ≠ 0 → len = some (U + d.inputFrames.toNat))
    (hrun : (Op.process m (some d)).run st1 = .ok (o, st2)) (hret : o.ret = 0) (hdata : o.data = some d') :
    ∃ (t : CoeffTable) (B : ℤ) (u g : ℕ), cfg.table type = some t ∧ Geom (t.count - 2) t.increment B ∧ 1 ≤ ch ∧
      B = 3 * sincReach (t.count - 2) t.increment (1 / 256) ∧ ValidRatio r ∧
      d'.inputFramesUsed = u ∧ d'.outputFramesGen = g ∧ u ≤ d.inputFrames.toNat ∧
      (∀ j < (outputs ch os).length + g, (posAt ⟨0, 0⟩ (fun _ => r) j).k < U + u ∧
        (((posAt ⟨0, 0⟩ (fun _ => r) j).k : ℤ) + sincReach (t.count - 2) t.increment r + 1 ≤ ((U + u : ℕ) : ℤ) ∨ ∃ n, len = some n)) ∧
      (g < d.outputFrames.toNat → Stopped B ch d len True r d.inputFrames.toNat U u (sincReach (t.count - 2) t.increment r)
        (posAt ⟨0, 0⟩ (fun _ => r) ((outputs ch os).length + g))) := by
  have hS : SincUse r ch (.rising 0) (ops ++ [.process m (some d)]) := by
    refine use_const (x := x) (len := len) (os := os ++ [o]) (U := 0) (V := U + d'.inputFramesUsed.toNat) ?_ (le_refl r) ?_ 0 hr0
    · clear hr hO
      generalize (0 : ℕ) = U0 at hF
      induction hF with
      | nil U => exact .call _ _ _ _ d' _ _ _ hP hE hret hdata (.nil _)
      | call U V m d d' o ops os a1 a2 a3 a4 _ ih => exact .call _ _ _ _ _ _ _ _ a1 a2 a3 a4 (ih hP hE)
      | setRatio U V q o ops os _ ih => exact .setRatio _ _ _ _ _ _ (ih hP hE)
    · intro op hop
      rcases List.mem_append.1 hop with h | h
      · exact hO op h
      · rw [List.mem_singleton.1 h]; exact ⟨hd, hA⟩
  obtain ⟨t, B, ρ, Ds, hT, G, hch1, hB, a1, a2, a3, aI, aR, a4, a5, a6, Q', l', h', u', T, SR, SU, hu', hQ, hh1⟩ :=
    sinc_stream_new hL ht h hx hF (u := .rising 0) (Or.inr rfl) (fun op h => (hO op h).1) (fun _ => hS) hr
  have hAll : ∀ op ∈ ops, AtRatio r op := fun op a => (hO op a).2
  obtain ⟨f, D, W, -, hQl, -⟩ := T.view
  obtain ⟨d1, Ds1, g, u, t', e1, e2, e3, e4, e5, e6, e7, e8, e9, e10, e11, e12, e13, eE, eS, T1⟩ :=
    (Or.resolve_left (strack_call T hx hd (fun _ => hP) (fun _ => hE) hrun)
      (fun h => h.1 hret)).2
  rw [hdata] at e1
  cases e1
  have htr : t' = r := by
    simp only [AtRatio] at hA
    rw [hA] at e6
    exact (Option.some.inj e6).symm
  subst htr
  have hst : startRatio l' t' = t' := by
    have hAb : ∀ op ∈ ops, RatioIn t' t' op := fun op a => atRatio_in (hAll op a)
    rcases hQl t' t' (hQ t' t' hAb) with h | h
    · simp [startRatio, h]
    · have : l' = t' := le_antisymm h.2 h.1
      simp [startRatio, this]
  have hcr : sincRatioAt t' t' ch d.outputFrames.toNat = fun _ => t' := by
    funext j
    unfold sincRatioAt
    rw [if_pos]
    rw [sub_self, rq_zero, abs_zero]
    exact rq_nonneg (by norm_num)
  rw [hst, hcr, min_self] at e12 e13
  set n := (outputs ch os).length with hn'
  have h3 := a3 t' hAll
  have hpos : ∀ j, posAt (posAt ⟨0, 0⟩ ρ n) (fun _ => t') j = posAt ⟨0, 0⟩ (fun _ => t') (n + j) := by
    intro j
    rw [posAt_append, posAt_congr (P := ⟨0, 0⟩) (ρ := ρ) (ρ' := fun _ => t') h3]
  simp only [hpos] at e12 e13
  refine ⟨t, B, u, g, hT, G, hch1, hB, e7, e2, e4, e3, ?_, ?_⟩
  · intro j hj
    by_cases h1 : j < n
    · have b := (a5 j h1).1
      have c := a6 t' t' (lt_of_lt_of_le (by norm_num) e7.1) (fun op a => atRatio_in (hAll op a)) j h1
      rw [posAt_congr (ρ := ρ) (ρ' := fun _ => t') (fun i hi => h3 i (by omega))] at b c
      refine ⟨by omega, ?_⟩
      rcases c with c | ⟨n', _, c, _⟩
      · left; push_cast; omega
      · exact Or.inr ⟨n', c⟩
    · obtain ⟨i, rfl⟩ : ∃ i, j = n + i := ⟨j - n, by omega⟩
      have h6 := G.reach_ge (r := t') e7.1
      rcases e12 i (by omega) with h2 | ⟨h2, h3⟩
      · exact ⟨by omega, Or.inl h2⟩
      · refine ⟨?_, Or.inr ⟨_, h2⟩⟩
        have e3' : 0 < 1 / t' - 1 / 1000000 := by
          have : 1 / 256 ≤ 1 / t' := one_div_le_one_div_of_le (lt_of_lt_of_le (by norm_num) e7.1) e7.2
          linarith
        have hi := (posAt_frac0 (fun _ => t') (n + i)).1
        generalize posAt ⟨0, 0⟩ (fun _ => t') (n + i) = p at *
        have hp : (0 : ℚ) < ((ch * (((U + u : ℕ) : ℤ) - p.k) : ℤ) : ℚ) := by linarith
        have hp' : 0 < (ch : ℤ) * (((U + u : ℕ) : ℤ) - p.k) := by exact_mod_cast hp
        have := pos_of_mul_pos_right hp' (by positivity)
        omega
  · intro hg
    have := e13 hg
    have hcl : ∃ a b, Q' a b ∧ SameReach (t.count - 2) t.increment a b ∧ a ≤ t' ∧ t' ≤ b :=
      ⟨t', t', hQ t' t' (fun op a => atRatio_in (hAll op a)), ⟨lt_of_lt_of_le (by norm_num) e7.1, rfl⟩, le_refl _, le_refl _⟩
    unfold Stopped at this ⊢
    refine this.imp (fun h => ⟨h.1, h.2.imp_right fun h => ⟨fun _ => h.1 hcl, h.2⟩⟩) (fun h => ⟨h.1, fun _ => h.2 hcl⟩)

/-- C48: at a constant ratio `r ≥ 1/180` a sinc converter that has been told the end of the stream and had room for more output has
taken in the whole stream and generated `N * r` frames, to within one frame and accumulated rounding, where `N` is the number of input
frames. -/
theorem C48 (cfg : Config) (hL : LibraryTables cfg) (type : ℤ) (ht : SincType type) (ch : ℕ) (e : ℤ) (st st1 st2 : SrcState)
    (h : srcNew cfg type ch = .ok (e, some st)) (x : ℕ → ℕ → F32) (N : ℕ) (hx : EndsAt x (some N)) (r : ℚ) (hr180 : 1 / 180 ≤ r)
    (ops : List Op) (os : List Obs) (U : ℕ)
    (hO : ∀ op ∈ ops, SizedOp ch op ∧ AtRatio r op) (hr : run ops st = .ok (os, st1)) (hF : FedTo x ch (some N) 0 ops os U)
    (m : Mem) (d d' : SrcData) (o : Obs) (hd : SincSized ch d) (hA : AtRatio r (.process m (some d))) (hP : Presents x ch U m d)
    (hend : d.endOfInput ≠ 0) (hN : N = U + d.inputFrames.toNat) (hin : d.dataIn ≠ 0)
    (hrun : (Op.process m (some d)).run st1 = .ok (o, st2)) (hret : o.ret = 0) (hdata : o.data = some d')
    (hroom : d'.outputFramesGen < d.outputFrames) (G : ℚ) (hG : G = (outputs ch os).length + d'.outputFramesGen) :
    U + d'.inputFramesUsed = N ∧ |G - N * r| ≤ 1 + (G / 2 ^ 44 + 1 / 10 ^ 6) * r := by
  obtain ⟨t, B, u, g, hT, Ge, hch1, hB, vr, e1, e2, e3, e4, e5⟩ := sinc_last hL ht h hx (by linarith) hO hr hF hd hA hP (fun _ => by rw [hN]) hrun hret hdata
  have hfl := Ge.reach_floor hB hr180
  have hch : (1 : ℤ) ≤ ch := by exact_mod_cast hch1
  have hs := e5 (by omega)
  set H := sincReach (t.count - 2) t.increment r
  have h6 := Ge.reach_ge (r := r) vr.1
  rcases hs with ⟨_, hs⟩ | ⟨hs1, hs2⟩
  · exfalso
    rcases hs with hs | ⟨hs1, hs2⟩
    · exact hin hs
    · exact hs2 hend (hs1 trivial (Or.inr (by omega)))
  have hNu : N = U + u := by simpa using hs1
  refine ⟨by rw [e1, hNu]; push_cast; ring, ?_⟩
  have hs2 := hs2 trivial (by
    have : (ch : ℤ) * (4 * H + 4) ≤ ch * B := mul_le_mul_of_nonneg_left hfl (by omega)
    nlinarith)
  rw [← hNu] at hs2 e4
  set n := (outputs ch os).length
  have hGq : G = ((n + g : ℕ) : ℚ) := by rw [hG, e2]; push_cast; ring
  have hrp : 0 < r := by linarith
  have hb : p2 (-44) = 1 / 2 ^ 44 := by norm_num [p2]
  have tg := abs_le.1 (time_const vr (n + g))
  have hG0 : 0 ≤ G := by rw [hGq]; positivity
  have htk : timeAt (fun _ => r) (n + g) = (posAt ⟨0, 0⟩ (fun _ => r) (n + g)).k + (posAt ⟨0, 0⟩ (fun _ => r) (n + g)).i := rfl
  have hfr := posAt_frac0 (fun _ => r) (n + g)
  generalize hpd : posAt ⟨0, 0⟩ (fun _ => r) (n + g) = p at *
  have hd1 : 0 < 1 / r := by positivity
  have hlow : (N : ℚ) - p.k ≤ p.i + 1 / r + 1 / 1000000 := by
    rcases le_or_gt (N : ℤ) p.k with h | h
    · have : (N : ℚ) ≤ p.k := by exact_mod_cast h
      linarith [hfr.1]
    · have h1 : ((N : ℤ) - p.k) ≤ ch * ((N : ℤ) - p.k) := by nlinarith
      have h2 : (((N : ℤ) - p.k : ℤ) : ℚ) ≤ ((ch * ((N : ℤ) - p.k) : ℤ) : ℚ) := by exact_mod_cast h1
      push_cast at h2 hs2 ⊢
      linarith
  rw [abs_le]
  constructor
  · have : N * r ≤ (G / r + G * (1 / 2 ^ 44) + 1 / r + 1 / 1000000) * r := by
      apply mul_le_mul_of_nonneg_right _ hrp.le
      rw [hGq, ← hb]; linarith
    rw [show (G / r + G * (1 / 2 ^ 44) + 1 / r + 1 / 1000000) * r = G / r * r + 1 / r * r + (G / 2 ^ 44 + 1 / 10 ^ 6) * r by ring,
      div_mul_cancel₀ _ hrp.ne', div_mul_cancel₀ _ hrp.ne'] at this
    linarith
  · rcases Nat.eq_zero_or_pos (n + g) with h0 | h0
    · rw [hGq, h0]
      have : 0 ≤ (N : ℚ) * r := by positivity
      simp only [Nat.cast_zero, zero_div]
      nlinarith
    · obtain ⟨j, hj⟩ : ∃ j, n + g = j + 1 := ⟨n + g - 1, by omega⟩
      have hu := (e4 j (by omega)).1
      have tj := abs_le.1 (time_const vr j)
      have tkj := time_k (fun _ => r) j
      have hjG : (j : ℚ) = G - 1 := by rw [hGq, hj]; push_cast; ring
      rw [hjG, hb] at tj
      have hu' : ((posAt ⟨0, 0⟩ (fun _ => r) j).k : ℚ) + 1 ≤ N := by exact_mod_cast hu
      have : ((G - 1) / r) * r ≤ (N + (G - 1) * (1 / 2 ^ 44)) * r := by
        apply mul_le_mul_of_nonneg_right _ hrp.le
        linarith
      rw [div_mul_cancel₀ _ hrp.ne'] at this
      nlinarith

/-- C49: at a constant ratio `r ≥ 1/180`, before the end of the stream is signalled, a call of a sinc converter that had room for more
output has used all its input, and the output lags behind the input by the reach `H` of the filter: of `N` input frames, `(N - H) * r`
output frames have been generated, to within one frame and accumulated rounding. -/
theorem C49 (cfg : Config) (hL : LibraryTables cfg) (type : ℤ) (ht : SincType type) (ch : ℕ) (e : ℤ) (st st1 st2 : SrcState)
    (h : srcNew cfg type ch = .ok (e, some st)) (x : ℕ → ℕ → F32) (r : ℚ) (hr180 : 1 / 180 ≤ r)
    (ops : List Op) (os : List Obs) (U : ℕ)
    (hO : ∀ op ∈ ops, SizedOp ch op ∧ AtRatio r op) (hr : run ops st = .ok (os, st1)) (hF : FedTo x ch none 0 ops os U)
    (m : Mem) (d d' : SrcData) (o : Obs) (hd : SincSized ch d) (hA : AtRatio r (.process m (some d))) (hP : Presents x ch U m d)
    (hend : d.endOfInput = 0) (hin : d.dataIn ≠ 0)
    (hrun : (Op.process m (some d)).run st1 = .ok (o, st2)) (hret : o.ret = 0) (hdata : o.data = some d')
    (hroom : d'.outputFramesGen < d.outputFrames) (G N : ℚ) (hG : G = (outputs ch os).length + d'.outputFramesGen)
    (hN : N = U + d.inputFrames.toNat) :
    d'.inputFramesUsed = max d.inputFrames 0 ∧ ∃ t, cfg.table type = some t ∧
      |G - max 0 (N - sincReach (t.count - 2) t.increment r) * r| ≤ 1 + G / 2 ^ 44 * r := by
  obtain ⟨t, B, u, g, hT, Ge, hch1, hB, vr, e1, e2, e3, e4, e5⟩ := sinc_last hL ht h (len := none) (by rintro _ ⟨⟩) (by linarith)
    hO hr hF hd hA hP (fun h => absurd hend h) hrun hret hdata
  have hfl := Ge.reach_floor hB hr180
  have hs := e5 (by omega)
  set H := sincReach (t.count - 2) t.increment r with hH
  have h6 := Ge.reach_ge (r := r) vr.1
  rcases hs with ⟨hs0, hs⟩ | ⟨hs1, hs2⟩
  swap
  · cases hs1
  have hu : u = d.inputFrames.toNat := by
    rcases hs with hs | ⟨hs1, hs2⟩
    · exact absurd hs hin
    · exact hs1 trivial (Or.inr (by omega))
  refine ⟨by rw [e1, hu]; omega, t, hT, ?_⟩
  rw [← hH]
  have hNq : N = ((U + u : ℕ) : ℚ) := by rw [hN, hu]; push_cast; ring
  set n := (outputs ch os).length
  have hGq : G = ((n + g : ℕ) : ℚ) := by rw [hG, e2]; push_cast; ring
  have hrp : 0 < r := by linarith
  have hb : p2 (-44) = 1 / 2 ^ 44 := by norm_num [p2]
  have tg := abs_le.1 (time_const vr (n + g))
  have hG0 : 0 ≤ G := by rw [hGq]; positivity
  have htk : timeAt (fun _ => r) (n + g) = (posAt ⟨0, 0⟩ (fun _ => r) (n + g)).k + (posAt ⟨0, 0⟩ (fun _ => r) (n + g)).i := rfl
  have hfr := posAt_frac0 (fun _ => r) (n + g)
  have hs0q : N - (posAt ⟨0, 0⟩ (fun _ => r) (n + g)).k ≤ H := by rw [hNq]; exact_mod_cast hs0
  rw [abs_le]
  constructor
  · have : max 0 (N - H) * r ≤ (G / r + G * (1 / 2 ^ 44)) * r := by
      apply mul_le_mul_of_nonneg_right _ hrp.le
      apply max_le
      · positivity
      · rw [hGq, ← hb]; linarith
    rw [show (G / r + G * (1 / 2 ^ 44)) * r = G / r * r + G / 2 ^ 44 * r by ring, div_mul_cancel₀ _ hrp.ne'] at this
    linarith
  · rcases Nat.eq_zero_or_pos (n + g) with h0 | h0
    · have hz : G = 0 := by rw [hGq, h0]; simp
      have : 0 ≤ max 0 (N - H) * r := mul_nonneg (le_max_left _ _) hrp.le
      rw [hz]
      simp only [zero_div, zero_mul]
      linarith
    · obtain ⟨j, hj⟩ : ∃ j, n + g = j + 1 := ⟨n + g - 1, by omega⟩
      have hu := (e4 j (by omega)).2
      rcases hu with hu | ⟨_, hu⟩
      swap
      · cases hu
      have tj := abs_le.1 (time_const vr j)
      have tkj := time_k (fun _ => r) j
      have hjG : (j : ℚ) = G - 1 := by rw [hGq, hj]; push_cast; ring
      rw [hjG, hb] at tj
      have hu' : ((posAt ⟨0, 0⟩ (fun _ => r) j).k : ℚ) + H + 1 ≤ N := by rw [hNq]; exact_mod_cast hu
      have hm := le_max_right 0 (N - (H : ℚ))
      have : ((G - 1) / r) * r ≤ (max 0 (N - H) + (G - 1) * (1 / 2 ^ 44)) * r := by
        apply mul_le_mul_of_nonneg_right _ hrp.le
        linarith
      rw [div_mul_cancel₀ _ hrp.ne'] at this
      nlinarith

/-- C46: once a sinc converter has used the last frame of the stream in a call with `end_of_input` set that had room for more output, no
later call uses any input, whatever is offered, and all later calls together generate at most `257 * N + 1` frames: after finitely many
frames none follow, until `src_reset`.  This holds for every history, with any ratios before and after. -/
theorem C46 (cfg : Config) (hL : LibraryTables cfg) (type : ℤ) (ht : SincType type) (ch : ℕ) (e : ℤ) (st st1 st2 st3 : SrcState)
    (h : srcNew cfg type ch = .ok (e, some st)) (x : ℕ → ℕ → F32) (N : ℕ) (hx : EndsAt x (some N))
    (ops ops2 : List Op) (os os2 : List Obs) (U : ℕ) (m : Mem) (d d' : SrcData) (o : Obs)
    (hS : ∀ op ∈ ops, SizedOp ch op) (hd : SincSized ch d) (hS2 : ∀ op ∈ ops2, SizedOp ch op ∧ op ≠ .reset)
    (hr : run ops st = .ok (os, st1)) (hF : FedTo x ch (some N) 0 ops os U) (hP : Presents x ch U m d)
    (hend : d.endOfInput ≠ 0) (hN : N = U + d.inputFrames.toNat) (hin : d.dataIn ≠ 0)
    (hrun : (Op.process m (some d)).run st1 = .ok (o, st2)) (hret : o.ret = 0) (hdata : o.data = some d')
    (hall : d'.inputFramesUsed = max d.inputFrames 0) (hroom : d'.outputFramesGen < d.outputFrames)
    (hr2 : run ops2 st2 = .ok (os2, st3)) :
    (∀ o ∈ os2, o.ret = 0 → ∀ d, o.data = some d → d.inputFramesUsed = 0) ∧ generated os2 ≤ 257 * N + 1 := by
  obtain ⟨t, B, ρ, Ds, hT, G, hch1, hB, a1, a2, a3, aI, aR, a4, a5, a6, Q', l', h', u', T, SR, SU, hu', hQ, hh1⟩ :=
    sinc_stream_new hL ht h hx hF (lo := 0) (u := .freely) (tl := []) (Or.inl rfl) hS (fun h => absurd rfl h) hr
  obtain ⟨d1, Ds1, g, u, t', e1, e2, e3, e4, e5, e6, e7, e8, e9, e10, e11, e12, e13, eE, eS, T1⟩ :=
    (Or.resolve_left (strack_call T hx hd (fun _ => hP) (fun _ _ => by rw [hN]) hrun)
      (fun h => h.1 hret)).2
  rw [hdata] at e1
  cases e1
  have hu : u = d.inputFrames.toNat := by omega
  have E := eS (by omega) hin hend hu
  have hNu : N = U + u := by rw [hN, hu]
  rw [← hNu] at T1
  obtain ⟨b1, ρ2, b2⟩ := ended_run hx hS2 T1 E hr2
  refine ⟨b1, ?_⟩
  generalize hgen : generated os2 = K at *
  rcases Nat.eq_zero_or_pos K with h0 | h0
  · omega
  have hfr : 0 ≤ (posAt (posAt ⟨0, 0⟩ ρ (outputs ch os).length) (sincRatioAt (startRatio l' t') t' ch d.outputFrames.toNat) g).i ∧
      (posAt (posAt ⟨0, 0⟩ ρ (outputs ch os).length) (sincRatioAt (startRatio l' t') t' ch d.outputFrames.toNat) g).i < 1 :=
    posAt_frac (posAt_frac0 _ _) _
  generalize posAt (posAt ⟨0, 0⟩ ρ (outputs ch os).length) (sincRatioAt (startRatio l' t') t' ch d.outputFrames.toNat) g = P at *
  have hgap : ∀ j < K, Pos.time P + j / 257 ≤ Pos.time (posAt P ρ2 j) := by
    intro j
    induction j with
    | zero => intro _; simp [posAt]
    | succ j ih =>
      intro hj
      have h1 := ih (by omega)
      have hv := (b2 j (by omega)).1
      have hf := posAt_frac (ρ := ρ2) hfr j
      have h2 := abs_le.1 (advance_time hf.1 hf.2 hv)
      have hp : 0 < ρ2 j := lt_of_lt_of_le (by norm_num) hv.1
      have b2 : 1 / 256 ≤ 1 / ρ2 j := one_div_le_one_div_of_le hp hv.2
      have b3 : p2 (-44) ≤ 1 / 256 - 1 / 257 := by norm_num [p2]
      simp only [posAt]
      push_cast
      rw [add_div]
      linarith
  have h1 := hgap (K - 1) (by omega)
  have h2 := (b2 (K - 1) (by omega)).2
  have h3 := (posAt_frac (ρ := ρ2) hfr (K - 1)).2
  have h4 : Pos.time (posAt P ρ2 (K - 1)) < N := by
    have : ((posAt P ρ2 (K - 1)).k : ℚ) + 1 ≤ N := by exact_mod_cast h2
    unfold Pos.time; linarith
  have h5 : 0 ≤ Pos.time P := by unfold Pos.time; have := hfr.1; positivity
  have h6 : ((K - 1 : ℕ) : ℚ) < 257 * N := by
    have : ((K - 1 : ℕ) : ℚ) / 257 < N := by linarith
    rw [div_lt_iff₀ (by norm_num)] at this
    linarith
  have h7 : K - 1 < 257 * N := by exact_mod_cast h6
  omega

/-- C12 for the sinc converters: after `src_set_ratio (r)`, a `src_process` call
with `src_ratio = r` produces all its output frames at ratio `r`, with no interpolation from the previous ratio, and `r` is the remembered
ratio. -/
theorem C12_sinc (cfg : Config) (hL : LibraryTables cfg) (type : ℤ) (ht : SincType type) (ch : ℕ) (e : ℤ) (st st1 st2 st3 : SrcState)
    (h : srcNew cfg type ch = .ok (e, some st)) (x : ℕ → ℕ → F32) (len : Option ℕ) (hx : EndsAt x len) (ops : List Op) (os : List Obs) (U : ℕ)
    (hS : ∀ op ∈ ops, SizedOp ch op) (hF : FedTo x ch len 0 ops os U) (hr : run ops st = .ok (os, st1))
    (r : F64) (q : ℚ) (hq : r.val = some q) (hq1 : 1 / 256 ≤ q) (hq2 : q ≤ 256) (o1 o2 : Obs)
    (hs : (Op.setRatio r).run st1 = .ok (o1, st2)) (m : Mem) (d : SrcData) (hd : SincSized ch d) (hdr : d.srcRatio = r)
    (hP : Presents x ch U m d) (hde : d.endOfInput ≠ 0 → len = some (U + d.inputFrames.toNat)) (hp : (Op.process m (some d)).run st2 = .ok (o2, st3)) (h0 : o2.ret = 0) :
    o1.ret = 0 ∧ st3.lastRatio.val = some q ∧
    ∃ (t : CoeffTable) (ρ : ℕ → ℚ) (D : ℕ → ℤ), cfg.table type = some t ∧ (∀ j, (outputs ch os).length ≤ j → ρ j = q) ∧
      (∀ j < (outputs ch os).length + (outOf ch o2).length, sincReach (t.count - 2) t.increment 1 ≤ D j) ∧
      outputs ch os ++ outOf ch o2 = (List.range ((outputs ch os).length + (outOf ch o2).length)).map
        (fun j => frameOf ch (sincIdeal t x (D j) (ρ j) (timeAt ρ j))) := by
  obtain ⟨t, B, ρ, Ds, hT, G, hch1, hB, a1, a2, a3, aI, aR, a4, a5, a6, Q', l', h', u', T, SR, SU, hu', hQ, hh1⟩ :=
    sinc_stream_new hL ht h hx hF (lo := 0) (u := .freely) (tl := []) (Or.inl rfl) hS (fun h => absurd rfl h) hr
  have hrn : r ≠ .nan := by rintro rfl; simp [Fl.val] at hq
  have hgood : isBadSrcRatio r = false := (isBad_false_iff hq).2 ⟨hq1, hq2⟩
  obtain ⟨_, _, l1, T', hl1, _⟩ := strack_setRatio T hrn hs
  have hs' : o1.ret = 0 ∧ st2.lastRatio = r := by
    simp only [Op.run, srcSetRatio, hgood, Bool.false_eq_true, if_false] at hs
    have hs := ok_inj hs
    simp only [Prod.mk.injEq] at hs
    rw [← hs.1, ← hs.2]
    exact ⟨rfl, rfl⟩
  have hl' : l1 = q := by
    obtain ⟨f, D, V, _⟩ := T'.view
    have := V.hl
    rw [hs'.2, hq] at this
    exact (Option.some.inj this).symm
  subst hl'
  obtain ⟨d1, Ds1, g, u, t', e1, e2, e3, e4, e5, e6, e7, e8, e9, e10, e11, e12, e13, eE, eS, T1⟩ :=
    (Or.resolve_left (strack_call T' hx hd (fun _ => hP) (fun _ => hde) hp)
      (fun h => h.1 h0)).2
  have htq : t' = l1 := by
    rw [hdr, hq] at e6
    exact (Option.some.inj e6).symm
  subst htq
  have hst : startRatio t' t' = t' := by simp [startRatio]
  have hcr : sincRatioAt t' t' ch d.outputFrames.toNat = fun _ => t' := by
    funext j
    unfold sincRatioAt
    rw [if_pos]
    rw [sub_self, rq_zero, abs_zero]
    exact rq_nonneg (by norm_num)
  rw [hst, hcr] at e11 T1
  refine ⟨hs'.1, ?_, t, joinAt (outputs ch os).length ρ (fun _ => t'), fun j => if j < (outputs ch os).length then Ds j else Ds1 (j - (outputs ch os).length), hT, ?_, ?_, ?_⟩
  · obtain ⟨f, D, V, _⟩ := T1.view
    rw [V.hl]
    simp
  · intro j hj
    simp [joinAt, not_lt.2 hj]
  · have hlen : (outOf ch o2).length = g := by rw [e11]; simp
    intro j hj
    dsimp only
    split_ifs with h1
    · exact (a1 j h1).2.1
    · refine le_trans (le_min hh1 ?_) (e10 (j - (outputs ch os).length) (by omega)).2
      exact G.reach_one (lt_min (lt_of_lt_of_le (by norm_num) e8.1) (lt_of_lt_of_le (by norm_num) e7.1))
  · have hlen : (outOf ch o2).length = g := by rw [e11]; simp
    rw [hlen, List.range_add, List.map_append, e11]
    congr 1
    · conv_lhs => rw [a2]
      refine List.map_congr_left (fun j hj => ?_)
      have hj := List.mem_range.1 hj
      simp only [joinAt, if_pos hj]
      unfold timeAt
      rw [posAt_congr (ρ := joinAt (outputs ch os).length ρ (fun _ => t')) (ρ' := ρ)
        (fun i hi => by simp [joinAt, show i < (outputs ch os).length by omega])]
    · rw [List.map_map]
      refine List.map_congr_left (fun j hj => ?_)
      simp only [Function.comp_apply]
      rw [← sincIdeal_eq, posAt_join]
      simp [joinAt]

/-- C47, filter evaluation: for every channel count up to 128, a filter of `coeff_half_len ≤ 366000` table positions, a step `incr` between 1
and the filter length, a start position in `[0, incr]` and a buffer that holds `D` frames of history and the frames the filter reaches ahead, the
`calc_output` functions make no `int` overflow, no access outside the table or the buffer and fail no assertion, and the sums they return are
the sums of the specification over the taps `sincLeft` and `sincRight`. -/
theorem C47_taps (f : SincFilter) (ch : ℕ) (hch : 1 ≤ ch) (hchM : ch ≤ 128) (incr start D : ℤ) (h1 : 1 ≤ incr)
    (h2 : incr ≤ 4096 * f.coeffHalfLen) (h3 : incr ≤ 300000000) (h4 : 0 ≤ start) (h5 : start ≤ incr) (h6 : f.coeffHalfLen ≤ 366000)
    (h7 : f.bLen ≤ 1000000000) (h8 : f.bEnd ≤ f.bLen) (h9 : 0 ≤ D) (h10 : f.bCurrent = ch * D)
    (h11 : ch * (D + (4096 * f.coeffHalfLen - (incr - start)) / incr + 2) ≤ f.bEnd) :
    ∃ sum, calcOutput (sincVariantOf ch) f ch incr start = .ok sum ∧ ∀ c < ch, sum c = Fl.add
      (sincLeft f.coeffs f.coeffHalfLen incr start D (fun k => Fl.conv f64 (f.buffer (ch * (D + k) + (c : ℤ)))))
      (sincRight f.coeffs f.coeffHalfLen incr start (fun k => Fl.conv f64 (f.buffer (ch * (D + k) + (c : ℤ))))) :=
  calcOutput_ok ⟨sincVariant_fits hchM, hch, by omega, h1, h2, h3, h4, h5, by omega, h7, h8, h9, h10, h11⟩

/-- C47, the grid on the left: the filter positions in the sum `sincLeft` are exactly the positions `start + k * incr`, `0 ≤ k ≤ D`, up to
the filter half length (`4096` per table entry), and position `0` when `start = incr`. -/
theorem C47_left_grid (halfLen incr start D p : ℤ) (h1 : 1 ≤ incr) (h4 : 0 ≤ start) (h5 : start ≤ incr) (h6 : start ≤ 4096 * halfLen) (hD : 0 ≤ D) :
    (∃ j : ℕ, j < ((start + min ((4096 * halfLen - start) / incr) D * incr) / incr + 1).toNat ∧
        p = start + min ((4096 * halfLen - start) / incr) D * incr - j * incr) ↔
      (∃ k : ℤ, 0 ≤ k ∧ k ≤ D ∧ p = start + k * incr ∧ p ≤ 4096 * halfLen) ∨ (start = incr ∧ p = 0) := by
  have ha0 : 0 ≤ min ((4096 * halfLen - start) / incr) D := le_min (Int.ediv_nonneg (by omega) (by omega)) hD
  have hiff : ∀ k : ℤ, k ≤ min ((4096 * halfLen - start) / incr) D ↔ (start + k * incr ≤ 4096 * halfLen ∧ k ≤ D) := by
    intro k
    rw [le_min_iff, Int.le_ediv_iff_mul_le (by omega)]
    constructor <;> rintro ⟨a, b⟩ <;> exact ⟨by linarith, b⟩
  generalize min ((4096 * halfLen - start) / incr) D = a at *
  have hq : (start + a * incr) / incr = a + start / incr := by
    rw [Int.add_mul_ediv_right _ _ (by omega)]; ring
  rw [hq]
  have hs : start / incr = 0 ∧ start < incr ∨ start / incr = 1 ∧ start = incr := by
    rcases eq_or_lt_of_le h5 with h | h
    · right; rw [h]; exact ⟨Int.ediv_self (by omega), rfl⟩
    · left; exact ⟨Int.ediv_eq_zero_of_lt h4 h, h⟩
  constructor
  · rintro ⟨j, hj, rfl⟩
    rcases le_or_gt (j : ℤ) a with hja | hja
    · left
      have hh := (hiff (a - j)).1 (by omega)
      exact ⟨a - j, by omega, hh.2, by ring, by linarith [hh.1]⟩
    · right
      rcases hs with ⟨h, _⟩ | ⟨h, h'⟩
      · omega
      · have : (j : ℤ) = a + 1 := by omega
        refine ⟨h', ?_⟩
        rw [this, h']; ring
  · rintro (⟨k, hk0, hkD, rfl, hk⟩ | ⟨h, rfl⟩)
    · have hka : k ≤ a := (hiff k).2 ⟨hk, hkD⟩
      refine ⟨(a - k).toNat, by omega, ?_⟩
      rw [Int.toNat_of_nonneg (by omega)]; ring
    · refine ⟨(a + 1).toNat, by omega, ?_⟩
      rw [Int.toNat_of_nonneg (by omega), h]; ring

/-- C47, the grid on the right: the filter positions in the sum `sincRight` are exactly the positions `k * incr - start`, `k ≥ 1`, up to
the filter half length, except position `0` when `start = incr` (which belongs to the left sum) unless it is the only one. -/
theorem C47_right_grid (halfLen incr start p : ℤ) (h1 : 1 ≤ incr) (h4 : 0 ≤ start) (h5 : start ≤ incr) (h2 : 2 * incr ≤ 4096 * halfLen) :
    (∃ j : ℕ, j < (max 1 ((incr - start + (4096 * halfLen - (incr - start)) / incr * incr + incr - 1) / incr)).toNat ∧
        p = incr - start + (4096 * halfLen - (incr - start)) / incr * incr - j * incr) ↔
      ∃ k : ℤ, 1 ≤ k ∧ p = k * incr - start ∧ p ≤ 4096 * halfLen ∧ 0 < p := by
  have hiff : ∀ k : ℤ, k ≤ (4096 * halfLen - (incr - start)) / incr ↔ (incr - start + k * incr ≤ 4096 * halfLen) := by
    intro k
    rw [Int.le_ediv_iff_mul_le (by omega)]
    constructor <;> intro a <;> linarith
  have ha1 : 1 ≤ (4096 * halfLen - (incr - start)) / incr := (hiff 1).2 (by linarith)
  generalize (4096 * halfLen - (incr - start)) / incr = a at *
  have hq : (incr - start + a * incr + incr - 1) / incr = a + (2 * incr - start - 1) / incr := by
    rw [show incr - start + a * incr + incr - 1 = 2 * incr - start - 1 + a * incr by ring, Int.add_mul_ediv_right _ _ (by omega)]; ring
  rw [hq]
  have hs : (2 * incr - start - 1) / incr = 1 ∧ start < incr ∨ (2 * incr - start - 1) / incr = 0 ∧ start = incr := by
    rcases eq_or_lt_of_le h5 with h | h
    · right; exact ⟨Int.ediv_eq_zero_of_lt (by omega) (by omega), h⟩
    · left; refine ⟨?_, h⟩
      rw [show 2 * incr - start - 1 = (incr - start - 1) + 1 * incr by ring, Int.add_mul_ediv_right _ _ (by omega), Int.ediv_eq_zero_of_lt (by omega) (by omega)]; rfl
  constructor
  · rintro ⟨j, hj, rfl⟩
    have hja : (j : ℤ) ≤ a := by rcases hs with ⟨h, _⟩ | ⟨h, _⟩ <;> omega
    have hh := (hiff (a - j)).1 (by omega)
    refine ⟨a - j + 1, by omega, by ring, by linarith, ?_⟩
    have h3 : 0 ≤ (a - j) * incr := mul_nonneg (by omega) (by omega)
    rcases hs with ⟨h, h'⟩ | ⟨h, h'⟩
    · have e : incr - start + a * incr - j * incr = (incr - start) + (a - j) * incr := by ring
      omega
    · have h4 : 1 * incr ≤ (a - j) * incr := mul_le_mul_of_nonneg_right (by omega) (by omega)
      have e : incr - start + a * incr - j * incr = (incr - start) + (a - j) * incr := by ring
      omega
  · rintro ⟨k, hk1, rfl, hk, hk0⟩
    have hka : k - 1 ≤ a := (hiff (k - 1)).2 (by linarith)
    refine ⟨(a - (k - 1)).toNat, ?_, ?_⟩
    · rcases hs with ⟨h, h'⟩ | ⟨h, h'⟩
      · omega
      · have : 1 < k := by
          by_contra hc
          have : k = 1 := by omega
          subst this
          omega
        omega
    · rw [Int.toNat_of_nonneg (by omega)]; ring

/-- C47, the fixed point numbers: for every library table, every valid ratio and every position between two input frames, the filter step
and the start position computed by the code (`double_to_fp`, 12 fraction bits, in `int`) are the rounded values, and they meet the
hypotheses of `C47_taps`, `C47_left_grid` and `C47_right_grid`. -/
theorem C47_steps (cfg : Config) (hL : LibraryTables cfg) (type : ℤ) (ht : SincType type) (t : CoeffTable) (hT : cfg.table type = some t)
    (ratio idx : F64) (ρ i : ℚ) (hv : ratio.val = some ρ) (h1 : 1 / 256 ≤ ρ) (hi : idx.val = some i) (i0 : 0 ≤ i) (i1 : i < 1) (incr start : ℤ)
    (hincr : incr = doubleToFp (Fl.mul (dbl t.increment) (if Fl.lt ratio one64 then ratio else one64)))
    (hstart : start = doubleToFp (Fl.mul idx (Fl.mul (dbl t.increment) (if Fl.lt ratio one64 then ratio else one64)))) :
    incr = rne (sincInc t.increment ρ * 4096) ∧ start = rne (rq f64 (i * sincInc t.increment ρ) * 4096) ∧
      1 ≤ incr ∧ 2 * incr ≤ 4096 * (t.count - 2) ∧ incr ≤ 300000000 ∧ 0 ≤ start ∧ start ≤ incr ∧ t.count - 2 ≤ 366000 := by
  have hd : (t.increment = 128 ∧ t.count = 2464) ∨ (t.increment = 491 ∧ t.count = 22438) ∨ (t.increment = 2381 ∧ t.count = 340239) := by
    rcases ht with rfl | rfl | rfl
    · exact Or.inr (Or.inr (hL.best t (by simpa [Config.table] using hT)))
    · exact Or.inr (Or.inl (hL.mid t (by simpa [Config.table, SRC_SINC_MEDIUM_QUALITY, SRC_SINC_BEST_QUALITY] using hT)))
    · exact Or.inl (hL.fast t (by simpa [Config.table, SRC_SINC_FASTEST, SRC_SINC_MEDIUM_QUALITY, SRC_SINC_BEST_QUALITY] using hT))
  obtain ⟨B, G, -⟩ := table_geom hd
  obtain ⟨e1, e2, -⟩ := G.step_vals hv h1 hi i0 i1
  have b1 := G.incr_bounds h1
  have b2 := G.start_bounds h1 i0 i1
  rw [e1] at hincr
  rw [e2] at hstart
  rw [← hincr] at b1 b2
  rw [← hstart] at b2
  refine ⟨hincr, hstart, ?_, ?_, ?_, b2.1, b2.2, ?_⟩ <;> rcases hd with ⟨a, b⟩ | ⟨a, b⟩ | ⟨a, b⟩ <;> rw [a] at b1 <;> omega

/-! ### Non-vacuity -/

theorem sinc_new_ok {cfg : Config} (hL : LibraryTables cfg) {type : ℤ} (ht : SincType type) {t : CoeffTable} (hT : cfg.table type = some t) {ch : ℕ}
    (h1 : 1 ≤ ch) (h2 : ch ≤ 128) : ∃ st, srcNew cfg type ch = .ok (0, some st) := by
  have hd : (t.increment = 128 ∧ t.count = 2464) ∨ (t.increment = 491 ∧ t.count = 22438) ∨ (t.increment = 2381 ∧ t.count = 340239) := by
    rcases ht with rfl | rfl | rfl
    · exact Or.inr (Or.inr (hL.best t (by simpa [Config.table] using hT)))
    · exact Or.inr (Or.inl (hL.mid t (by simpa [Config.table, SRC_SINC_MEDIUM_QUALITY, SRC_SINC_BEST_QUALITY] using hT)))
    · exact Or.inl (hL.fast t (by simpa [Config.table, SRC_SINC_FASTEST, SRC_SINC_MEDIUM_QUALITY, SRC_SINC_BEST_QUALITY] using hT))
  obtain ⟨B, G, -, -, hb⟩ := table_geom hd
  unfold srcNew
  rw [hT]
  dsimp only
  unfold sincStateNew
  rw [hb ch h2]
  have : (ch : ℤ) > 0 := by exact_mod_cast h1
  have h128 : ¬ (ch : ℤ) > 128 := by push Not; exact_mod_cast h2
  simp only [assertM, this, decide_true, if_true, bind, Except.bind, h128, if_false]
  exact ⟨_, rfl⟩

/-- A build with the fastest converter only. -/
def fastCfg : Config := { fast := some ⟨128, 2464, fun _ => Fl.ofInt f32 1⟩, mid := none, best := none }

theorem fastCfg_tables : LibraryTables fastCfg :=
  ⟨(fun t h => by cases h; exact ⟨rfl, rfl⟩), (fun t h => by cases h), (fun t h => by cases h)⟩

/-- 100 frames of input, room for 1000 frames of output, ratio 1, end of input. -/
def sincCall : SrcData :=
  { dataIn := 1, dataOut := 1000, inputFrames := 100, outputFrames := 1000, inputFramesUsed := 0, outputFramesGen := 0, endOfInput := 1, srcRatio := one64 }

theorem sincCall_sized : SincSized (2 : ℕ) sincCall := by
  obtain ⟨h, he⟩ := Fl.eq_fin_of_val one64_val
  exact ⟨by simp [sincCall, he], by norm_num [sincCall, samples], by norm_num [sincCall, samples]⟩

theorem sincCall_use : SincUse (sincFloor 2) (2 : ℕ) (.rising 0) [.process (fun _ => zero32) (some sincCall)] := by
  refine .riseCall _ _ _ _ sincCall_sized ?_ (.nil _)
  intro v hv _ _
  have : v = 1 := by
    have h1 : sincCall.srcRatio.val = some 1 := one64_val
    rw [h1] at hv
    exact (Option.some.inj hv).symm
  subst this
  norm_num [sincFloor]

theorem sincCall_safe : SafeUse (2 : ℕ) .live [.process (fun _ => zero32) (some sincCall)] := by
  refine .call _ _ _ _ sincCall_sized ?_ (.nil _)
  intro v hv _ _
  have h1 : sincCall.srcRatio.val = some 1 := one64_val
  rw [h1] at hv
  cases hv
  norm_num

/-- One call of `sincCall` on a new handle succeeds, leaves room in the output buffer, and puts something out. -/
theorem sinc_one_call_of {cfg : Config} (hL : LibraryTables cfg) {t : CoeffTable} (hT : cfg.table SRC_SINC_FASTEST = some t) :
    ∃ st o st1 d', srcNew cfg SRC_SINC_FASTEST (2 : ℕ) = .ok (0, some st) ∧
    (Op.process (fun _ => zero32) (some sincCall)).run st = .ok (o, st1) ∧ o.ret = 0 ∧ o.data = some d' ∧
    d'.inputFramesUsed = 100 ∧ d'.outputFramesGen < 1000 ∧ 98 ≤ d'.outputFramesGen := by
  have ht : SincType SRC_SINC_FASTEST := Or.inr (Or.inr rfl)
  obtain ⟨st, hst⟩ := sinc_new_ok hL ht hT (ch := 2) (by norm_num) (by norm_num)
  obtain ⟨t, B, _, H⟩ := sinc_new_hist hL ht hst (p := .live) (Or.inr (Or.inl rfl))
  obtain ⟨os, st1, u1, h1, hw, _⟩ := sinc_history_total sincCall_safe H
  obtain ⟨_, _, _, _, _, _, T, _⟩ := sinc_new_track hL ht hst (fun _ _ => zero32) none
  obtain ⟨f, D, W, -⟩ := T.view
  cases hw with
  | cons hw hnil =>
  cases hnil
  rename_i o
  simp only [run] at h1
  obtain ⟨⟨o1, s1⟩, r1, h1⟩ := bind_ok h1
  obtain ⟨⟨o2, s2⟩, r2, h1⟩ := bind_ok h1
  have r2 := ok_inj r2
  have h1 := ok_inj h1
  simp only [Prod.mk.injEq, List.cons.injEq] at h1 r2
  obtain ⟨⟨rfl, _⟩, rfl⟩ := h1
  have hret : o1.ret = 0 := by
    rcases hw with ⟨ha, _⟩ | ⟨h, _⟩
    · exfalso
      simp only [Op.run] at r1
      obtain ⟨⟨e, m', st', d'⟩, hp, r1⟩ := bind_ok r1
      have r1 := ok_inj r1
      simp only [Prod.mk.injEq] at r1
      rw [← r1.1] at ha
      have hf := (C02 _ _ _ _ _ _ _ hp (by
        have ha : e = 18 ∨ e = 3 ∨ e = 4 ∨ e = 6 ∨ e = 16 := ha
        omega)).1
      obtain ⟨h, he⟩ := Fl.eq_fin_of_val one64_val
      cases hf with
      | state hh => simp at hh
      | mode s a b => cases a; exact b T.mode
      | data s a b c => cases c
      | buffer s y a b c d => cases c; simp [MissingBuffer, sincCall] at d
      | ratio s y a b c d e => cases c; simp only [sincCall, he, BadRatio] at e; norm_num at e
      | overlap s y a b c d e f => cases a; cases c; rw [W.hch] at f; simp [Clash, sincCall, samples] at f
    · exact h
  obtain ⟨d', hd'⟩ : ∃ d', o1.data = some d' := by
    rcases hw with ⟨ha, _⟩ | ⟨_, x, x', m', _, h, _⟩
    · rw [hret] at ha; simp [ArgError] at ha
    · exact ⟨x', h⟩
  have hx : EndsAt (fun _ _ => zero32) (some 100) := fun _ _ _ _ _ => rfl
  have hP : Presents (fun _ _ => zero32) 2 0 (fun _ => zero32) sincCall := fun k c _ _ => rfl
  have hroom : d'.outputFramesGen < 1000 := by
    obtain ⟨t, B, u, g, hT, Ge, hch1, hB, vr, e1, e2, e3, e4, e5⟩ := sinc_last hL ht hst (r := 1) (len := some 100) hx (by norm_num)
      (ops := []) (os := []) (by simp) rfl (.nil _) sincCall_sized one64_val hP (fun _ => rfl) r1 hret hd'
    rw [e2]
    by_contra hc
    have hc : 1000 ≤ g := by omega
    have := (e4 999 (by simp [outputs]; omega)).1
    rw [posAt_one] at this
    simp only [sincCall] at e3
    dsimp only at this
    omega
  have := C48 _ hL _ ht 2 _ st st s1 hst _ 100 hx 1 (by norm_num) [] [] 0 (by simp) rfl (.nil _) _ _ d' _ sincCall_sized one64_val hP
    (by simp [sincCall]) rfl (by simp [sincCall]) r1 hret hd' hroom _ rfl
  obtain ⟨a, b⟩ := this
  refine ⟨st, o1, s1, d', hst, r1, hret, hd', by simpa using a, hroom, ?_⟩
  rw [abs_le] at b
  simp only [outputs, List.flatMap_nil, List.length_nil, Nat.cast_zero, zero_add, mul_one] at b
  have hb : (97 : ℚ) < (d'.outputFramesGen : ℚ) := by
    have h1 := b.1
    push_cast at h1
    have h2 : (d'.outputFramesGen : ℚ) ≤ 1000 := by exact_mod_cast hroom.le
    have h3 : (d'.outputFramesGen : ℚ) / 2 ^ 44 ≤ 1000 / 2 ^ 44 := by gcongr
    norm_num at h1 h3
    linarith
  have : (97 : ℤ) < d'.outputFramesGen := by exact_mod_cast hb
  omega

theorem sinc_one_call : ∃ st o st1 d', srcNew fastCfg SRC_SINC_FASTEST (2 : ℕ) = .ok (0, some st) ∧
    (Op.process (fun _ => zero32) (some sincCall)).run st = .ok (o, st1) ∧ o.ret = 0 ∧ o.data = some d' ∧
    d'.inputFramesUsed = 100 ∧ d'.outputFramesGen < 1000 ∧ 98 ≤ d'.outputFramesGen :=
  sinc_one_call_of fastCfg_tables (t := ⟨128, 2464, fun _ => Fl.ofInt f32 1⟩)
    (by simp [Config.table, fastCfg, SRC_SINC_FASTEST, SRC_SINC_MEDIUM_QUALITY, SRC_SINC_BEST_QUALITY])

/-- The hypotheses of C22, C24, C44, C46 and C48 are met by this call (with `ops2 = []` or a further call in C46). -/
example : ∃ e st ops os st1 V, srcNew fastCfg SRC_SINC_FASTEST (2 : ℕ) = .ok (e, some st) ∧ run ops st = .ok (os, st1) ∧
    FedTo (fun _ _ => zero32) 2 (some 100) 0 ops os V ∧ SincUse (sincFloor 2) (2 : ℕ) (.rising 0) ops ∧
    (∀ op ∈ ops, SizedOp (2 : ℕ) op ∧ AtRatio 1 op) ∧ 98 ≤ generated os ∧ V = 100 := by
  obtain ⟨st, o, st1, d', a1, a2, a3, a4, a5, a6, a7⟩ := sinc_one_call
  refine ⟨0, st, [.process (fun _ => zero32) (some sincCall)], [o], st1, _, a1, ?_,
    .call _ _ _ _ d' _ _ _ (fun k c _ _ => rfl) (fun _ => rfl) a3 a4 (.nil _), sincCall_use, ?_, ?_, by rw [a5]; rfl⟩
  · simp only [run, a2, bind, Except.bind]; rfl
  · intro op hop
    rw [List.mem_singleton.1 hop]
    exact ⟨sincCall_sized, one64_val⟩
  · simp only [generated, a3, if_true, a4, add_zero]
    omega

/-- A history with ratio changes in both directions, a reset and then an end of input, as in C08 and C10. -/
example (m : Mem) : SincUse (sincFloor 2) (2 : ℕ) .freely [.process m (some { sincCall with endOfInput := 0 }), .setRatio (dbl 3),
    .process m (some { sincCall with endOfInput := 0 }), .process m none, .reset, .process m (some sincCall)] := by
  have h3 : dbl 3 ≠ .nan := by
    have := dbl_ofInt_small (n := 3) (by norm_num) (by norm_num)
    intro h; rw [h] at this; simp [Fl.val] at this
  have hs : SincSized (2 : ℕ) { sincCall with endOfInput := 0 } := ⟨sincCall_sized.1, sincCall_sized.2, sincCall_sized.3⟩
  refine .freeCall _ _ _ hs rfl (.freeRatio _ _ h3 (.freeCall _ _ _ hs rfl (.noData _ _ _ (.reset _ (.rising 0) _ (Or.inr rfl) ?_))))
  refine .riseCall _ _ _ _ sincCall_sized ?_ (.nil _)
  intro v hv _ _
  have h1 : sincCall.srcRatio.val = some 1 := one64_val
  rw [h1] at hv
  cases hv
  norm_num [sincFloor]

/-- A history of C08 in which the ratio drops from 3 to 1 before the end of the input. -/
example (m : Mem) : Phase.First .live ∧ SafeUse (2 : ℕ) .live [.setRatio (dbl 3), .process m (some { sincCall with endOfInput := 0 }),
    .process m (some sincCall), .process m (some sincCall), .reset, .process m none, .process m (some { sincCall with srcRatio := .inf true })] := by
  have h3 := dbl_ofInt_small (n := 3) (by norm_num) (by norm_num)
  have h3n : dbl 3 ≠ .nan := by
    intro h; rw [h] at h3; simp [Fl.val] at h3
  have h1 : one64.val = some 1 := one64_val
  have hs : SincSized (2 : ℕ) { sincCall with endOfInput := 0 } := ⟨sincCall_sized.1, sincCall_sized.2, sincCall_sized.3⟩
  have a1 : AtLeast (1 / 180) one64 := fun v hv _ _ => by rw [h1] at hv; cases hv; norm_num
  refine ⟨Or.inr (Or.inl rfl), .ratio _ _ _ h3n (fun v hv _ _ => ?_) (.call _ _ _ _ hs a1 (.call _ _ _ _ sincCall_sized a1
    (.call _ _ _ _ sincCall_sized ⟨a1, Or.inr fun v hv _ _ => ?_⟩ (.reset _ .live _ (Or.inr (Or.inl rfl)) (.noData _ _ _
      (.call _ _ _ _ ⟨by simp, sincCall_sized.2, sincCall_sized.3⟩ (fun v hv _ _ => by simp [Fl.val] at hv) (.nil _)))))))⟩
  · rw [h3] at hv; cases hv; norm_num
  · have hv : one64.val = some v := hv
    rw [h1] at hv; cases hv
    exact min_le_left _ _

end Verif
