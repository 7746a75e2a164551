import Verif.Proof.InterpHistory
import Verif.Spec.Stream

/-! Streams through the interpolating converters. -/

namespace Verif
open Spec

theorem posAt_shift (P : Pos) (U : ℕ) (ρ : ℕ → ℚ) : ∀ j, posAt ⟨U + P.k, P.i⟩ ρ j = ⟨U + (posAt P ρ j).k, (posAt P ρ j).i⟩
  | 0 => rfl
  | j + 1 => by
    simp only [posAt]
    rw [posAt_shift P U ρ j]
    simp only [Pos.advance, Nat.add_assoc]

theorem posAt_congr {P : Pos} {ρ ρ' : ℕ → ℚ} : ∀ {j : ℕ}, (∀ i < j, ρ i = ρ' i) → posAt P ρ j = posAt P ρ' j
  | 0, _ => rfl
  | j + 1, h => by
    simp only [posAt]
    rw [posAt_congr (fun i hi => h i (by omega)), h j (by omega)]

theorem posAt_append (P : Pos) (ρ : ℕ → ℚ) (g : ℕ) : ∀ j, posAt P ρ (g + j) = posAt (posAt P ρ g) (fun i => ρ (g + i)) j
  | 0 => rfl
  | j + 1 => by
    rw [← Nat.add_assoc]
    simp only [posAt]
    rw [posAt_append P ρ g j]

/-- The handle has consumed `U` frames of the stream `x`, and the next output frame is at the position `P` of the stream. -/
structure Track (K : Kind) (x : ℕ → ℕ → F32) (ch U : ℕ) (P : Pos) (l : ℚ) (st : SrcState) : Prop where
  view : ∃ p before, View K st ch p l before ∧ P = ⟨U + (Pos.ofQ p).k, (Pos.ofQ p).i⟩ ∧
    (before = none → U = 0 ∧ P = ⟨0, 0⟩) ∧ (∀ f, before = some f → f = frameOf ch (prevFrame (x 0) x U))
  mode : st.mode = .process

theorem prevFrame_shift {x y : ℕ → ℕ → F32} {b : ℕ → F32} {U n : ℕ} {c : ℕ} (hb : b c = prevFrame (x 0) x U c)
    (hy : ∀ k < n, y k c = x (U + k) c) {k : ℕ} (hk : k ≤ n) : prevFrame b y k c = prevFrame (x 0) x (U + k) c := by
  cases k with
  | zero => exact hb
  | succ k => exact hy k (by omega)

theorem lastFn_frameOf {ch : ℕ} {f : ℕ → F32} {c : ℕ} (hc : c < ch) : lastFn (frameOf ch f) c = f c := by
  unfold lastFn frameOf
  rw [List.getElem?_map, List.getElem?_range hc]
  rfl

theorem frameOf_congr {ch : ℕ} {f g : ℕ → F32} (h : ∀ c < ch, f c = g c) : frameOf ch f = frameOf ch g := by
  unfold frameOf
  apply List.map_congr_left
  intro c hc
  exact h c (List.mem_range.1 hc)

/-- A frame that is produced needs only frames that were presented. -/
theorem Kind.cont_bound {K : Kind} {ch n : ℕ} {P : Pos} (hch : 1 ≤ ch) (hchM : ch ≤ 8355967) (hnb : ch * n ≤ 2 ^ 52) (hn : 1 ≤ n)
    (h : Cont (K.G ch n) P) (h0 : 0 ≤ P.i) : P.k ≤ n ∧ (K = .linear → P.k < n) := by
  rcases h with h | h
  · exact ⟨by omega, fun _ => by omega⟩
  · cases K
    · exact ⟨zohG_bound hch (by omega) h h0, fun h => by cases h⟩
    · have := linG_bound (by omega) h h0
      exact ⟨this.le, fun _ => this⟩

theorem Kind.out_shift {K : Kind} {x y : ℕ → ℕ → F32} {b : ℕ → F32} {U n c : ℕ} (hb : b c = prevFrame (x 0) x U c)
    (hy : ∀ k < n, y k c = x (U + k) c) {P : Pos} (h1 : P.k ≤ n) (h2 : K = .linear → P.k < n) :
    K.out b y P c = K.out (x 0) x ⟨U + P.k, P.i⟩ c := by
  cases K
  · exact prevFrame_shift hb hy h1
  · simp only [Kind.out, linearOut]
    rw [prevFrame_shift hb hy h1, hy _ (h2 rfl)]

/-- The stopping test of a call that had room left: the input is (all but) used up. -/
theorem Kind.stop_bound {K : Kind} {ch n : ℕ} {P : Pos} (hch : 1 ≤ ch) (hchM : ch ≤ 8355967) (hnb : ch * n ≤ 2 ^ 52) (h0 : 0 ≤ P.i) (h1 : P.i < 1)
    (h : ¬ Cont (K.G ch n) P) : n ≤ P.k + (match K with | .zoh => 0 | .linear => 1) := by
  by_contra hk
  push Not at hk
  apply h
  refine Or.inr ?_
  cases K
  · exact zohG_of_lt hnb hchM (by dsimp only at hk; omega) h0 h1
  · exact linG_of_lt hch hnb hchM (by dsimp only at hk; omega) h0 h1

section
variable {K : Kind} {x : ℕ → ℕ → F32} {ch U : ℕ} {P : Pos} {l : ℚ} {st : SrcState}

/-- One call of a stream. -/
theorem track_call (T : Track K x ch U P l st) {m : Mem} {d : SrcData} (hO : Ordinary 1 ch d) (hP : Presents x ch U m d)
    {o : Obs} {st' : SrcState} (hr : (Op.process m (some d)).run st = .ok (o, st')) (h0 : o.ret = 0) :
    ∃ (d' : SrcData) (ρ : ℕ → ℚ) (g u : ℕ) (t : ℚ), o.data = some d' ∧ d'.inputFramesUsed = u ∧ (u : ℤ) ≤ max d.inputFrames 0 ∧ d'.outputFramesGen = g ∧ (g : ℤ) ≤ max d.outputFrames 0 ∧ d.srcRatio.val = some t ∧ ValidRatio t ∧
      (∀ j < g, ValidRatio (ρ j)) ∧ (startRatio l t = t → ∀ j < g, ρ j = t) ∧
      outOf ch o = (List.range g).map (fun j => frameOf ch (K.out (x 0) x (posAt P ρ j))) ∧
      (∀ j < g, 0 < d.inputFrames ∧ ((posAt P ρ j).k : ℤ) ≤ U + d.inputFrames) ∧
      ((g : ℤ) < d.outputFrames → 0 < d.inputFrames → (U : ℤ) + d.inputFrames ≤ (posAt P ρ g).k + (match K with | .zoh => 0 | .linear => 1)) ∧
      (0 < d.inputFrames → (u : ℤ) = min ((posAt P ρ g).k - U : ℤ) d.inputFrames) ∧
      (U ≤ (posAt P ρ g).k) ∧
      ∃ l', Track K x ch (U + u) (posAt P ρ g) l' st' ∧ ValidRatio l' ∧ (startRatio l t = t → l' = t) ∧
        (samples ch d.outputFrames ≤ 2 ^ 50 → (∀ j < g, min (startRatio l t) t ≤ ρ j ∧ ρ j ≤ max (startRatio l t) t) ∧
          min (startRatio l t) t ≤ l' ∧ l' ≤ max (startRatio l t) t) ∧
        (∀ j < g, ρ j = ratioAt (startRatio l t) t ch d.outputFrames.toNat j) ∧
        l' = if g = 0 then startRatio l t else ratioAt (startRatio l t) t ch d.outputFrames.toNat (g - 1) := by
  obtain ⟨p, before, V, hPp, hb0, hb1⟩ := T.view
  have hmode := T.mode
  rcases ordinary_cases V.hch hmode hO with ⟨e, hf⟩ | ⟨_, _, _, t, g⟩
  · exfalso
    obtain ⟨d', hd'⟩ := process_rejects (m := m) hf (by
        rintro s y h1 h2; cases h1; cases h2
        have b1 := hO.inSize
        have b2 := hO.outSize
        rw [V.hch]
        exact ⟨by positivity, by omega, by omega⟩)
    have ha := firstFailing_arg hf
    simp only [Op.run, hd'] at hr
    have hr := ok_inj hr
    simp only [Prod.mk.injEq] at hr
    rw [← hr.1] at h0
    dsimp only at h0
    unfold ArgError at ha
    omega
  · have hPk : U ≤ P.k := by rw [hPp]; exact Nat.le_add_right _ _
    by_cases hn : d.inputFrames.toNat = 0
    · rw [hn] at g
      obtain ⟨s, h1, h2, h3⟩ := call_empty (m := m) V hmode g
      simp only [Op.run, h1] at hr
      have hr := ok_inj hr
      simp only [Prod.mk.injEq, Option.getD_some] at hr
      obtain ⟨rfl, rfl⟩ := hr
      refine ⟨callData d 0 0, fun _ => t, 0, 0, t, rfl, rfl, by push_cast; omega, rfl, by push_cast; omega, g.ht, g.vt, fun _ h => by omega, fun _ _ h => by omega, rfl, fun _ h => by omega,
        fun _ h => by omega, fun h => by omega, hPk, startRatio l t, ⟨⟨p, before, h2, hPp, hb0, hb1⟩, by rw [h3]; exact hmode⟩, startRatio_valid V.vl g.vt, id,
        fun _ => ⟨fun _ h => by omega, min_le_left _ _, le_max_left _ _⟩, fun _ h => by omega, rfl⟩
    · obtain ⟨gen, s, h1, h2, h3, h4, h5, h6⟩ := call_spec (m := m) V hmode g (by omega) (Or.inr (by
          simp only [Op.run] at hr
          obtain ⟨w, hw, _⟩ := bind_ok hr
          exact ⟨w, hw⟩))
      simp only [Op.run, h1] at hr
      have hr := ok_inj hr
      simp only [Prod.mk.injEq, Option.getD_some] at hr
      obtain ⟨rfl, rfl⟩ := hr
      have hdi : (d.inputFrames.toNat : ℤ) = d.inputFrames := by omega
      generalize hnn : d.inputFrames.toNat = n at *
      generalize hoo : d.outputFrames.toNat = oo at *
      have hpos : ∀ j, posAt P (ratioAt (startRatio l t) t ch oo) j =
          ⟨U + (callPos ch oo p l t j).k, (callPos ch oo p l t j).i⟩ := by
        intro j
        rw [hPp]
        exact posAt_shift (Pos.ofQ p) U _ j
      have hfr : ∀ j, 0 ≤ (callPos ch oo p l t j).i ∧ (callPos ch oo p l t j).i < 1 := fun j => posAt_frac (ofQ_frac p) j
      have hxin : ∀ k < n, ∀ c < ch, inFrames m d ch k c = x (U + k) c := by
        intro k hk c hc
        exact hP k c (by omega) hc
      have hfb : frame0 m d ch before = frameOf ch (prevFrame (x 0) x U) := by
        unfold frame0
        cases before with
        | none =>
          obtain ⟨hU, _⟩ := hb0 rfl
          simp only [Option.getD_none]
          rw [hU]
          refine List.map_congr_left (fun c hc => ?_)
          have := hP 0 c (by omega) (List.mem_range.1 hc)
          rw [hU] at this
          simpa [prevFrame] using this
        | some f => exact hb1 f rfl
      have hvs := startRatio_valid V.vl g.vt
      have hrep : Rep0 f64 (startRatio l t) := by
        unfold startRatio; split_ifs
        · exact rep64_val g.ht
        · exact rep64_val V.hl
      have hval : ∀ j < oo, ValidRatio (ratioAt (startRatio l t) t ch oo j) := fun j hj =>
        ratioAt_valid hrep (rep64_val g.ht) hvs g.vt V.hch1 hj g.hob
      refine ⟨_, ratioAt (startRatio l t) t ch oo, gen, min (callPos ch oo p l t gen).k n, t, rfl, rfl, by omega, rfl, by omega, g.ht, g.vt,
        fun j hj => hval j (by omega), ?_, ?_, ?_, ?_, ?_, ?_, ratioAfter (startRatio l t) t ch oo gen, ⟨⟨_, _, h5, ?_, fun h => (by cases h), ?_⟩, ?_⟩, ?_, ?_, ?_, fun _ _ => rfl, ?_⟩
      · intro h j _
        simp [ratioAt, h]
      · unfold outOf
        dsimp only [callData, clampFrames]
        rw [Int.toNat_natCast]
        refine List.map_congr_left (fun j hj => frameOf_congr (fun c hc => ?_))
        have hj := List.mem_range.1 hj
        have hlt : ch * j + c < ch * gen := by
          have : ch * (j + 1) ≤ ch * gen := Nat.mul_le_mul_left _ hj
          have e : ch * (j + 1) = ch * j + ch := by ring
          omega
        rw [Mem.setRange_in hlt, outSamples_frame hc, hpos j]
        obtain ⟨c1, c2⟩ := Kind.cont_bound V.hch1 V.hchM g.hnb (by omega) (h3 j hj) (hfr j).1
        refine Kind.out_shift ?_ (fun k hk => hxin k hk c hc) c1 c2
        rw [hfb, lastFn_frameOf hc]
      · intro j hj
        refine ⟨by omega, ?_⟩
        obtain ⟨c1, c2⟩ := Kind.cont_bound V.hch1 V.hchM g.hnb (by omega) (h3 j hj) (hfr j).1
        rw [hpos j]; dsimp only; omega
      · intro hg _
        have := Kind.stop_bound V.hch1 V.hchM g.hnb (hfr gen).1 (hfr gen).2 (h4 (by omega))
        rw [hpos gen]; dsimp only
        cases K <;> dsimp only at this ⊢ <;> omega
      · intro _
        rw [hpos gen]; dsimp only; omega
      · rw [hpos gen]; dsimp only; omega
      · rw [hpos gen]
        have hk : (0 : ℚ) ≤ (((callPos ch oo p l t gen).k - min (callPos ch oo p l t gen).k n : ℕ) : ℚ) := by positivity
        have e1 : Pos.ofQ ((callPos ch oo p l t gen).i + (((callPos ch oo p l t gen).k - min (callPos ch oo p l t gen).k n : ℕ) : ℚ)) =
            ⟨(callPos ch oo p l t gen).k - min (callPos ch oo p l t gen).k n, (callPos ch oo p l t gen).i⟩ := by
          unfold Pos.ofQ
          rw [Int.floor_add_natCast, Int.fract_add_natCast, Int.floor_eq_zero_iff.2 ⟨(hfr gen).1, (hfr gen).2⟩, Int.fract_eq_self.2 (hfr gen)]
          simp only [zero_add, Int.toNat_natCast]
        rw [e1]
        dsimp only
        congr 1
        omega
      · intro f hf
        simp only [Option.some.injEq] at hf
        rw [← hf]
        split_ifs with hz
        · rw [hz, hfb]; simp
        · generalize hu : min (callPos ch oo p l t gen).k n = u at *
          have hun : u ≤ n := by omega
          obtain ⟨w, rfl⟩ : ∃ w, u = w + 1 := ⟨u - 1, by omega⟩
          unfold frameList frameOf
          refine List.map_congr_left (fun c hc => ?_)
          have := hxin w (by omega) c (List.mem_range.1 hc)
          unfold inFrames at this
          rw [← Nat.add_assoc]
          simp only [prevFrame]
          rw [← this]
          congr 1
          rw [Nat.add_sub_cancel]
          push_cast
          ring
      · rw [h6]; exact hmode
      · cases gen with
        | zero => exact hvs
        | succ j => exact hval j (by omega)
      · intro h
        rw [ratioAfter_eq h, h]
      · intro hb
        have hb' : ch * oo ≤ 2 ^ 50 := by
          unfold samples at hb
          rw [show max d.outputFrames 0 = (oo : ℤ) by omega] at hb
          have : ((ch * oo : ℕ) : ℤ) ≤ 2 ^ 50 := by push_cast; linarith
          exact_mod_cast this
        have hbt : ∀ j < gen, _ := fun j hj => ratioAt_between (ch := ch) (o := oo) (g := j) hrep (rep64_val g.ht) hvs g.vt V.hch1 (by omega) hb'
        refine ⟨hbt, ?_⟩
        cases gen with
        | zero => exact ⟨min_le_left _ _, le_max_left _ _⟩
        | succ j => exact hbt j (by omega)
      · cases gen with
        | zero => rfl
        | succ j => rfl

theorem track_setRatio (T : Track K x ch U P l st) {r : F64} (hr : r ≠ .nan) {o : Obs} {st' : SrcState}
    (h : (Op.setRatio r).run st = .ok (o, st')) : outOf ch o = [] ∧
      ∃ l', Track K x ch U P l' st' ∧ (∀ q, r.val = some q → l' = l ∨ l' = q) ∧ (l' = l ∨ ∃ q, r.val = some q ∧ l' = q) ∧ l' = if o.ret = 0 then r.val.getD l else l := by
  obtain ⟨p, before, V, h1, h2, h3⟩ := T.view
  have hm := T.mode
  simp only [Op.run] at h
  unfold srcSetRatio at h
  dsimp only at h
  by_cases hb : isBadSrcRatio r = true
  · rw [if_pos hb] at h
    have h := ok_inj h
    simp only [Prod.mk.injEq, Option.getD_some] at h
    obtain ⟨rfl, rfl⟩ := h
    exact ⟨rfl, l, T, fun _ _ => Or.inl rfl, Or.inl rfl, rfl⟩
  · rw [if_neg hb] at h
    have h := ok_inj h
    simp only [Prod.mk.injEq, Option.getD_some] at h
    obtain ⟨rfl, rfl⟩ := h
    rw [isBad_iff] at hb
    cases hr' : r with
    | nan => exact absurd hr' hr
    | inf s => rw [hr'] at hb; exact absurd trivial hb
    | fin q hq =>
      rw [hr'] at hb
      simp only [BadRatio, not_or, not_lt] at hb
      refine ⟨rfl, q, ⟨⟨p, before, ⟨V.hvt, V.hch, V.hch1, V.hchM, V.hpos, V.hp0, V.hp1, rfl, Or.inr ⟨hb.1, hb.2⟩, V.hpriv⟩, h1, h2, h3⟩, hm⟩, ?_, Or.inr ⟨q, rfl, rfl⟩, rfl⟩
      intro q' hq'
      simp only [Fl.val, Option.some.injEq] at hq'
      exact Or.inr hq'

end

/-- Append two ratio sequences. -/
def joinAt (g : ℕ) (ρ σ : ℕ → ℚ) (j : ℕ) : ℚ := if j < g then ρ j else σ (j - g)

theorem posAt_join (P : Pos) (g : ℕ) (ρ σ : ℕ → ℚ) (j : ℕ) : posAt P (joinAt g ρ σ) (g + j) = posAt (posAt P ρ g) σ j := by
  rw [posAt_append]
  have e1 : posAt P (joinAt g ρ σ) g = posAt P ρ g := posAt_congr (fun i hi => by simp [joinAt, hi])
  have e2 : (fun i => joinAt g ρ σ (g + i)) = σ := by
    funext i; simp [joinAt]
  rw [e1, e2]

theorem ratiosFrom_call {rat : ℚ → ℚ → ℕ → ℕ → ℕ → ℚ} {ch : ℕ} {l t : ℚ} {m : Mem} {d d' : SrcData} {o : Obs} {ops : List Op} {os : List Obs}
    (ht : d.srcRatio.val = some t) (hd : o.data = some d') (h0 : o.ret = 0) :
    ratiosFrom rat ch l (.process m (some d) :: ops) (o :: os) =
      (List.range d'.outputFramesGen.toNat).map (rat (if l = 0 then t else l) t ch d.outputFrames.toNat) ++
        ratiosFrom rat ch (if d'.outputFramesGen.toNat = 0 then (if l = 0 then t else l)
          else rat (if l = 0 then t else l) t ch d.outputFrames.toNat (d'.outputFramesGen.toNat - 1)) ops os := by
  conv_lhs => unfold ratiosFrom
  simp only [ht, hd]
  rw [if_pos h0]

theorem range_join (g n : ℕ) (ρ σ : ℕ → ℚ) : (List.range (g + n)).map (joinAt g ρ σ) = (List.range g).map ρ ++ (List.range n).map σ := by
  rw [List.range_add, List.map_append, List.map_map]
  congr 1
  · exact List.map_congr_left (fun j hj => by simp [joinAt, List.mem_range.1 hj])
  · exact List.map_congr_left (fun j hj => by simp [joinAt])

/-- Streams through an interpolating converter. -/
theorem stream_spec {K : Kind} {x : ℕ → ℕ → F32} {ch : ℕ} : ∀ {U V : ℕ} {ops : List Op} {os : List Obs}, Fed x ch U ops os V →
    ∀ {P : Pos} {l : ℚ} {st st' : SrcState}, Track K x ch U P l st → (∀ op ∈ ops, OrdinaryOp 1 ch op) →
    run ops st = .ok (os, st') →
    ∃ (ρ : ℕ → ℚ), (∀ j < (outputs ch os).length, ValidRatio (ρ j)) ∧
      outputs ch os = (List.range (outputs ch os).length).map (fun j => frameOf ch (K.out (x 0) x (posAt P ρ j))) ∧
      (∀ r, (l = 0 ∨ l = r) → (∀ op ∈ ops, AtRatio r op) → ∀ j < (outputs ch os).length, ρ j = r) ∧
      (∀ a b, (l = 0 ∨ (a ≤ l ∧ l ≤ b)) → (∀ op ∈ ops, RatioIn a b op ∧ SmallOut ch op) → ∀ j < (outputs ch os).length, a ≤ ρ j ∧ ρ j ≤ b) ∧
      ratiosFrom ratioAt ch l ops os = (List.range (outputs ch os).length).map ρ ∧
      U ≤ V ∧ (∀ j < (outputs ch os).length, (posAt P ρ j).k ≤ V) ∧
      ∃ l', Track K x ch V (posAt P ρ (outputs ch os).length) l' st' ∧
        (∀ r, (l = 0 ∨ l = r) → (∀ op ∈ ops, AtRatio r op) → l' = 0 ∨ l' = r) ∧
        (∀ a b, (l = 0 ∨ (a ≤ l ∧ l ≤ b)) → (∀ op ∈ ops, RatioIn a b op ∧ SmallOut ch op) → l' = 0 ∨ (a ≤ l' ∧ l' ≤ b)) := by
  intro U V ops os hF
  induction hF with
  | nil U =>
    intro P l st st' T _ hr
    have hr := ok_inj hr
    simp only [Prod.mk.injEq, true_and] at hr
    subst hr
    exact ⟨fun _ => 1, fun j hj => by simp [outputs] at hj, by simp [outputs], fun _ _ _ j hj => by simp [outputs] at hj,
      fun _ _ _ _ j hj => by simp [outputs] at hj, by simp [outputs, ratiosFrom], le_refl _, fun j hj => by simp [outputs] at hj, l, T, fun _ h _ => h, fun _ _ h _ => h⟩
  | call U V m d d' o ops os hP h0 hd hF ih =>
    intro P l st st' T hO hr
    unfold run at hr
    obtain ⟨⟨o1, st1⟩, hr1, hr⟩ := bind_ok hr
    obtain ⟨⟨os2, st2⟩, hr2, hr⟩ := bind_ok hr
    have hr := ok_inj hr
    simp only [Prod.mk.injEq, List.cons.injEq] at hr
    obtain ⟨⟨rfl, rfl⟩, rfl⟩ := hr
    have hO1 : Ordinary 1 ch d := by
      have := hO _ (List.mem_cons_self ..)
      cases this with
      | process _ _ h => exact h d rfl
    obtain ⟨d1, ρ1, g, u, t, e1, e2, _, e3, _, e4, e5, e6, e7, e8, eb, _, eu, ek, l1, T1, vl1, e9, eB, eR, eL⟩ := track_call T hO1 hP hr1 h0
    rw [hd] at e1
    simp only [Option.some.injEq] at e1
    subst e1
    rw [e2, Int.toNat_natCast] at ih
    obtain ⟨ρ2, f1, f2, f3, fI, fR, fU, fV, l2, T2, f4, f7⟩ := ih T1 (fun op h => hO op (List.mem_cons_of_mem _ h)) hr2
    have hlen1 : (outOf ch o1).length = g := by rw [e8]; simp
    have hlen : (outputs ch (o1 :: os2)).length = g + (outputs ch os2).length := by
      simp only [outputs, List.flatMap_cons, List.length_append]; rw [hlen1]
    refine ⟨joinAt g ρ1 ρ2, ?_, ?_, ?_, ?_, ?_, by omega, ?_, l2, ?_, ?_, ?_⟩
    · intro j hj
      unfold joinAt
      split_ifs with h
      · exact e6 j h
      · exact f1 (j - g) (by omega)
    · rw [hlen]
      have : outputs ch (o1 :: os2) = outOf ch o1 ++ outputs ch os2 := by simp [outputs]
      rw [this, List.range_add, List.map_append, e8]
      congr 1
      · refine List.map_congr_left (fun j hj => ?_)
        have hj := List.mem_range.1 hj
        rw [posAt_congr (ρ := joinAt g ρ1 ρ2) (ρ' := ρ1) (fun i hi => by simp [joinAt, show i < g by omega])]
      · rw [f2, List.map_map]
        simp only [List.length_map, List.length_range]
        refine List.map_congr_left (fun j hj => ?_)
        simp only [Function.comp_apply]
        rw [posAt_join]
    · intro r hl hA j hj
      have ht : t = r := by
        have := hA _ (List.mem_cons_self ..)
        simp only [AtRatio] at this
        rw [e4] at this; simpa using this
      have hst : startRatio l t = t := by
        unfold startRatio
        rcases hl with h | h
        · rw [if_pos h]
        · split_ifs
          · rfl
          · rw [h, ht]
      unfold joinAt
      split_ifs with h
      · rw [e7 hst j h, ht]
      · exact f3 r (Or.inr (by rw [e9 hst, ht])) (fun op h => hA op (List.mem_cons_of_mem _ h)) _ (by omega)
    · intro a b hl hA j hj
      obtain ⟨hA1, hA2⟩ := hA _ (List.mem_cons_self ..)
      have htab : a ≤ t ∧ t ≤ b := hA1 t e4
      have hLab : a ≤ startRatio l t ∧ startRatio l t ≤ b := by
        unfold startRatio
        split_ifs with h
        · exact htab
        · exact hl.resolve_left h
      obtain ⟨b1, b2⟩ := eB hA2
      have hmin := le_min hLab.1 htab.1
      have hmax := max_le hLab.2 htab.2
      unfold joinAt
      split_ifs with h
      · exact ⟨hmin.trans (b1 j h).1, (b1 j h).2.trans hmax⟩
      · exact fI a b (Or.inr ⟨hmin.trans b2.1, b2.2.trans hmax⟩) (fun op h => hA op (List.mem_cons_of_mem _ h)) _ (by omega)
    · rw [hlen, ratiosFrom_call e4 hd h0, e3, Int.toNat_natCast]
      unfold startRatio at eL eR
      rw [← eL, fR, range_join]
      congr 1
      exact List.map_congr_left (fun j hj => (eR j (List.mem_range.1 hj)).symm)
    · intro j hj
      by_cases h : j < g
      · rw [posAt_congr (ρ := joinAt g ρ1 ρ2) (ρ' := ρ1) (fun i hi => by simp [joinAt, show i < g by omega])]
        obtain ⟨b1, b2⟩ := eb j h
        have b3 := eu b1
        have b4 := posAt_mono P ρ1 h.le
        omega
      · obtain ⟨i, rfl⟩ : ∃ i, j = g + i := ⟨j - g, by omega⟩
        rw [posAt_join]
        exact fV i (by omega)
    · rw [hlen, posAt_join]; exact T2
    · intro r hl hA
      have ht : t = r := by
        have := hA _ (List.mem_cons_self ..)
        simp only [AtRatio] at this
        rw [e4] at this; simpa using this
      have hst : startRatio l t = t := by
        unfold startRatio
        rcases hl with h | h
        · rw [if_pos h]
        · split_ifs
          · rfl
          · rw [h, ht]
      exact f4 r (Or.inr (by rw [e9 hst, ht])) (fun op h => hA op (List.mem_cons_of_mem _ h))
    · intro a b hl hA
      obtain ⟨hA1, hA2⟩ := hA _ (List.mem_cons_self ..)
      have htab : a ≤ t ∧ t ≤ b := hA1 t e4
      have hLab : a ≤ startRatio l t ∧ startRatio l t ≤ b := by
        unfold startRatio
        split_ifs with h
        · exact htab
        · exact hl.resolve_left h
      obtain ⟨b1, b2⟩ := eB hA2
      exact f7 a b (Or.inr ⟨(le_min hLab.1 htab.1).trans b2.1, b2.2.trans (max_le hLab.2 htab.2)⟩) (fun op h => hA op (List.mem_cons_of_mem _ h))
  | setRatio U V q o ops os hF ih =>
    intro P l st st' T hO hr
    unfold run at hr
    obtain ⟨⟨o1, st1⟩, hr1, hr⟩ := bind_ok hr
    obtain ⟨⟨os2, st2⟩, hr2, hr⟩ := bind_ok hr
    have hr := ok_inj hr
    simp only [Prod.mk.injEq, List.cons.injEq] at hr
    obtain ⟨⟨rfl, rfl⟩, rfl⟩ := hr
    have hq : q ≠ .nan := by
      have := hO _ (List.mem_cons_self ..)
      cases this with
      | setRatio _ h => exact h
    obtain ⟨e1, l1, T1, e2, e3, e4⟩ := track_setRatio T hq hr1
    have hout : outputs ch (o1 :: os2) = outputs ch os2 := by simp [outputs, e1]
    rw [hout]
    obtain ⟨ρ, f1, f2, f3, fI, fR, fU, fV, l2, T2, f4, f7⟩ := ih T1 (fun op h => hO op (List.mem_cons_of_mem _ h)) hr2
    refine ⟨ρ, f1, f2, ?_, ?_, by rw [← fR, e4]; rfl, fU, fV, l2, T2, ?_, ?_⟩
    · intro r hl hA
      have hA1 := hA _ (List.mem_cons_self ..)
      refine f3 r ?_ (fun op h => hA op (List.mem_cons_of_mem _ h))
      rcases e2 r hA1 with h | h
      · rw [h]; exact hl
      · exact Or.inr h
    · intro a b hl hA
      refine fI a b ?_ (fun op h => hA op (List.mem_cons_of_mem _ h))
      rcases e3 with h | ⟨q', h1, h2⟩
      · rw [h]; exact hl
      · rw [h2]; exact Or.inr ((hA _ (List.mem_cons_self ..)).1 q' h1)
    · intro r hl hA
      have hA1 := hA _ (List.mem_cons_self ..)
      refine f4 r ?_ (fun op h => hA op (List.mem_cons_of_mem _ h))
      rcases e2 r hA1 with h | h
      · rw [h]; exact hl
      · exact Or.inr h
    · intro a b hl hA
      refine f7 a b ?_ (fun op h => hA op (List.mem_cons_of_mem _ h))
      rcases e3 with h | ⟨q', h1, h2⟩
      · rw [h]; exact hl
      · rw [h2]; exact Or.inr ((hA _ (List.mem_cons_self ..)).1 q' h1)

end Verif
