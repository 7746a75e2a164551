import Verif.Proof.Glide
import Verif.Proof.Callback
import Verif.Proof.CallbackStream
import Verif.Props.Stream
import Verif.Props.Interp
import Verif.Props.Totals

/-!
# C90 for the interpolating converters
-/

namespace Verif
open Spec

/-- A call of ordinary size: at most `2^40` samples of input. -/
def MidSized (ch : ℕ) (d : SrcData) : Prop :=
  d.srcRatio ≠ .nan ∧ samples ch d.inputFrames ≤ 2 ^ 40 ∧ samples ch d.outputFrames ≤ 2 ^ 52

theorem MidSized.ordinary {ch : ℕ} {d : SrcData} (h : MidSized ch d) : Ordinary 1 ch d :=
  ⟨h.1, h.2.1.trans (by norm_num), h.2.2, by omega⟩

/-- The calls `ops`, with results `os`, present pieces of the `N` frames of `x` in order, from frame `U` on, and take in the frames before `V`. -/
inductive Pieces (x : ℕ → ℕ → F32) (ch N : ℕ) (r : ℚ) : ℕ → List Op → List Obs → ℕ → Prop
  | nil (U : ℕ) : Pieces x ch N r U [] [] U
  | call (U V : ℕ) (m : Mem) (d d' : SrcData) (o : Obs) (ops : List Op) (os : List Obs) : MidSized ch d → d.srcRatio.val = some r → Presents x ch U m d →
      U + d.inputFrames.toNat ≤ N → o.ret = 0 → o.data = some d' → Pieces x ch N r (U + d'.inputFramesUsed.toNat) ops os V →
      Pieces x ch N r U (.process m (some d) :: ops) (o :: os) V

/-- A new handle `st` has converted the `N` frames of `x` at the ratio `r`, in any number of calls of any sizes of which the last presented the rest
of the frames, at least one, and had room for more output than it generated, and has given `G` frames in all. -/
def FinishesPlain (ch : ℕ) (st : SrcState) (x : ℕ → ℕ → F32) (N : ℕ) (r : ℚ) (G : ℤ) : Prop :=
  ∃ (ops : List Op) (os : List Obs) (U : ℕ) (st1 st2 : SrcState) (m : Mem) (d d' : SrcData) (o : Obs),
    Pieces x ch N r 0 ops os U ∧ run ops st = .ok (os, st1) ∧
    MidSized ch d ∧ d.srcRatio.val = some r ∧ Presents x ch U m d ∧ 0 < d.inputFrames ∧ (N : ℤ) = U + d.inputFrames ∧
    (Op.process m (some d)).run st1 = .ok (o, st2) ∧ o.ret = 0 ∧ o.data = some d' ∧ d'.outputFramesGen < d.outputFrames ∧
    G = (outputs ch os).length + d'.outputFramesGen

/-- The rounding of the test that ends the output. -/
theorem test_err {ch n : ℕ} {P : Pos} (hch : 1 ≤ ch) (hchM : ch ≤ 8355967) (hnb : ch * n ≤ 2 ^ 40) (hk : P.k ≤ n) (h0 : 0 ≤ P.i) (h1 : P.i < 1) :
    |r64 (((ch * P.k : ℕ) : ℚ) + r64 ((ch : ℚ) * P.i)) - ch * (P.k + P.i)| ≤ ch * (1 / 1000) := by
  have hc : (1 : ℚ) ≤ ch := by exact_mod_cast hch
  have hcM : (ch : ℚ) ≤ 8355967 := by exact_mod_cast hchM
  have hck : ((ch * P.k : ℕ) : ℚ) ≤ 2 ^ 40 := by exact_mod_cast (Nat.mul_le_mul_left ch hk).trans hnb
  have hck0 : (0 : ℚ) ≤ ((ch * P.k : ℕ) : ℚ) := by positivity
  have a := r64_err ((ch : ℚ) * P.i)
  have hi0 : 0 ≤ (ch : ℚ) * P.i := by positivity
  have hi1 : (ch : ℚ) * P.i ≤ 8355967 := by nlinarith
  rw [abs_of_nonneg hi0] at a
  have hr0 : 0 ≤ r64 ((ch : ℚ) * P.i) := rq_nonneg hi0
  have b := r64_err (((ch * P.k : ℕ) : ℚ) + r64 ((ch : ℚ) * P.i))
  rw [abs_of_nonneg (add_nonneg hck0 hr0)] at b
  generalize r64 ((ch : ℚ) * P.i) = w at *
  generalize r64 (((ch * P.k : ℕ) : ℚ) + w) = v at *
  have e : (ch : ℚ) * (P.k + P.i) = ((ch * P.k : ℕ) : ℚ) + ch * P.i := by push_cast; ring
  rw [e]
  rw [abs_le] at *
  constructor <;> linarith [a.1, a.2, b.1, b.2]

theorem cont_time {K : Kind} {ch n : ℕ} {P : Pos} (hch : 1 ≤ ch) (hchM : ch ≤ 8355967) (hnb : ch * n ≤ 2 ^ 40) (hn : 1 ≤ n) (h : Cont (K.G ch n) P)
    (h0 : 0 ≤ P.i) (h1 : P.i < 1) : (P.k : ℚ) + P.i ≤ n + 1 / 1000 := by
  have hk := (Kind.cont_bound hch hchM (by omega) hn h h0).1
  have t := (abs_le.1 (test_err hch hchM hnb hk h0 h1)).1
  have hc : (0 : ℚ) < ch := by exact_mod_cast hch
  rcases h with h | h
  · rw [h]
    have : (1 : ℚ) ≤ n := by exact_mod_cast hn
    push_cast
    linarith
  · have g : r64 (((ch * P.k : ℕ) : ℚ) + r64 ((ch : ℚ) * P.i)) ≤ ((ch * n : ℕ) : ℚ) := by
      cases K
      · exact h
      · exact le_of_lt h
    have : (ch : ℚ) * (P.k + P.i) ≤ ch * (n + 1 / 1000) := by
      push_cast at g t
      linarith
    exact le_of_mul_le_mul_left this hc

theorem stop_time {K : Kind} {ch n : ℕ} {P : Pos} (hch : 1 ≤ ch) (hchM : ch ≤ 8355967) (hnb : ch * n ≤ 2 ^ 40) (h : ¬ Cont (K.G ch n) P)
    (h0 : 0 ≤ P.i) (h1 : P.i < 1) : (n : ℚ) - 1 / 1000 ≤ P.k + P.i := by
  rcases Nat.lt_or_ge P.k n with hk | hk
  · have t := (abs_le.1 (test_err hch hchM hnb hk.le h0 h1)).2
    have hc : (0 : ℚ) < ch := by exact_mod_cast hch
    have g : ((ch * n : ℕ) : ℚ) ≤ r64 (((ch * P.k : ℕ) : ℚ) + r64 ((ch : ℚ) * P.i)) := by
      have h : ¬ K.G ch n P := fun a => h (Or.inr a)
      cases K
      · exact le_of_lt (not_le.1 h)
      · exact not_lt.1 h
    have : (ch : ℚ) * (n - 1 / 1000) ≤ ch * (P.k + P.i) := by
      push_cast at g t
      linarith
    exact le_of_mul_le_mul_left this hc
  · have : (n : ℚ) ≤ P.k := by exact_mod_cast hk
    linarith

section
variable {K : Kind} {x : ℕ → ℕ → F32} {ch U : ℕ} {P : Pos} {l : ℚ} {st : SrcState}

/-- When the frames of a call are generated, and when it stops. -/
theorem call_times (T : Track K x ch U P l st) {m : Mem} {d d' : SrcData} (hO : MidSized ch d) {r : ℚ} (hA : d.srcRatio.val = some r) (hl : l = 0 ∨ l = r)
    (hin : 0 < d.inputFrames) {o : Obs} {st' : SrcState} (hr : (Op.process m (some d)).run st = .ok (o, st')) (h0 : o.ret = 0) (hd : o.data = some d') :
    ∃ g : ℕ, d'.outputFramesGen = g ∧
      (∀ j < g, ((posAt P (fun _ => r) j).k : ℚ) + (posAt P (fun _ => r) j).i ≤ U + d.inputFrames + 1 / 1000) ∧
      ((g : ℤ) < d.outputFrames → (U : ℚ) + d.inputFrames - 1 / 1000 ≤ (posAt P (fun _ => r) g).k + (posAt P (fun _ => r) g).i) := by
  obtain ⟨p, before, V, hPp, -, -⟩ := T.view
  have hmode := T.mode
  rcases ordinary_cases V.hch hmode hO.ordinary with ⟨e, hf⟩ | ⟨_, _, _, t, g⟩
  · exfalso
    obtain ⟨d', hd'⟩ := process_rejects (m := m) hf (by
        rintro s y h1 h2; cases h1; cases h2
        have b1 := hO.ordinary.inSize
        have b2 := hO.ordinary.outSize
        rw [V.hch]
        exact ⟨by positivity, by omega, by omega⟩)
    have ha := firstFailing_arg hf
    simp only [Op.run, hd'] at hr
    have hr := ok_inj hr
    simp only [Prod.mk.injEq] at hr
    rw [← hr.1] at h0
    dsimp only at h0
    unfold ArgError at ha
    omega
  obtain rfl : t = r := by
    have := g.ht
    rw [hA] at this
    exact (Option.some.inj this).symm
  obtain ⟨gen, s, h1, h2, h3, h4, -, -⟩ := call_spec (m := m) V hmode g (by omega) (Or.inr (by
      simp only [Op.run] at hr
      obtain ⟨w, hw, _⟩ := bind_ok hr
      exact ⟨w, hw⟩))
  simp only [Op.run, h1] at hr
  have hr := ok_inj hr
  simp only [Prod.mk.injEq, Option.getD_some] at hr
  obtain ⟨rfl, rfl⟩ := hr
  cases hd
  have hst : startRatio l t = t := by rcases hl with rfl | rfl <;> simp [startRatio]
  have hdi : (d.inputFrames.toNat : ℤ) = d.inputFrames := by omega
  have hdq : ((d.inputFrames.toNat : ℕ) : ℚ) = d.inputFrames := by exact_mod_cast congrArg (Int.cast (R := ℚ)) hdi
  have hnb : ch * d.inputFrames.toNat ≤ 2 ^ 40 := by
    have := hO.2.1
    unfold samples at this
    rw [max_eq_left hin.le, ← hdi, mul_comm] at this
    exact_mod_cast this
  have hpos : ∀ j, posAt P (fun _ => t) j = ⟨U + (callPos ch d.outputFrames.toNat p l t j).k, (callPos ch d.outputFrames.toNat p l t j).i⟩ := by
    intro j
    rw [hPp, ← posAt_congr (ρ := ratioAt (startRatio l t) t ch d.outputFrames.toNat) (ρ' := fun _ => t) (fun i _ => by simp [ratioAt, hst])]
    exact posAt_shift (Pos.ofQ p) U _ j
  have hfr : ∀ j, 0 ≤ (callPos ch d.outputFrames.toNat p l t j).i ∧ (callPos ch d.outputFrames.toNat p l t j).i < 1 := fun j => posAt_frac (ofQ_frac p) j
  refine ⟨gen, rfl, fun j hj => ?_, fun hg => ?_⟩
  · have := cont_time V.hch1 V.hchM hnb (by omega) (h3 j hj) (hfr j).1 (hfr j).2
    rw [hpos j]
    rw [hdq] at this
    push_cast
    linarith
  · have := stop_time V.hch1 V.hchM hnb (h4 (by omega)) (hfr gen).1 (hfr gen).2
    rw [hpos gen]
    rw [hdq] at this
    push_cast
    linarith

end

/-- The times of the frames that come out before the last call. -/
theorem pieces_times {K : Kind} {x : ℕ → ℕ → F32} {ch N : ℕ} {r : ℚ} : ∀ {U V : ℕ} {ops : List Op} {os : List Obs}, Pieces x ch N r U ops os V →
    ∀ {P : Pos} {l : ℚ} {st st' : SrcState}, Track K x ch U P l st → (l = 0 ∨ l = r) → run ops st = .ok (os, st') →
    (∀ j < (outputs ch os).length, ((posAt P (fun _ => r) j).k : ℚ) + (posAt P (fun _ => r) j).i ≤ N + 1 / 1000) ∧
    ∃ l', Track K x ch V (posAt P (fun _ => r) (outputs ch os).length) l' st' ∧ (l' = 0 ∨ l' = r) := by
  intro U V ops os hF
  induction hF with
  | nil U =>
    intro P l st st' T hl hr
    have hr := ok_inj hr
    simp only [Prod.mk.injEq, true_and] at hr
    subst hr
    exact ⟨fun j hj => by simp [outputs] at hj, l, T, hl⟩
  | call U V m d d' o ops os hM hA hP hN h0 hd hF ih =>
    intro P l st st' T hl hr
    unfold run at hr
    obtain ⟨⟨o1, st1⟩, hr1, hr⟩ := bind_ok hr
    obtain ⟨⟨os2, st2⟩, hr2, hr⟩ := bind_ok hr
    have hr := ok_inj hr
    simp only [Prod.mk.injEq, List.cons.injEq] at hr
    obtain ⟨⟨rfl, rfl⟩, rfl⟩ := hr
    obtain ⟨d1, ρ1, g, u, t, e1, e2, _, e3, _, e4, e5, e6, e7, e8, eb, _, eu, ek, l1, T1, vl1, e9, eB, eR, eL⟩ := track_call T hM.ordinary hP hr1 h0
    rw [hd] at e1
    simp only [Option.some.injEq] at e1
    subst e1
    rw [hA] at e4
    cases e4
    have hst : startRatio l r = r := by rcases hl with rfl | rfl <;> simp [startRatio]
    rw [e2, Int.toNat_natCast] at ih
    have hg : ∀ j ≤ g, posAt P ρ1 j = posAt P (fun _ => r) j := fun j hj => posAt_congr (fun i hi => e7 hst i (by omega))
    rw [hg g (le_refl _)] at T1
    obtain ⟨f1, l2, T2, f2⟩ := ih T1 (Or.inr (e9 hst)) hr2
    have hlen1 : (outOf ch o1).length = g := by rw [e8]; simp
    have hlen : (outputs ch (o1 :: os2)).length = g + (outputs ch os2).length := by
      simp only [outputs, List.flatMap_cons, List.length_append, hlen1]
    rw [hlen]
    have happ : ∀ j, posAt (posAt P (fun _ => r) g) (fun _ => r) j = posAt P (fun _ => r) (g + j) := fun j => by
      rw [posAt_append]
    simp only [happ] at f1 T2
    refine ⟨fun j hj => ?_, l2, T2, f2⟩
    by_cases hjg : j < g
    · have hin := (eb j hjg).1
      obtain ⟨g', g1, g2, -⟩ := call_times T hM hA hl hin hr1 h0 hd
      have : g' = g := by rw [e3] at g1; exact_mod_cast g1.symm
      subst this
      have a := g2 j hjg
      have b : (U : ℚ) + d.inputFrames ≤ N := by
        exact_mod_cast (by omega : (U : ℤ) + d.inputFrames ≤ N)
      linarith
    · obtain ⟨i, rfl⟩ : ∃ i, j = g + i := ⟨j - g, by omega⟩
      exact f1 i (by omega)

/-- C90 for zero order hold and linear: two complete conversions of the same recording at the same ratio give the same number of frames or numbers that
differ by one, however the recording is cut into calls (of at most `2^40` samples each). -/
theorem C90_interp (cfg : Config) (type type' : ℤ) (ht : type = SRC_ZERO_ORDER_HOLD ∨ type = SRC_LINEAR) (ht' : type' = SRC_ZERO_ORDER_HOLD ∨ type' = SRC_LINEAR)
    (ch ch' : ℕ) (hc : ch ≤ 8355967) (hc' : ch' ≤ 8355967) (e e' : ℤ) (st st' : SrcState) (h : srcNew cfg type ch = .ok (e, some st)) (h' : srcNew cfg type' ch' = .ok (e', some st'))
    (x x' : ℕ → ℕ → F32) (N : ℕ) (r : ℚ) (G G' : ℤ) (hG : FinishesPlain ch st x N r G) (hG' : FinishesPlain ch' st' x' N r G') : |G - G'| ≤ 1 := by
  have fin : ∀ (type : ℤ) (_ : type = SRC_ZERO_ORDER_HOLD ∨ type = SRC_LINEAR) (ch : ℕ) (_ : ch ≤ 8355967) (e : ℤ) (st : SrcState) (_ : srcNew cfg type ch = .ok (e, some st))
      (x : ℕ → ℕ → F32) (G : ℤ) (_ : FinishesPlain ch st x N r G),
      ∃ n : ℕ, G = n ∧ ValidRatio r ∧ (∀ j < n, timeAt (fun _ => r) j ≤ N + 1 / 1000) ∧ (N : ℚ) - 1 / 1000 ≤ timeAt (fun _ => r) n := by
    intro type ht ch hc e st h x G hG
    obtain ⟨K, rfl⟩ := kind_of ht
    obtain ⟨ops, os, U, st1, st2, m, d, d', o, hF, hr, hM, hA, hP, hin, hN, hrun, hret, hdata, hroom, hG⟩ := hG
    obtain ⟨a1, l, T, hl⟩ := pieces_times hF (new_track x h hc) (Or.inl rfl) hr
    obtain ⟨g, b1, b2, b3⟩ := call_times T hM hA hl hin hrun hret hdata
    obtain ⟨_, _, _, _, t, -, -, -, -, -, e4, vr, -⟩ := track_call T hM.ordinary hP hrun hret
    rw [hA] at e4
    cases e4
    have hNq : (N : ℚ) = U + d.inputFrames := by exact_mod_cast congrArg (Int.cast (R := ℚ)) hN
    have happ : ∀ j, posAt (posAt ⟨0, 0⟩ (fun _ => r) (outputs ch os).length) (fun _ => r) j = posAt ⟨0, 0⟩ (fun _ => r) ((outputs ch os).length + j) := fun j => by
      rw [posAt_append]
    simp only [happ] at b2 b3
    refine ⟨(outputs ch os).length + g, by rw [hG, b1]; push_cast; ring, vr, fun j hj => ?_, ?_⟩
    · by_cases hj1 : j < (outputs ch os).length
      · exact a1 j hj1
      · obtain ⟨i, rfl⟩ : ∃ i, j = (outputs ch os).length + i := ⟨j - (outputs ch os).length, by omega⟩
        rw [hNq]
        exact b2 i (by omega)
    · rw [hNq]
      exact b3 (by omega)
  obtain ⟨n, rfl, hv, a, b⟩ := fin type ht ch hc e st h x G hG
  obtain ⟨n', rfl, -, a', b'⟩ := fin type' ht' ch' hc' e' st' h' x' G' hG'
  have key : ∀ n n' : ℕ, (N : ℚ) - 1 / 1000 ≤ timeAt (fun _ => r) n → (∀ j < n', timeAt (fun _ => r) j ≤ N + 1 / 1000) → n' ≤ n + 1 := by
    intro n n' b a
    by_contra hlt
    have a := a (n + 1) (by omega)
    have := (time_gap (ρ := fun _ => r) (j := n) hv).1
    linarith
  rw [abs_le]
  have k1 := key n n' b a'
  have k2 := key n' n b' a
  constructor <;> omega

theorem silentCall_mid {n e : ℤ} (h0 : 0 ≤ n) (h1 : n ≤ 100) : MidSized 2 (silentCall n e) := by
  refine ⟨(silentCall_sized h0 h1).1, ?_, by norm_num [silentCall, sincCall, samples]⟩
  simp only [silentCall, samples]
  rw [max_eq_left h0]
  push_cast
  linarith

theorem silentCall_plain {K : Kind} {U : ℕ} {P : Pos} {l : ℚ} {st : SrcState} (T : Track K (fun _ _ => zero32) 2 U P l st) {n e : ℤ} (h0 : 3 ≤ n) (h1 : n ≤ 100) :
    ∃ (o : Obs) (st1 : SrcState), (Op.process (fun _ => zero32) (some (silentCall n e))).run st = .ok (o, st1) ∧ o.ret = 0 := by
  have hM := (silentCall_mid (n := n) (e := e) (by omega) h1).ordinary
  refine call_succeeds T ⟨hM.ratio, hM.inSize, hM.outSize, Or.inr ?_⟩ (by simp [MissingBuffer, silentCall, sincCall]) ?_ ?_ _
  · simp only [silentCall]
    cases K <;> simp only [Kind.lo] <;> omega
  · obtain ⟨h, he⟩ := Fl.eq_fin_of_val one64_val
    intro b
    simp only [silentCall, sincCall, he, BadRatio] at b
    norm_num at b
  · intro f
    simp [Clash, silentCall, sincCall, samples] at f
    omega

/-- After some calls that took in `U` frames of the silence, a last call with the rest finishes it. -/
theorem silence_plain {K : Kind} {e : ℤ} {st st1 : SrcState} (hst : srcNew ⟨none, none, none⟩ K.type (2 : ℕ) = .ok (e, some st)) {ops : List Op} {os : List Obs} {U : ℕ}
    (hr : run ops st = .ok (os, st1)) (hF : Pieces (fun _ _ => zero32) 2 100 1 0 ops os U) (hU : U ≤ 40) : ∃ G, FinishesPlain 2 st (fun _ _ => zero32) 100 1 G := by
  obtain ⟨-, l, T, hl⟩ := pieces_times hF (new_track (fun _ _ => zero32) hst (by norm_num)) (Or.inl rfl) hr
  obtain ⟨o, st2, r1, r2⟩ := silentCall_plain T (n := ((100 - U : ℕ) : ℤ)) (e := 1) (by omega) (by omega)
  have hM := silentCall_mid (n := ((100 - U : ℕ) : ℤ)) (e := 1) (by omega) (by omega)
  obtain ⟨d', _, _, _, _, hd', -⟩ := track_call T hM.ordinary (fun k c _ _ => rfl) r1 r2
  have hin : 0 < (silentCall ((100 - U : ℕ) : ℤ) 1).inputFrames := by simp only [silentCall]; omega
  obtain ⟨g, b1, b2, -⟩ := call_times T hM one64_val hl hin r1 r2 hd'
  refine ⟨_, ops, os, U, st1, st2, fun _ => zero32, _, d', o, hF, hr, hM, one64_val, fun k c _ _ => rfl, hin, by simp only [silentCall]; omega, r1, r2, hd', ?_, rfl⟩
  rw [b1]
  by_contra hc
  have hc : 1000 ≤ g := by simp only [silentCall, sincCall] at hc; omega
  have b := b2 999 (by omega)
  rw [← posAt_append, posAt_one] at b
  have hu : ((silentCall ((100 - U : ℕ) : ℤ) 1).inputFrames : ℚ) ≤ 100 := by
    simp only [silentCall]
    exact_mod_cast (by omega : ((100 - U : ℕ) : ℤ) ≤ 100)
  have hU' : (U : ℚ) ≤ 40 := by exact_mod_cast hU
  push_cast at b
  have : (0 : ℚ) ≤ ((outputs 2 os).length : ℚ) := by positivity
  linarith

/-- Non-vacuity of `C90_interp`: a hundred frames of silence converted at the ratio 1 in one call, and in two calls of which the first presents forty. -/
example (K : Kind) : ∃ (st : SrcState) (G G' : ℤ), srcNew ⟨none, none, none⟩ K.type (2 : ℕ) = .ok (0, some st) ∧
    FinishesPlain 2 st (fun _ _ => zero32) 100 1 G ∧ FinishesPlain 2 st (fun _ _ => zero32) 100 1 G' ∧ |G - G'| ≤ 1 := by
  obtain ⟨st, hst⟩ : ∃ st, srcNew ⟨none, none, none⟩ K.type (2 : ℕ) = .ok (0, some st) := by
    cases K
    · exact ⟨_, zoh2_new⟩
    · refine ⟨{ stateInit .linear 2 with priv := .linear (linearReset 2 (interpInit 2)) }, ?_⟩
      simp [srcNew, Config.table, Kind.type, SRC_LINEAR, SRC_ZERO_ORDER_HOLD, SRC_SINC_BEST_QUALITY, SRC_SINC_MEDIUM_QUALITY, SRC_SINC_FASTEST,
        linearStateNew, assertM, bind, Except.bind, pure, Except.pure, resetPriv, stateInit, Err.NO_ERROR]
  have hK : K.type = SRC_ZERO_ORDER_HOLD ∨ K.type = SRC_LINEAR := by cases K; exacts [Or.inl rfl, Or.inr rfl]
  obtain ⟨G, hG⟩ := silence_plain hst (ops := []) (os := []) rfl (.nil _) (by norm_num)
  have T := new_track (fun _ _ => zero32) hst (by norm_num)
  have hM := silentCall_mid (n := 40) (e := 0) (by norm_num) (by norm_num)
  obtain ⟨o, st1, r1, r2⟩ := silentCall_plain T (n := 40) (e := 0) (by norm_num) (by norm_num)
  obtain ⟨d', _, g, u, _, hd', hu, hu', -⟩ := track_call T hM.ordinary (fun k c _ _ => rfl) r1 r2
  obtain ⟨G', hG'⟩ := silence_plain hst (run_one r1) (.call 0 _ _ _ d' _ _ _ hM one64_val (fun k c _ _ => rfl) (by simp [silentCall]) r2 hd' (.nil _)) (by
    simp only [silentCall] at hu'
    omega)
  exact ⟨st, G, G', hst, hG, hG', C90_interp _ _ _ hK hK 2 2 (by norm_num) (by norm_num) _ _ st st hst hst _ _ 100 1 G G' hG hG'⟩

end Verif
