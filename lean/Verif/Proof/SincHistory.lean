import Verif.Proof.SincTables
import Verif.Proof.InterpHistory

/-! Histories of the sinc converters. -/

namespace Verif
open Spec

/-- Moving up, the interpolated ratio stays between the two ratios. -/
theorem sincRatio_between {l t : ℚ} {ch o g : ℕ} (hl : Rep0 f64 l) (ht : Rep0 f64 t) (vl : ValidRatio l) (vt : ValidRatio t) (hlt : l ≤ t)
    (hg : g < o) (hch : 1 ≤ ch) (hn : ch * o ≤ 2 ^ 50) : l ≤ sincRatioAt l t ch o g ∧ sincRatioAt l t ch o g ≤ t := by
  unfold sincRatioAt
  split_ifs with h
  · exact ⟨le_refl _, hlt⟩
  rcases eq_or_ne l t with e | e
  · subst e
    exfalso; apply h
    rw [sub_self, rq_zero, abs_zero]
    exact rq_nonneg (by norm_num)
  have hgo : ch * g + 1 ≤ ch * o := by
    have : ch * (g + 1) ≤ ch * o := Nat.mul_le_mul_left _ hg
    have e : ch * (g + 1) = ch * g + ch := by ring
    omega
  have hnq : (0 : ℚ) < ((ch * o : ℕ) : ℚ) := by exact_mod_cast (by omega : 0 < ch * o)
  have hG0 : (0 : ℚ) ≤ ((ch * g : ℕ) : ℚ) := by positivity
  have hd0 : 0 ≤ t - l := by linarith
  have hdiff := ratio_diff hl ht vl vt e
  rw [abs_sub_comm, abs_of_nonneg hd0] at hdiff
  have h0 : 0 ≤ r64 (r64 (((ch * g : ℕ) : ℚ) * r64 (t - l)) / ((ch * o : ℕ) : ℚ)) :=
    rq_nonneg (div_nonneg (rq_nonneg (mul_nonneg hG0 (rq_nonneg hd0))) hnq.le)
  refine ⟨le_rq hl (by linarith), rq_le ht ?_⟩
  rcases Nat.eq_zero_or_pos (ch * g) with hz | hz
  · rw [hz]
    simp only [Nat.cast_zero, zero_mul, rq_zero, zero_div, add_zero]
    exact hlt
  have hG1 : (1 : ℚ) ≤ ((ch * g : ℕ) : ℚ) := by exact_mod_cast hz
  have hgo' : ((ch * g : ℕ) : ℚ) + 1 ≤ ((ch * o : ℕ) : ℚ) := by exact_mod_cast hgo
  have hn' : ((ch * o : ℕ) : ℚ) ≤ 2 ^ 50 := by exact_mod_cast hn
  generalize ((ch * g : ℕ) : ℚ) = G at *
  generalize ((ch * o : ℕ) : ℚ) = n at *
  have hd' : p2 (-60) ≤ r64 (t - l) := le_rq (rep0_p2 (by decide)) hdiff
  have e1 := (abs_le.1 (rel_err (q := t - l) (by rw [abs_of_nonneg hd0]; exact (p2_le (by norm_num)).trans hdiff))).2
  rw [abs_of_nonneg hd0] at e1
  generalize hdd : t - l = d at *
  generalize r64 d = d' at *
  have hp60 : 0 < p2 (-60) := p2_pos _
  have hGd : d' ≤ G * d' := by nlinarith
  have hGd0 : 0 ≤ G * d' := by linarith
  have e2 := (abs_le.1 (rel_err (q := G * d') (by
    rw [abs_of_nonneg hGd0]; exact (p2_le (by norm_num : (-1022 : ℤ) ≤ -60)).trans (hd'.trans hGd)))).2
  rw [abs_of_nonneg hGd0] at e2
  have hw : p2 (-60) ≤ r64 (G * d') := le_rq (rep0_p2 (by decide)) (hd'.trans hGd)
  generalize r64 (G * d') = w at *
  have hw0 : 0 < w := by linarith
  have hwn : 0 < w / n := div_pos hw0 hnq
  have e3 := (abs_le.1 (rel_err (q := w / n) (by
    rw [abs_of_pos hwn]
    have : p2 (-110) ≤ w / n := by
      rw [le_div_iff₀ hnq]
      calc p2 (-110) * n ≤ p2 (-110) * 2 ^ 50 := mul_le_mul_of_nonneg_left hn' (p2_pos _).le
        _ = p2 (-60) := by norm_num [p2]
        _ ≤ w := hw
    exact (p2_le (by norm_num)).trans this))).2
  rw [abs_of_pos hwn] at e3
  have h53 : p2 (-53) = 1 / 9007199254740992 := by norm_num [p2]
  rw [h53] at e1 e2 e3
  have hfin : w / n * (1 + 1 / 9007199254740992) ≤ d := by
    rw [div_mul_eq_mul_div, div_le_iff₀ hnq]
    have hd0' : 0 < d := by linarith
    have a1 : d' ≤ d * (1 + 1 / 9007199254740992) := by linarith
    have a2 : w ≤ G * d' * (1 + 1 / 9007199254740992) := by linarith
    have a3 : G * d' ≤ G * (d * (1 + 1 / 9007199254740992)) := mul_le_mul_of_nonneg_left a1 hG0
    have a4 : G * d ≤ (n - 1) * d := mul_le_mul_of_nonneg_right (by linarith) hd0'.le
    have a5 : n * d ≤ 2 ^ 50 * d := mul_le_mul_of_nonneg_right hn' hd0'.le
    have a4' : G * d ≤ n * d - d := by linarith
    have hnd : 0 < n * d := mul_pos hnq hd0'
    generalize hGD : G * d = gd at *
    have a3' : G * d' ≤ gd * (1 + 1 / 9007199254740992) := by rw [← hGD]; linarith
    rw [mul_comm d n]
    generalize n * d = nd at *
    generalize G * d' = gd' at *
    norm_num at a5 ⊢
    linarith
  have : r64 (w / n) ≤ d := by linarith
  linarith

theorem Geom.reach_floor {N inc B : ℤ} (G : Geom N inc B) (hB : B = 3 * sincReach N inc (1 / 256)) {r : ℚ} (hr : 1 / 180 ≤ r) :
    4 * sincReach N inc r + 4 ≤ B := by
  have h1 := G.reach_anti (r := 1 / 180) (by norm_num) hr
  have h2 := G.reach_lower (r := 1 / 256) (by norm_num)
  rw [min_eq_left (by norm_num)] at h2
  obtain ⟨q1, q2⟩ := G.q_bounds
  obtain ⟨c1, c2, c3⟩ := G.c0_bounds
  have h3 : (sincReach N inc (1 / 180) : ℚ) ≤ ((N + 2 : ℤ) : ℚ) / inc * 180 + 2 := by
    unfold sincReach
    simp only
    rw [if_pos (by norm_num)]
    generalize ((N + 2 : ℤ) : ℚ) / inc = q at *
    generalize r64 q = c at *
    have hp : p2 (-34) ≤ 1 / 1000000000 := by norm_num [p2]
    have c3' := abs_le.1 (c3.trans hp)
    have he := abs_rq_sub_le_of_lt (f := f64) (q := c / (1 / 180)) (k := 28)
      (by rw [abs_of_pos (by positivity), show p2 28 = 268435456 by norm_num [p2], div_lt_iff₀ (by norm_num)]; linarith) (by decide)
    have he' : |r64 (c / (1 / 180)) - c / (1 / 180)| ≤ 1 / 10000000 := he.trans (by norm_num [f64, p2])
    have hn := abs_rne_sub_le (r64 (c / (1 / 180)))
    rw [abs_le] at he' hn
    have e : c / (1 / 180) = c * 180 := by ring
    rw [e] at he' hn ⊢
    push_cast
    linarith
  have e : ((N + 2 : ℤ) : ℚ) / inc / (1 / 256) = ((N + 2 : ℤ) : ℚ) / inc * 256 := by ring
  rw [e] at h2
  have h4 : ((4 * sincReach N inc (1 / 180) + 4 : ℤ) : ℚ) ≤ ((3 * sincReach N inc (1 / 256) : ℤ) : ℚ) := by
    push_cast; push_cast at h2 h3 q1; linarith
  have h5 : 4 * sincReach N inc (1 / 180) + 4 ≤ 3 * sincReach N inc (1 / 256) := by exact_mod_cast h4
  omega

/-- At ratio 1 and above the filter reaches least. -/
theorem Geom.reach_one {N inc B : ℤ} (G : Geom N inc B) {r : ℚ} (h0 : 0 < r) : sincReach N inc 1 ≤ sincReach N inc r := by
  rcases le_total r 1 with h | h
  · exact G.reach_anti h0 h
  · have : sincReach N inc r = sincReach N inc 1 := by
      unfold sincReach
      dsimp only
      rw [if_neg (by linarith), if_neg (by norm_num)]
    omega

theorem sincRatioAt_between {l t : ℚ} {ch o g : ℕ} (hl : Rep0 f64 l) (ht : Rep0 f64 t) (vl : ValidRatio l) (vt : ValidRatio t)
    (hch : 1 ≤ ch) (hg : g < o) (hb : ch * o ≤ 2 ^ 50) : min l t ≤ sincRatioAt l t ch o g ∧ sincRatioAt l t ch o g ≤ max l t := by
  unfold sincRatioAt
  split_ifs with h
  · exact ⟨min_le_left _ _, le_max_left _ _⟩
  · have hlt : ch * g < ch * o := Nat.mul_lt_mul_of_pos_left hg (by omega)
    have := interpQ_between (g := (ch * g : ℕ)) (n := (ch * o : ℕ)) hl ht vl vt (by positivity) (by exact_mod_cast hlt) (by exact_mod_cast hb)
    unfold interpQ at this
    rwa [Int.cast_natCast, Int.cast_natCast] at this

/-- The filter reach that an unset ratio stands for. -/
def floorReach (B : ℤ) (N inc : ℤ) (l : ℚ) : ℤ := if l = 0 then B else sincReach N inc l

/-- State of a handle in a history, in the given phase. -/
def SUse (N inc B : ℤ) (ch : ℕ) (l : ℚ) (f : SincFilter) (h P : ℤ) : Phase → Prop
  | .endless => f.bRealEnd < 0
  | .live => f.bRealEnd < 0 ∧ (l = 0 ∨ 1 / 180 ≤ l)
  | .flushing q => (l = 0 ∨ 1 / 180 ≤ l) ∧ (0 ≤ f.bRealEnd → ch = 1 ∨ (l ≠ 0 ∧ 0 < q ∧ sincReach N inc l ≤ P ∧ sincReach N inc q ≤ P))
  | .rising q => ch = 1 → (l = 0 ∨ min 1 l ≤ q) ∧ floorReach B N inc l ≤ h

/-- A handle in a history. -/
structure SHist (co : ℤ → F32) (N inc B : ℤ) (ch : ℕ) (p : Phase) (st : SrcState) : Prop where
  mode : st.mode = .process
  hB : B = 3 * sincReach N inc (1 / 256)
  view : ∃ P l y f D k R i h, SView (some P) co N inc B st ch l y f D k R i h ∧ SUse N inc B ch l f h P p

/-- The stream of a handle continued by the input of a call. -/
def extendBy (y : ℤ → ℕ → F32) (m : Mem) (d : SrcData) (ch R n : ℕ) (z : ℤ) (c : ℕ) : F32 :=
  if z < R then y z c else if z < R + n then m (d.dataIn + ((ch * (z - R).toNat + c : ℕ) : ℤ)) else zero32

section
variable {co : ℤ → F32} {N inc B : ℤ} {ch : ℕ} {st : SrcState} {d : SrcData}

theorem SView.congr {sg : Guard} {l : ℚ} {y y' : ℤ → ℕ → F32} {f : SincFilter} {D : ℤ} {k R : ℕ} {i : ℚ} {h : ℤ} (V : SView sg co N inc B st ch l y f D k R i h)
    (hy : ∀ z : ℤ, (z < R ∨ 0 ≤ f.bRealEnd) → y' z = y z) : SView sg co N inc B st ch l y' f D k R i h :=
  ⟨V.geo, V.hvt, V.hch, V.hch1, V.hchM, V.hpriv, V.buf.congr hy, V.hpos, V.hi, V.hl, V.vl⟩

theorem floorReach_start {l t : ℚ} (G : Geom N inc B) {h : ℤ} (hf : floorReach B N inc l ≤ h) (vl : l = 0 ∨ ValidRatio l) (vt : ValidRatio t) :
    sincReach N inc (startRatio l t) ≤ h := by
  unfold floorReach at hf
  unfold startRatio
  rcases vl with rfl | vl
  · rw [if_pos rfl] at hf
    rw [if_pos rfl]
    have := G.reach_le vt.1
    have := G.reach_ge vt.1
    omega
  · have hl0 : l ≠ 0 := by have := vl.1; intro hc; rw [hc] at this; norm_num at this
    rw [if_neg hl0] at hf
    rw [if_neg hl0]
    exact hf

/-- Ordinary arguments in the sense of the other converters. -/
theorem sincSized_ordinary (hO : SincSized ch d) : Ordinary 0 ch d :=
  ⟨hO.ratio, by have := hO.inSize; norm_num at this ⊢; omega, by have := hO.outSize; norm_num at this ⊢; omega, by omega⟩

/-- Before the end of the input, and for one channel, the guard does not matter. -/
theorem SView.reguard {P P' : ℤ} {l : ℚ} {y : ℤ → ℕ → F32} {f : SincFilter} {D : ℤ} {k R : ℕ} {i : ℚ} {h : ℤ}
    (V : SView (some P) co N inc B st ch l y f D k R i h) (hP : f.bRealEnd < 0 ∨ ch = 1) : SView (some P') co N inc B st ch l y f D k R i h := by
  refine ⟨V.geo, V.hvt, V.hch, V.hch1, V.hchM, V.hpriv, ?_, V.hpos, V.hi, V.hl, V.vl⟩
  have S := V.buf
  refine ⟨S.hN, S.hinc, S.hco, S.hlen, S.hcur, S.hD0, ?_, S.hle, S.hbe, S.hlt, S.hD, S.hneg, S.hbuf⟩
  rcases S.hend with h1 | ⟨a, b, c, _, e⟩
  · exact Or.inl h1
  · exact Or.inr ⟨a, b, c, fun _ _ => Or.inl (hP.resolve_left (by omega)), e⟩

theorem riseTo_valid {q t : ℚ} {r : F64} (hr : r.val = some t) (vt : ValidRatio t) : riseTo q r = t := by
  unfold riseTo
  rw [hr]
  dsimp only
  rw [if_pos ⟨vt.1, vt.2⟩]

theorem Geom.reach_cap (G : Geom N inc B) {r : ℚ} (h0 : 0 < r) : sincReach N inc (min 1 r) = sincReach N inc r := by
  rcases le_total 1 r with h | h
  · rw [min_eq_left h]
    unfold sincReach
    dsimp only
    rw [if_neg (lt_irrefl _), if_neg (by linarith)]
  · rw [min_eq_right h]

theorem le_riseTo {q : ℚ} {r : F64} (h : AtLeast q r) : q ≤ riseTo q r := by
  unfold riseTo
  cases hr : r.val with
  | none => exact le_refl _
  | some v =>
    dsimp only
    split_ifs with hv
    · exact h v hr hv.1 hv.2
    · exact le_refl _

/-- A rejected call. -/
theorem SUse.next {l : ℚ} {r : F64} {eoi h P : ℤ} {f : SincFilter} {p : Phase} (G : Geom N inc B) (hU : SUse N inc B ch l f h P p) (hn : p.Allows ch r eoi) :
    SUse N inc B ch l f h P (p.next r eoi) := by
  cases p with
  | endless => exact hU
  | live =>
    simp only [Phase.next]
    split_ifs
    · exact hU
    · exact ⟨hU.2, fun h => absurd hU.1 (by omega)⟩
  | flushing q =>
    refine ⟨hU.1, fun he => ?_⟩
    rcases hU.2 he with h1 | ⟨h1, h2, h3, h4⟩
    · exact Or.inl h1
    rcases hn.2 with h5 | h5
    · exact Or.inl (by exact_mod_cast h5)
    · have h6 := le_riseTo h5
      have h7 : 0 < riseTo q r := h2.trans_le h6
      refine Or.inr ⟨h1, lt_min one_pos h7, h3, ?_⟩
      rw [G.reach_cap h7]
      exact (G.reach_anti h2 h6).trans h4
  | rising q =>
    intro hc
    obtain ⟨b, c⟩ := hU hc
    exact ⟨b.imp_right fun h => le_min (min_le_left _ _) (h.trans (le_riseTo hn.2)), c⟩

/-- One `src_process` call of a sinc history. -/
theorem sinc_process_total {p : Phase} (S : SHist co N inc B ch p st) (hO : SincSized ch d)
    (hn : p.Allows ch d.srcRatio d.endOfInput) (m : Mem) :
    ∃ e m' st' x', srcProcess m (some st) (some d) = .ok (e, m', some st', x') ∧ SHist co N inc B ch (p.next d.srcRatio d.endOfInput) st' ∧
      ((ArgError e ∧ m' = m ∧ st' = st) ∨
       (e = 0 ∧ ∃ d', x' = some d' ∧ Accounted d d' ∧ Footprint ch d d' m m' ∧ KeepsArgs d d' ∧ GoodRatio st'.lastRatio)) := by
  obtain ⟨P, l, y, f, D, k, R, i, h, V, hU⟩ := S.view
  have hmode := S.mode
  rcases ordinary_cases V.hch hmode (sincSized_ordinary hO) with ⟨e, hf⟩ | ⟨_, _, _, t, g⟩
  · obtain ⟨d', hd'⟩ := process_rejects (m := m) hf (by
      rintro s y h1 h2; cases h1; cases h2
      have b1 := hO.inSize
      have b2 := hO.outSize
      rw [V.hch]
      exact ⟨by positivity, by omega, by omega⟩)
    exact ⟨e, m, st, d', hd', ⟨hmode, S.hB, P, l, y, f, D, k, R, i, h, V, hU.next V.geo hn⟩, Or.inl ⟨firstFailing_arg hf, rfl, rfl⟩⟩
  · have s1 : samples ch d.inputFrames = ((ch * d.inputFrames.toNat : ℕ) : ℤ) := by
      unfold samples
      rw [show max d.inputFrames 0 = (d.inputFrames.toNat : ℤ) by omega]; push_cast; ring
    have s2 : samples ch d.outputFrames = ((ch * d.outputFrames.toNat : ℕ) : ℤ) := by
      unfold samples
      rw [show max d.outputFrames 0 = (d.outputFrames.toNat : ℤ) by omega]; push_cast; ring
    have b1 := hO.inSize
    have b2 := hO.outSize
    rw [s1] at b1
    rw [s2] at b2
    have b1 : ch * d.inputFrames.toNat < 2147483648 := by exact_mod_cast b1
    have b2 : ch * d.outputFrames.toNat ≤ 2 ^ 50 := by exact_mod_cast b2
    generalize hnn : d.inputFrames.toNat = n at *
    generalize hoo : d.outputFrames.toNat = o at *
    have vs := startRatio_valid V.vl g.vt
    obtain ⟨last, hlast⟩ : ∃ x : F64, x.val = some (startRatio l t) := by
      unfold startRatio; split_ifs
      · exact ⟨_, g.ht⟩
      · exact ⟨_, V.hl⟩
    have hrepL : Rep0 f64 (startRatio l t) := by
      unfold startRatio; split_ifs
      · exact rep64_val g.ht
      · exact rep64_val V.hl
    obtain ⟨H, hH⟩ : ∃ H, H = sincReach N inc (min (startRatio l t) t) := ⟨_, rfl⟩
    have vm := validMin vs g.vt
    have hl0 : ∀ {a : ℚ}, ValidRatio a → 0 < a := fun h => lt_of_lt_of_le (by norm_num) h.1
    have hLt : l = 0 → startRatio l t = t := fun h => by unfold startRatio; rw [if_pos h]
    have hLl : l ≠ 0 → startRatio l t = l := fun h => by unfold startRatio; rw [if_neg h]
    have hlpos : l ≠ 0 → 0 < l := fun h => hl0 (V.vl.resolve_left h)
    -- both ratios of the call are high enough
    have hfloor : (l = 0 ∨ 1 / 180 ≤ l) → AtLeast (1 / 180) d.srcRatio → 1 / 180 ≤ min (startRatio l t) t := by
      intro h1 h2
      have h3 := h2 t g.ht g.vt.1 g.vt.2
      refine le_min ?_ h3
      by_cases h4 : l = 0
      · rw [hLt h4]; exact h3
      · rw [hLl h4]; exact h1.resolve_left h4
    have hroom : 1 / 180 ≤ min (startRatio l t) t → 4 * (ch * H) + 5 ≤ ch * B + 1 := by
      intro h1
      have h4 := V.geo.reach_floor S.hB h1
      rw [← hH] at h4
      have hch1 : (1 : ℤ) ≤ ch := by exact_mod_cast V.hch1
      have : (ch : ℤ) * (4 * H + 4) ≤ ch * B := mul_le_mul_of_nonneg_left h4 (by omega)
      nlinarith
    have hrise : ∀ q, p = .rising q → ch = 1 ∧ H ≤ h ∧ (startRatio l t ≤ t ∨ 1 ≤ t) := by
      rintro q rfl
      have a : ch = 1 := by exact_mod_cast hn.1
      obtain ⟨b, c⟩ := hU a
      have hq := hn.2 t g.ht g.vt.1 g.vt.2
      refine ⟨a, ?_, ?_⟩
      · rw [hH]
        rcases le_total (startRatio l t) t with h1 | h1
        · rw [min_eq_left h1]; exact floorReach_start V.geo c V.vl g.vt
        · rw [min_eq_right h1]
          by_cases h2 : l = 0
          · have := floorReach_start V.geo c V.vl g.vt
            rwa [hLt h2] at this
          · have h3 := b.resolve_left h2
            unfold floorReach at c
            rw [if_neg h2, ← V.geo.reach_cap (hlpos h2)] at c
            exact (V.geo.reach_anti (lt_min one_pos (hlpos h2)) (h3.trans hq)).trans c
      · by_cases h2 : l = 0
        · rw [hLt h2]; exact Or.inl le_rfl
        · rw [hLl h2]
          have h3 := (b.resolve_left h2).trans hq
          rcases le_total l 1 with h4 | h4
          · rw [min_eq_right h4] at h3; exact Or.inl h3
          · rw [min_eq_left h4] at h3; exact Or.inr h3
    -- the guard of this call
    obtain ⟨P', hP1, hP2, V⟩ : ∃ P', (f.bRealEnd < 0 → P' = H) ∧ (p ≠ .endless → H ≤ P') ∧ SView (some P') co N inc B st ch l y f D k R i h := by
      by_cases hc : f.bRealEnd < 0 ∨ ch = 1
      · exact ⟨H, fun _ => rfl, fun _ => le_rfl, V.reguard hc⟩
      · refine ⟨P, fun h => absurd (Or.inl h) hc, fun h1 => ?_, V⟩
        cases p with
        | endless => exact absurd rfl h1
        | live => exact absurd (Or.inl hU.1) hc
        | rising q => exact absurd (Or.inr (by exact_mod_cast hn.1)) hc
        | flushing q =>
          rcases hU.2 (by omega) with h2 | ⟨h2, h3, h4, h5⟩
          · exact absurd (Or.inr h2) hc
          rcases hn.2 with h6 | h6
          · exact absurd (Or.inr (by exact_mod_cast h6)) hc
          have h7 := h6 t g.ht g.vt.1 g.vt.2
          rw [hH, hLl h2]
          rcases le_total l t with h8 | h8
          · rw [min_eq_left h8]; exact h4
          · rw [min_eq_right h8]; exact (V.geo.reach_anti h3 h7).trans h5
    -- the stream as far as this call sees it
    obtain ⟨y', hy1, hy2, hy3⟩ : ∃ y' : ℤ → ℕ → F32, (∀ z : ℤ, (z < R ∨ 0 ≤ f.bRealEnd) → y' z = y z) ∧
        (f.bRealEnd < 0 → ∀ j c : ℕ, j < n → c < ch → m (d.dataIn + ((ch * j + c : ℕ) : ℤ)) = y' ((R + j : ℕ) : ℤ) c) ∧
        (f.bRealEnd < 0 → ∀ z : ℤ, ((R + n : ℕ) : ℤ) ≤ z → ∀ c, y' z c = zero32) := by
      by_cases he : 0 ≤ f.bRealEnd
      · exact ⟨y, fun _ _ => rfl, fun h => by omega, fun h => by omega⟩
      · refine ⟨extendBy y m d ch R n, fun z hz => ?_, fun _ j c hj hc => ?_, fun _ z hz c => ?_⟩
        · funext c
          unfold extendBy
          rw [if_pos (by omega)]
        · unfold extendBy
          rw [if_neg (by omega), if_pos (by omega)]
          rw [show (((R + j : ℕ) : ℤ) - (R : ℤ)).toNat = j by omega]
        · unfold extendBy
          rw [if_neg (by omega), if_neg (by omega)]
    have V' := V.congr hy1
    obtain ⟨s, uu, gen, D', w1, I, _, W⟩ := sinc_call (m := m) V' hmode g b1 hH hy2
      (fun he hz => ⟨fun Q hQ => ⟨by cases hQ; exact hP1 he, by
        cases p with
        | endless => exact absurd hn hz
        | live => exact Or.inr (hroom (hfloor hU.2 hn))
        | flushing q => exact Or.inr (hroom (hfloor hU.1 hn.1))
        | rising q => exact Or.inl ⟨(hrise q rfl).1, (hrise q rfl).2.1⟩⟩, hy3 he⟩)
      (fun he Q hQ => by
        cases hQ
        refine hP2 ?_
        rintro rfl
        have : f.bRealEnd < 0 := hU
        omega) (Or.inl rfl)
    refine ⟨_, _, _, _, w1, ⟨hmode, S.hB, _, _, _, _, _, _, _, _, _, W, ?_⟩, Or.inr ⟨rfl, callData d uu gen, rfl, ?_, ?_, callData_keeps, ?_⟩⟩
    · have hend : f.bRealEnd < 0 → d.endOfInput = 0 → s.f.bRealEnd < 0 := by
        intro h1 h2
        by_contra hc
        rcases (I.ended (by omega)).2 with h | ⟨_, h⟩
        · omega
        · exact h h2
      have hb : min (startRatio l t) t ≤ (if gen = 0 then startRatio l t else sincRatioAt (startRatio l t) t ch o (gen - 1)) ∧
          (if gen = 0 then startRatio l t else sincRatioAt (startRatio l t) t ch o (gen - 1)) ≤ max (startRatio l t) t := by
        split_ifs with hg0
        · exact ⟨min_le_left _ _, le_max_left _ _⟩
        · exact sincRatioAt_between hrepL (rep64_val g.ht) vs g.vt V.hch1 (by have := I.hg; omega) b2
      generalize (if gen = 0 then startRatio l t else sincRatioAt (startRatio l t) t ch o (gen - 1)) = l' at *
      have hm0 := hl0 vm
      have hl' : l' ≠ 0 := by linarith [hb.1]
      have hr1 : sincReach N inc l' ≤ H := by rw [hH]; exact V.geo.reach_anti hm0 hb.1
      have hr2 : sincReach N inc (min 1 t) ≤ H := by
        rw [V.geo.reach_cap (hl0 g.vt), hH]; exact V.geo.reach_anti hm0 (min_le_right _ _)
      have hflush : p ≠ .endless → 1 / 180 ≤ min (startRatio l t) t → SUse N inc B ch l' s.f (min h H) P' (.flushing (min 1 t)) := fun h1 h2 =>
        ⟨Or.inr (h2.trans hb.1), fun _ => Or.inr ⟨hl', lt_min one_pos (hl0 g.vt), hr1.trans (hP2 h1), hr2.trans (hP2 h1)⟩⟩
      cases p with
      | endless => exact hend hU hn
      | live =>
        have h1 := hfloor hU.2 hn
        simp only [Phase.next, riseTo_valid g.ht g.vt]
        split_ifs with h2
        · exact ⟨hend hU.1 h2, Or.inr (h1.trans hb.1)⟩
        · exact hflush (by simp) h1
      | flushing q =>
        simp only [Phase.next, riseTo_valid g.ht g.vt]
        exact hflush (by simp) (hfloor hU.1 hn.1)
      | rising q =>
        obtain ⟨h1, h2, h3⟩ := hrise q rfl
        simp only [Phase.next, riseTo_valid g.ht g.vt]
        refine fun _ => ⟨Or.inr ?_, ?_⟩
        · rcases h3 with h3 | h3
          · rw [max_eq_right h3] at hb
            exact min_le_min_left _ hb.2
          · rw [min_eq_left h3]; exact min_le_left _ _
        · unfold floorReach
          rw [if_neg hl', min_eq_right h2]
          exact hr1
    · have := I.hu
      have := I.hg
      refine ⟨by simp only [callData]; positivity, ?_, by simp only [callData]; positivity, ?_⟩
      · simp only [callData]; omega
      · simp only [callData]; omega
    · obtain ⟨Ds, _, _, _, hm⟩ := I.mem
      intro a ha
      rw [hm]
      apply Mem.setRange_out
      simp only [callData] at ha
      push_cast
      rw [mul_comm (ch : ℤ)]
      exact ha
    · refine ⟨_, W.hl, ?_⟩
      rcases W.vl with h | h
      · exfalso
        have := vs.1
        split_ifs at h with hg0
        · rw [h] at this; norm_num at this
        · have := (sincRatio_val (cur := last) (g := gen - 1) hlast g.ht vs g.vt V.hch1 (by have := I.hg; omega) (g.hob.trans (by norm_num)) (fun _ => hlast)).2.1.1
          rw [h] at this; norm_num at this
      · exact h

theorem sinc_setRatio_total {p : Phase} (S : SHist co N inc B ch p st) {r : F64} (hr : r ≠ .nan) (hn : p.Allows ch r 0) :
    ∃ e st', srcSetRatio (some st) r = (e, some st') ∧ (e = 0 ∨ e = 6) ∧ SHist co N inc B ch (p.next r 0) st' := by
  obtain ⟨P, l, y, f, D, k, R, i, h, V, hU⟩ := S.view
  unfold srcSetRatio
  dsimp only
  by_cases hb : isBadSrcRatio r = true
  · rw [if_pos hb]
    exact ⟨_, st, rfl, Or.inr rfl, S.mode, S.hB, P, l, y, f, D, k, R, i, h, V, hU.next V.geo hn⟩
  · rw [if_neg hb]
    refine ⟨_, _, rfl, Or.inl rfl, S.mode, S.hB, ?_⟩
    rw [isBad_iff] at hb
    cases hr' : r with
    | nan => exact absurd hr' hr
    | inf s => rw [hr'] at hb; exact absurd trivial hb
    | fin q hq =>
      rw [hr'] at hb
      simp only [BadRatio, not_or, not_lt] at hb
      have vq : ValidRatio q := ⟨hb.1, hb.2⟩
      have hrv : r.val = some q := by rw [hr']; rfl
      have hq0 : 0 < q := lt_of_lt_of_le (by norm_num) vq.1
      rw [← hr']
      refine ⟨P, q, y, f, D, k, R, i, h, ⟨V.geo, V.hvt, V.hch, V.hch1, V.hchM, V.hpriv, V.buf, V.hpos, V.hi, hrv, Or.inr vq⟩, ?_⟩
      have hlpos : l ≠ 0 → 0 < l := fun h => lt_of_lt_of_le (by norm_num) (V.vl.resolve_left h).1
      cases p with
      | endless => exact hU
      | live => exact ⟨hU.1, Or.inr (hn q hrv vq.1 vq.2)⟩
      | flushing a =>
        simp only [Phase.next, riseTo_valid hrv vq]
        refine ⟨Or.inr (hn.1 q hrv vq.1 vq.2), fun he => ?_⟩
        rcases hU.2 he with h1 | ⟨h1, h2, h3, h4⟩
        · exact Or.inl h1
        rcases hn.2 with h5 | h5
        · exact Or.inl (by exact_mod_cast h5)
        have h6 := (V.geo.reach_anti h2 (h5 q hrv vq.1 vq.2)).trans h4
        exact Or.inr ⟨hq0.ne', lt_min one_pos hq0, h6, by rw [V.geo.reach_cap hq0]; exact h6⟩
      | rising a =>
        simp only [Phase.next, riseTo_valid hrv vq]
        intro h1
        obtain ⟨h2, h3⟩ := hU h1
        refine ⟨Or.inr le_rfl, ?_⟩
        unfold floorReach
        rw [if_neg hq0.ne']
        by_cases hl : l = 0
        · have := floorReach_start V.geo h3 V.vl vq
          unfold startRatio at this
          rwa [if_pos hl] at this
        · unfold floorReach at h3
          rw [if_neg hl, ← V.geo.reach_cap (hlpos hl)] at h3
          exact (V.geo.reach_anti (lt_min one_pos (hlpos hl)) ((h2.resolve_left hl).trans (hn.2 q hrv vq.1 vq.2))).trans h3

/-- A handle just created or reset is ready for any phase that can be the first. -/
theorem SUse.first {f : SincFilter} {p : Phase} (hp : p.First) (hf : f.bRealEnd < 0) : SUse N inc B ch 0 f B 0 p := by
  rcases hp with rfl | rfl | rfl
  · exact hf
  · exact ⟨hf, Or.inl rfl⟩
  · exact fun _ => ⟨Or.inl rfl, by simp [floorReach]⟩

theorem sinc_reset_total {p p' : Phase} (S : SHist co N inc B ch p st) (hp : p'.First) :
    SHist co N inc B ch p' (srcResetState st) := by
  obtain ⟨P, l, y, f, D, k, R, i, h, V, hU⟩ := S.view
  exact ⟨S.mode, S.hB, 0, 0, y, _, _, _, _, _, B, sinc_reset_view V V.buf.hneg B, SUse.first hp (by simp [sincReset])⟩

/-- Histories of the sinc converters run without fault, and every call behaves well. -/
theorem sinc_history_total {ops : List Op} {u : Phase} (hS : SafeUse ch u ops) : ∀ {st : SrcState}, SHist co N inc B ch u st →
    ∃ os st' u', run ops st = .ok (os, st') ∧ List.Forall₂ (WellBehaved ch) ops os ∧ SHist co N inc B ch u' st' := by
  have key : ∀ {op : Op} {ops : List Op} {u u1 : Phase} {st : SrcState}, (∃ o st1, op.run st = .ok (o, st1) ∧ WellBehaved ch op o ∧ SHist co N inc B ch u1 st1) →
      (∀ {st : SrcState}, SHist co N inc B ch u1 st → ∃ os st' u', run ops st = .ok (os, st') ∧ List.Forall₂ (WellBehaved ch) ops os ∧ SHist co N inc B ch u' st') →
      ∃ os st' u', run (op :: ops) st = .ok (os, st') ∧ List.Forall₂ (WellBehaved ch) (op :: ops) os ∧ SHist co N inc B ch u' st' := by
    rintro op ops u u1 st ⟨o, st1, a1, a2, a3⟩ ih
    obtain ⟨os, st2, u2, b1, b2, b3⟩ := ih a3
    refine ⟨o :: os, st2, u2, ?_, .cons a2 b2, b3⟩
    simp only [run, a1, bind, Except.bind]
    rw [b1]
    rfl
  have call : ∀ {u : Phase} {st : SrcState} (m : Mem) (d : SrcData), SincSized ch d → SHist co N inc B ch u st → u.Allows ch d.srcRatio d.endOfInput →
      ∃ o st1, (Op.process m (some d)).run st = .ok (o, st1) ∧ WellBehaved ch (Op.process m (some d)) o ∧ SHist co N inc B ch (u.next d.srcRatio d.endOfInput) st1 := by
    intro u st m d hd S hn
    obtain ⟨e, m', st', x', h1, h2, h3⟩ := sinc_process_total S hd hn m
    refine ⟨⟨e, some m', x', 0, srcError (some st'), srcGetChannels (some st')⟩, st', ?_, ?_, h2⟩
    · simp only [Op.run, h1]; rfl
    · rcases h3 with ⟨a, b, c⟩ | ⟨a, d', c, d1, e1, f1, _⟩
      · exact Or.inl ⟨a, by rw [b]⟩
      · exact Or.inr ⟨a, d, d', m', rfl, c, rfl, d1, e1, f1⟩
  have ratio : ∀ {u : Phase} {st : SrcState} (r : F64), r ≠ .nan → SHist co N inc B ch u st → u.Allows ch r 0 →
      ∃ o st1, (Op.setRatio r).run st = .ok (o, st1) ∧ WellBehaved ch (Op.setRatio r) o ∧ SHist co N inc B ch (u.next r 0) st1 := by
    intro u st r hr S hn
    obtain ⟨e, st', h1, h2, h3⟩ := sinc_setRatio_total S hr hn
    refine ⟨⟨e, none, none, 0, srcError (some st'), srcGetChannels (some st')⟩, st', ?_, h2, h3⟩
    simp only [Op.run, h1]; rfl
  induction hS with
  | nil u => intro st S; exact ⟨[], st, u, rfl, .nil, S⟩
  | reset u u' ops hu _ ih =>
    intro st S
    exact key (u := u) ⟨_, _, rfl, rfl, sinc_reset_total S hu⟩ ih
  | noData u m ops _ ih =>
    intro st S
    refine key (u := u) ⟨⟨3, some m, none, 0, srcError (some st), srcGetChannels (some st)⟩, st, ?_, Or.inl ⟨Or.inr (Or.inl rfl), rfl⟩, S⟩ ih
    have hm := S.mode
    simp only [Op.run, srcProcess]
    rw [if_neg (by simp [hm])]; rfl
  | ratio u r ops hr hn _ ih => intro st S; exact key (u := u) (ratio r hr S hn) ih
  | call u m d ops hd hn _ ih => intro st S; exact key (u := u) (call m d hd S hn) ih

end

/-- The table a sinc converter uses. -/
theorem sinc_table {cfg : Config} (hL : LibraryTables cfg) {type ch e : ℤ} {st : SrcState} (ht : SincType type) (h : srcNew cfg type ch = .ok (e, some st)) :
    ∃ t, cfg.table type = some t ∧
      ((t.increment = 128 ∧ t.count = 2464) ∨ (t.increment = 491 ∧ t.count = 22438) ∨ (t.increment = 2381 ∧ t.count = 340239)) := by
  have hnone : cfg.table type ≠ none := by
    intro hc
    unfold srcNew at h
    rw [hc] at h
    dsimp only at h
    have n1 : type ≠ SRC_ZERO_ORDER_HOLD := by rcases ht with rfl | rfl | rfl <;> decide
    have n2 : type ≠ SRC_LINEAR := by rcases ht with rfl | rfl | rfl <;> decide
    rw [if_neg n1, if_neg n2] at h
    have h := ok_inj h
    simp at h
  obtain ⟨t, hT⟩ := Option.ne_none_iff_exists'.1 hnone
  refine ⟨t, hT, ?_⟩
  rcases ht with rfl | rfl | rfl
  · exact Or.inr (Or.inr (hL.best t (by simpa [Config.table] using hT)))
  · exact Or.inr (Or.inl (hL.mid t (by simpa [Config.table, SRC_SINC_MEDIUM_QUALITY, SRC_SINC_BEST_QUALITY] using hT)))
  · exact Or.inl (hL.fast t (by simpa [Config.table, SRC_SINC_MEDIUM_QUALITY, SRC_SINC_BEST_QUALITY, SRC_SINC_FASTEST] using hT))

/-- A new sinc handle is ready for any use. -/
theorem sinc_new_hist {cfg : Config} (hL : LibraryTables cfg) {type e : ℤ} {ch : ℕ} {st : SrcState} (ht : SincType type)
    (h : srcNew cfg type ch = .ok (e, some st)) {p : Phase} (hp : p.First) :
    ∃ (t : CoeffTable) (B : ℤ), cfg.table type = some t ∧ SHist t.coeffs (t.count - 2) t.increment B ch p st := by
  obtain ⟨t, hT, hd⟩ := sinc_table hL ht h
  obtain ⟨B, f, G, hB, hk, V, hm, _⟩ := sinc_new_view (y := fun _ _ => zero32) hT hd h (fun _ _ _ => rfl) (3 * sincReach (t.count - 2) t.increment (1 / 256))
  rw [← hB] at V
  refine ⟨t, B, hT, hm, hB, 0, 0, _, f, 0, 0, 0, 0, _, V, SUse.first hp ?_⟩
  rcases V.buf.hD with ⟨_, h, _⟩ | ⟨h, _⟩
  · exact h
  · omega

end Verif
