import Verif.Proof.SincStream
import Verif.Proof.Errors
import Verif.Spec.Glide

/-! The interpolated ratio within one call, and over a history. -/

namespace Verif
open Spec

/-- Rounding to double: relative error `2^-53`, or a tiny absolute error below the normal range. -/
theorem r64_err (z : ℚ) : |r64 z - z| ≤ |z| / 2 ^ 53 + 1 / 2 ^ 60 := by
  have htiny : p2 (-1075) ≤ 1 / 2 ^ 60 := by
    have : p2 (-1075) ≤ p2 (-60) := p2_le (by norm_num)
    rwa [show p2 (-60) = 1 / 2 ^ 60 by norm_num [p2]] at this
  rcases le_or_gt (p2 (-1022)) |z| with h | h
  · have := rel_err h
    have e : p2 (-53) = 1 / 2 ^ 53 := by norm_num [p2]
    rw [e] at this
    have : (0 : ℚ) ≤ 1 / 2 ^ 60 := by norm_num
    linarith
  · have := abs_rq_sub_le_of_lt (f := f64) (k := -1021) (h.trans (p2_lt (by norm_num))) (by decide)
    rw [show (-1021 : ℤ) - (f64.prec : ℤ) - 1 = -1075 by decide] at this
    have h0 : 0 ≤ |z| / 2 ^ 53 := by positivity
    linarith

theorem interpQ_zero {l t : ℚ} {n : ℤ} (hl : Rep0 f64 l) : interpQ l t 0 n = l := by
  unfold interpQ
  simp [rq_of_rep hl]

theorem interpQ_up {l t : ℚ} {g g' n : ℤ} (h : l ≤ t) (hg : g ≤ g') (hn : 0 < n) : interpQ l t g n ≤ interpQ l t g' n := by
  unfold interpQ
  have hn' : (0 : ℚ) < n := by exact_mod_cast hn
  have hd : 0 ≤ r64 (t - l) := rq_nonneg (by linarith)
  have hg' : (g : ℚ) ≤ g' := by exact_mod_cast hg
  have h1 : r64 (g * r64 (t - l)) ≤ r64 (g' * r64 (t - l)) := rq_mono (mul_le_mul_of_nonneg_right hg' hd)
  have h2 : r64 (r64 (g * r64 (t - l)) / n) ≤ r64 (r64 (g' * r64 (t - l)) / n) := rq_mono (by gcongr)
  exact rq_mono (by linarith)

theorem interpQ_down {l t : ℚ} {g g' n : ℤ} (h : t ≤ l) (hg : g ≤ g') (hn : 0 < n) : interpQ l t g' n ≤ interpQ l t g n := by
  unfold interpQ
  have hn' : (0 : ℚ) < n := by exact_mod_cast hn
  have hd : r64 (t - l) ≤ 0 := rq_nonpos (by linarith)
  have hg' : (g : ℚ) ≤ g' := by exact_mod_cast hg
  have h1 : r64 (g' * r64 (t - l)) ≤ r64 (g * r64 (t - l)) := rq_mono (mul_le_mul_of_nonpos_right hg' hd)
  have h2 : r64 (r64 (g' * r64 (t - l)) / n) ≤ r64 (r64 (g * r64 (t - l)) / n) := rq_mono (by gcongr)
  exact rq_mono (by linarith)

/-- The interpolated ratio is the exact one up to rounding. -/
theorem interpQ_near {l t : ℚ} {g n : ℤ} (vl : ValidRatio l) (vt : ValidRatio t) (hg : 0 ≤ g) (hgn : g < n) :
    |interpQ l t g n - (l + (t - l) * (g / n))| ≤ 1 / 2 ^ 41 := by
  unfold interpQ
  have hnp : (0 : ℚ) < n := by exact_mod_cast (lt_of_le_of_lt hg hgn)
  have hn1 : (1 : ℚ) ≤ n := by
    have : 1 ≤ n := by omega
    exact_mod_cast this
  have hgq : (0 : ℚ) ≤ g := by exact_mod_cast hg
  have hgn' : (g : ℚ) ≤ n := by exact_mod_cast hgn.le
  set f : ℚ := g / n with hf
  have hf0 : 0 ≤ f := div_nonneg hgq hnp.le
  have hf1 : f ≤ 1 := (div_le_one hnp).2 hgn'
  have hd : |t - l| ≤ 256 := by rw [_root_.abs_le]; constructor <;> linarith [vl.1, vl.2, vt.1, vt.2]
  have e1 := r64_err (t - l)
  set A := r64 (t - l) with hA
  have e2 := r64_err (g * A)
  set B := r64 (g * A) with hB
  have e3 := r64_err (B / n)
  set D := r64 (B / n) with hD
  have e4 := r64_err (l + D)
  have a1 : |A - (t - l)| ≤ 1 / 2 ^ 44 := by
    have : |t - l| / 2 ^ 53 ≤ 256 / 2 ^ 53 := by gcongr
    refine e1.trans ((add_le_add_left this _).trans (by norm_num))
  have hA1 : |A| ≤ 257 := by
    have := abs_add_le (A - (t - l)) (t - l)
    rw [sub_add_cancel] at this
    linarith
  have a2 : |B / n - f * A| ≤ 1 / 2 ^ 44 := by
    have : B / n - f * A = (B - g * A) / n := by rw [hf]; field_simp
    rw [this, abs_div, abs_of_pos hnp, div_le_iff₀ hnp]
    have h1 : |(g : ℚ) * A| ≤ n * 257 := by
      rw [abs_mul, abs_of_nonneg hgq]
      exact mul_le_mul hgn' hA1 (abs_nonneg _) hnp.le
    have h2 : |(g : ℚ) * A| / 2 ^ 53 ≤ n * 257 / 2 ^ 53 := by gcongr
    refine e2.trans ((add_le_add h2 le_rfl).trans ?_)
    linarith
  have hfA : |f * A| ≤ 257 := by
    rw [abs_mul, abs_of_nonneg hf0]
    calc f * |A| ≤ 1 * 257 := mul_le_mul hf1 hA1 (abs_nonneg _) (by norm_num)
      _ = 257 := by norm_num
  have hC1 : |B / n| ≤ 258 := by
    have := abs_add_le (B / n - f * A) (f * A)
    rw [sub_add_cancel] at this
    linarith
  have a3 : |D - B / n| ≤ 1 / 2 ^ 44 := by
    have : |B / n| / 2 ^ 53 ≤ 258 / 2 ^ 53 := by gcongr
    refine e3.trans ((add_le_add_left this _).trans (by norm_num))
  have hD1 : |D| ≤ 259 := by
    have := abs_add_le (D - B / n) (B / n)
    rw [sub_add_cancel] at this
    linarith
  have hl1 : |l + D| ≤ 515 := by
    have := abs_add_le l D
    have : |l| ≤ 256 := by rw [abs_of_pos (lt_of_lt_of_le (by norm_num) vl.1)]; exact vl.2
    linarith
  have a4 : |r64 (l + D) - (l + D)| ≤ 1 / 2 ^ 43 := by
    have : |l + D| / 2 ^ 53 ≤ 515 / 2 ^ 53 := by gcongr
    refine e4.trans ((add_le_add_left this _).trans (by norm_num))
  have a5 : |f * A - f * (t - l)| ≤ 1 / 2 ^ 44 := by
    rw [← mul_sub, abs_mul, abs_of_nonneg hf0]
    calc f * |A - (t - l)| ≤ 1 * (1 / 2 ^ 44) := mul_le_mul hf1 a1 (abs_nonneg _) (by norm_num)
      _ = 1 / 2 ^ 44 := by norm_num
  rw [_root_.abs_le] at *
  constructor <;> linarith [a2.1, a2.2, a3.1, a3.2, a4.1, a4.2, a5.1, a5.2]

/-- What is needed of an interpolation formula. -/
structure Glider (ε : ℚ) (rat : ℚ → ℚ → ℕ → ℕ → ℕ → ℚ) : Prop where
  rep : ∀ {l t ch o g}, Rep0 f64 l → Rep0 f64 (rat l t ch o g)
  first : ∀ {l t ch o}, Rep0 f64 l → rat l t ch o 0 = l
  near : ∀ {l t ch o g}, Rep0 f64 l → Rep0 f64 t → ValidRatio l → ValidRatio t → 1 ≤ ch → g < o → |rat l t ch o g - (l + (t - l) * g / o)| ≤ ε
  between : ∀ {l t ch o g}, Rep0 f64 l → Rep0 f64 t → ValidRatio l → ValidRatio t → 1 ≤ ch → g < o → ch * o ≤ 2 ^ 50 →
    min l t ≤ rat l t ch o g ∧ rat l t ch o g ≤ max l t
  up : ∀ {l t ch o g g'}, l ≤ t → g ≤ g' → 1 ≤ ch → g' < o → rat l t ch o g ≤ rat l t ch o g'
  down : ∀ {l t ch o g g'}, t ≤ l → g ≤ g' → 1 ≤ ch → g' < o → rat l t ch o g' ≤ rat l t ch o g

theorem interp_exact {l t : ℚ} {ch o g : ℕ} (hch : 1 ≤ ch) :
    l + (t - l) * ((((ch * g : ℕ) : ℤ) : ℚ) / (((ch * o : ℕ) : ℤ) : ℚ)) = l + (t - l) * g / o := by
  have : (ch : ℚ) ≠ 0 := by positivity
  push_cast
  rw [mul_div_mul_left _ _ this, mul_div_assoc]

theorem ratioAt_glider : Glider (1 / 2 ^ 41) ratioAt where
  rep := by
    intro l t ch o g hl
    unfold ratioAt
    split_ifs
    · exact hl
    · exact rep0_rq _ _
  first := by
    intro l t ch o hl
    unfold ratioAt
    split_ifs
    · rfl
    · simp [rq_of_rep hl]
  near := by
    intro l t ch o g hl ht vl vt hch hg
    unfold ratioAt
    split_ifs with h
    · simp [h]
    · have := interpQ_near (g := (ch * g : ℕ)) (n := (ch * o : ℕ)) vl vt (by positivity)
        (by exact_mod_cast Nat.mul_lt_mul_of_pos_left hg (by omega))
      rw [interp_exact hch] at this
      unfold interpQ at this
      rwa [Int.cast_natCast, Int.cast_natCast] at this
  between := fun hl ht vl vt hch hg hb => ratioAt_between hl ht vl vt hch hg hb
  up := by
    intro l t ch o g g' h hg hch hg'
    unfold ratioAt
    split_ifs
    · exact le_rfl
    · have := interpQ_up (g := (ch * g : ℕ)) (g' := (ch * g' : ℕ)) (n := (ch * o : ℕ)) h (by exact_mod_cast Nat.mul_le_mul_left _ hg)
        (by exact_mod_cast Nat.mul_pos (by omega : 0 < ch) (by omega))
      unfold interpQ at this
      simpa only [Int.cast_natCast] using this
  down := by
    intro l t ch o g g' h hg hch hg'
    unfold ratioAt
    split_ifs
    · exact le_rfl
    · have := interpQ_down (g := (ch * g : ℕ)) (g' := (ch * g' : ℕ)) (n := (ch * o : ℕ)) h (by exact_mod_cast Nat.mul_le_mul_left _ hg)
        (by exact_mod_cast Nat.mul_pos (by omega : 0 < ch) (by omega))
      unfold interpQ at this
      simpa only [Int.cast_natCast] using this

theorem eps_close {l t : ℚ} (vl : ValidRatio l) (vt : ValidRatio t) (h : |r64 (l - t)| ≤ r64 (1 / 10 ^ 10)) : |t - l| ≤ 1 / 10 ^ 9 := by
  have a := r64_err (l - t)
  have b := r64_err (1 / 10 ^ 10)
  rw [abs_of_pos (by norm_num : (0 : ℚ) < 1 / 10 ^ 10)] at b
  have hd : |l - t| ≤ 256 := by rw [_root_.abs_le]; constructor <;> linarith [vl.1, vl.2, vt.1, vt.2]
  have hd' : |l - t| / 2 ^ 53 ≤ 256 / 2 ^ 53 := by gcongr
  rw [abs_sub_comm t l]
  have c := abs_add_le (l - t - r64 (l - t)) (r64 (l - t))
  rw [sub_add_cancel, abs_sub_comm (l - t)] at c
  have b' := (_root_.abs_le.1 b).2
  have : (256 : ℚ) / 2 ^ 53 + 1 / 2 ^ 60 + (1 / 10 ^ 10 + (1 / 10 ^ 10 / 2 ^ 53 + 1 / 2 ^ 60)) ≤ 1 / 10 ^ 9 := by norm_num
  linarith

theorem sincRatioAt_glider : Glider (1 / 10 ^ 9) sincRatioAt where
  rep := by
    intro l t ch o g hl
    unfold sincRatioAt
    split_ifs
    · exact hl
    · exact rep0_rq _ _
  first := by
    intro l t ch o hl
    unfold sincRatioAt
    split_ifs
    · rfl
    · simp [rq_of_rep hl]
  near := by
    intro l t ch o g hl ht vl vt hch hg
    unfold sincRatioAt
    split_ifs with h
    · have := eps_close vl vt h
      have hop : (0 : ℚ) < o := by exact_mod_cast (by omega : 0 < o)
      have hf0 : (0 : ℚ) ≤ g / o := by positivity
      have hf1 : (g : ℚ) / o ≤ 1 := (div_le_one hop).2 (by exact_mod_cast hg.le)
      rw [show l - (l + (t - l) * g / o) = -((g / o) * (t - l)) by ring, abs_neg, abs_mul, abs_of_nonneg hf0]
      calc (g : ℚ) / o * |t - l| ≤ 1 * (1 / 10 ^ 9) := mul_le_mul hf1 this (abs_nonneg _) (by norm_num)
        _ = 1 / 10 ^ 9 := by norm_num
    · have := interpQ_near (g := (ch * g : ℕ)) (n := (ch * o : ℕ)) vl vt (by positivity)
        (by exact_mod_cast Nat.mul_lt_mul_of_pos_left hg (by omega))
      rw [interp_exact hch] at this
      unfold interpQ at this
      rw [Int.cast_natCast, Int.cast_natCast] at this
      exact this.trans (by norm_num)
  between := fun hl ht vl vt hch hg hb => sincRatioAt_between hl ht vl vt hch hg hb
  up := by
    intro l t ch o g g' h hg hch hg'
    unfold sincRatioAt
    split_ifs
    · exact le_rfl
    · have := interpQ_up (g := (ch * g : ℕ)) (g' := (ch * g' : ℕ)) (n := (ch * o : ℕ)) h (by exact_mod_cast Nat.mul_le_mul_left _ hg)
        (by exact_mod_cast Nat.mul_pos (by omega : 0 < ch) (by omega))
      unfold interpQ at this
      simpa only [Int.cast_natCast] using this
  down := by
    intro l t ch o g g' h hg hch hg'
    unfold sincRatioAt
    split_ifs
    · exact le_rfl
    · have := interpQ_down (g := (ch * g : ℕ)) (g' := (ch * g' : ℕ)) (n := (ch * o : ℕ)) h (by exact_mod_cast Nat.mul_le_mul_left _ hg)
        (by exact_mod_cast Nat.mul_pos (by omega : 0 < ch) (by omega))
      unfold interpQ at this
      simpa only [Int.cast_natCast] using this

theorem Glider.glide {ε : ℚ} {rat : ℚ → ℚ → ℕ → ℕ → ℕ → ℚ} (G : Glider ε rat) {l t : ℚ} {ch o n : ℕ} (hl : Rep0 f64 l) (ht : Rep0 f64 t)
    (vl : ValidRatio l) (vt : ValidRatio t) (hch : 1 ≤ ch) (hn : n ≤ o) (hb : ch * o ≤ 2 ^ 50) :
    Glide ε l t o ((List.range n).map (rat l t ch o)) where
  room := by simpa using hn
  first := by
    intro r hr
    rw [List.getElem?_map] at hr
    obtain ⟨g, hg, rfl⟩ := Option.map_eq_some_iff.1 hr
    have := List.getElem?_eq_some_iff.1 hg
    obtain ⟨h1, h2⟩ := this
    simp at h2
    rw [← h2]
    exact G.first hl
  near := by
    intro g r hr
    rw [List.getElem?_map] at hr
    obtain ⟨g', hg, rfl⟩ := Option.map_eq_some_iff.1 hr
    obtain ⟨h1, h2⟩ := List.getElem?_eq_some_iff.1 hg
    simp at h1 h2
    subst h2
    exact G.near hl ht vl vt hch (by omega)
  between := by
    intro r hr
    obtain ⟨g, hg, rfl⟩ := List.mem_map.1 hr
    exact G.between hl ht vl vt hch (by have := List.mem_range.1 hg; omega) hb
  up := by
    intro h
    rw [List.pairwise_map]
    refine (List.pairwise_lt_range (n := n)).imp_of_mem ?_
    intro a b ha hb hab
    exact G.up h hab.le hch (by have := List.mem_range.1 hb; omega)
  down := by
    intro h
    rw [List.pairwise_map]
    refine (List.pairwise_lt_range (n := n)).imp_of_mem ?_
    intro a b ha hb hab
    exact G.down h hab.le hch (by have := List.mem_range.1 hb; omega)

/-- What one call of a fed history shows. -/
def FedObs (ch : ℕ) : Op → Obs → Prop
  | .process _ (some d), o => o.ret = 0 ∧ (∃ t, d.srcRatio.val = some t ∧ ValidRatio t) ∧ samples ch d.outputFrames ≤ 2 ^ 50 ∧
      ∃ d', o.data = some d' ∧ Accounted d d'
  | .setRatio r, o => o.ret = 0 → ∃ q, r.val = some q ∧ ValidRatio q
  | _, _ => False

theorem glides_of {ε : ℚ} {rat : ℚ → ℚ → ℕ → ℕ → ℕ → ℚ} (G : Glider ε rat) {ch : ℕ} (hch : 1 ≤ ch) :
    ∀ {ops : List Op} {os : List Obs}, List.Forall₂ (FedObs ch) ops os → ∀ {l : ℚ}, Rep0 f64 l → (l = 0 ∨ ValidRatio l) →
      Glides ε l ops os (ratiosFrom rat ch l ops os) := by
  intro ops os h
  induction h with
  | nil => intro l _ _; simp only [ratiosFrom]; exact .nil l
  | @cons op o ops os h1 h2 ih =>
    intro l hl vl
    cases op with
    | process m d =>
      cases d with
      | none => exact absurd h1 id
      | some d =>
        obtain ⟨h0, ⟨t, ht, vt⟩, hb, d', hd', hA⟩ := h1
        rw [ratiosFrom_call ht hd' h0]
        have hrt := rep64_val ht
        have hr0 : Rep0 f64 (if l = 0 then t else l) := by split_ifs <;> assumption
        have vl0 : ValidRatio (if l = 0 then t else l) := by
          split_ifs with h
          · exact vt
          · exact vl.resolve_left h
        generalize hl0 : (if l = 0 then t else l) = l0 at *
        set n := d'.outputFramesGen.toNat with hn
        set oo := d.outputFrames.toNat with hoo
        have g0 := hA.gen0
        have g1 := hA.gen1
        have hno : n ≤ oo := by omega
        have hb' : ch * oo ≤ 2 ^ 50 := by
          unfold samples at hb
          have : ((ch * oo : ℕ) : ℤ) ≤ 2 ^ 50 := by
            rw [hoo]; push_cast [Int.toNat_eq_max]; linarith
          exact_mod_cast this
        refine .call l m d d' o t _ _ ops os h0 hd' ht (by simp; omega) (by rw [hl0]; exact G.glide hr0 hrt vl0 vt hch hno hb') ?_
        rw [hl0]
        have hlast : (((List.range n).map (rat l0 t ch oo)).getLast?).getD l0 = if n = 0 then l0 else rat l0 t ch oo (n - 1) := by
          split_ifs with h
          · simp [h]
          · obtain ⟨k, hk⟩ := Nat.exists_eq_succ_of_ne_zero h
            rw [hk]
            simp [List.range_succ]
        rw [hlast]
        refine ih ?_ (Or.inr ?_)
        · split_ifs
          · exact hr0
          · exact G.rep hr0
        · split_ifs with h
          · exact vl0
          · obtain ⟨b1, b2⟩ := G.between hr0 hrt vl0 vt hch (show n - 1 < oo by omega) hb'
            exact ⟨(le_min vl0.1 vt.1).trans b1, b2.trans (max_le vl0.2 vt.2)⟩
    | setRatio r =>
      simp only [ratiosFrom]
      by_cases h0 : o.ret = 0
      · obtain ⟨q, hq, vq⟩ := h1 h0
        rw [if_pos h0, hq]
        exact .setRatio _ _ _ _ _ _ _ h0 hq (ih (rep64_val hq) (Or.inr vq))
      · rw [if_neg h0]
        exact .setRejected _ _ _ _ _ _ h0 (ih hl vl)
    | reset => exact absurd h1 id
    | read => exact absurd h1 id

theorem valid_of_not_bad {r : F64} (hb : ¬ BadRatio r) (hn : r ≠ .nan) : ∃ q, r.val = some q ∧ ValidRatio q := by
  cases r with
  | nan => exact absurd rfl hn
  | inf s => exact absurd trivial hb
  | fin q h =>
    refine ⟨q, rfl, ?_⟩
    unfold BadRatio at hb
    exact ⟨not_lt.1 fun h => hb (Or.inl h), not_lt.1 fun h => hb (Or.inr h)⟩

/-- A successful call has a valid ratio. -/
theorem process_ratio {st st' : SrcState} {m : Mem} {d : SrcData} {o : Obs} (h : (Op.process m (some d)).run st = .ok (o, st')) (h0 : o.ret = 0)
    (hn : d.srcRatio ≠ .nan) : ∃ t, d.srcRatio.val = some t ∧ ValidRatio t := by
  by_contra hc
  have hbad : isBadSrcRatio d.srcRatio = true := by
    rw [isBad_iff]
    by_contra hb
    exact hc (valid_of_not_bad hb hn)
  obtain ⟨⟨e, m', s1, d'⟩, h1, h⟩ := bind_ok h
  have h := ok_inj h
  simp only [Prod.mk.injEq] at h
  obtain ⟨rfl, -⟩ := h
  dsimp only at h0
  subst h0
  unfold srcProcess at h1
  dsimp only at h1
  split_ifs at h1 with hm
  · have := ok_inj h1
    simp [Err.BAD_MODE] at this
  · obtain ⟨r, h2, h1⟩ := bind_ok h1
    have h1 := ok_inj h1
    simp only [Prod.mk.injEq] at h1
    unfold srcProcessData at h2
    split_ifs at h2
    · have h2 := ok_inj h2
      rw [← h2] at h1
      simp [Err.BAD_DATA_PTR] at h1
    · have h2 := ok_inj h2
      rw [← h2] at h1
      simp [Err.BAD_SRC_RATIO] at h1

/-- A successful `src_set_ratio` has a valid ratio. -/
theorem setRatio_ratio {st st' : SrcState} {r : F64} {o : Obs} (h : (Op.setRatio r).run st = .ok (o, st')) (h0 : o.ret = 0)
    (hn : r ≠ .nan) : ∃ q, r.val = some q ∧ ValidRatio q := by
  refine valid_of_not_bad (fun hb => ?_) hn
  have hb := (isBad_iff r).2 hb
  have e : srcSetRatio (some st) r = (Err.BAD_SRC_RATIO, some st) := by simp [srcSetRatio, hb]
  simp only [Op.run, e] at h
  have h := ok_inj h
  simp only [Prod.mk.injEq] at h
  rw [← h.1] at h0
  simp [Err.BAD_SRC_RATIO] at h0

/-- What the history tells of one call. -/
def CallShape (ch : ℕ) (op : Op) (o : Obs) : Prop :=
  (∃ m d d', op = .process m (some d) ∧ o.ret = 0 ∧ d.srcRatio ≠ .nan ∧ samples ch d.outputFrames ≤ 2 ^ 50 ∧ o.data = some d' ∧ Accounted d d') ∨
    ∃ r, op = .setRatio r ∧ r ≠ .nan

theorem fedObs_of {ch : ℕ} : ∀ {ops : List Op} {os : List Obs} {st st' : SrcState}, run ops st = .ok (os, st') →
    List.Forall₂ (CallShape ch) ops os → List.Forall₂ (FedObs ch) ops os := by
  intro ops os st st' hr h
  induction h generalizing st with
  | nil => exact .nil
  | @cons op o ops os h1 h2 ih =>
    unfold run at hr
    obtain ⟨⟨o1, st1⟩, hr1, hr⟩ := bind_ok hr
    obtain ⟨⟨os2, st2⟩, hr2, hr⟩ := bind_ok hr
    have hr := ok_inj hr
    simp only [Prod.mk.injEq, List.cons.injEq] at hr
    obtain ⟨⟨rfl, rfl⟩, rfl⟩ := hr
    refine .cons ?_ (ih hr2)
    rcases h1 with ⟨m, d, d', rfl, h0, hn, hb, hd, hA⟩ | ⟨r, rfl, hn⟩
    · exact ⟨h0, process_ratio hr1 h0 hn, hb, d', hd, hA⟩
    · exact fun h0 => setRatio_ratio hr1 h0 hn

/-- Frame accounting of all calls, the hypothesis of the next two lemmas (C04). -/
def AllAccounted (ops : List Op) (os : List Obs) : Prop :=
  List.Forall₂ (fun op o => ∀ m d, op = Op.process m (some d) → o.ret = 0 → ∃ d', o.data = some d' ∧ Accounted d d') ops os

theorem shape_fed {x : ℕ → ℕ → F32} {ch U V : ℕ} {ops : List Op} {os : List Obs} (hF : Fed x ch U ops os V)
    (hO : ∀ op ∈ ops, OrdinaryOp 1 ch op ∧ SmallOut ch op) (hA : AllAccounted ops os) : List.Forall₂ (CallShape ch) ops os := by
  induction hF with
  | nil => exact .nil
  | call U V m d d' o ops os hP h0 hd hF ih =>
    cases hA with
    | cons h1 h2 =>
      refine .cons (Or.inl ?_) (ih (fun op h => hO op (List.mem_cons_of_mem _ h)) h2)
      obtain ⟨d1, hd1, hA⟩ := h1 m d rfl h0
      obtain ⟨a, b⟩ := hO _ (List.mem_cons_self ..)
      cases a with
      | process _ _ h => exact ⟨m, d, d1, rfl, h0, (h d rfl).ratio, b, hd1, hA⟩
  | setRatio U V r o ops os hF ih =>
    cases hA with
    | cons h1 h2 =>
      refine .cons (Or.inr ⟨r, rfl, ?_⟩) (ih (fun op h => hO op (List.mem_cons_of_mem _ h)) h2)
      obtain ⟨a, b⟩ := hO _ (List.mem_cons_self ..)
      cases a with
      | setRatio _ h => exact h

theorem shape_fedTo {x : ℕ → ℕ → F32} {ch U V : ℕ} {len : Option ℕ} {ops : List Op} {os : List Obs} (hF : FedTo x ch len U ops os V)
    (hO : ∀ op ∈ ops, SizedOp ch op) (hA : AllAccounted ops os) : List.Forall₂ (CallShape ch) ops os := by
  induction hF with
  | nil => exact .nil
  | call U V m d d' o ops os hP _ h0 hd hF ih =>
    cases hA with
    | cons h1 h2 =>
      refine .cons (Or.inl ?_) (ih (fun op h => hO op (List.mem_cons_of_mem _ h)) h2)
      obtain ⟨d1, hd1, hA⟩ := h1 m d rfl h0
      have a : SincSized ch d := hO _ (List.mem_cons_self ..)
      exact ⟨m, d, d1, rfl, h0, a.ratio, a.outSize, hd1, hA⟩
  | setRatio U V r o ops os hF ih =>
    cases hA with
    | cons h1 h2 => exact .cons (Or.inr ⟨r, rfl, hO (.setRatio r) (List.mem_cons_self ..)⟩) (ih (fun op h => hO op (List.mem_cons_of_mem _ h)) h2)

theorem sized_ordinary {ch : ℕ} {op : Op} (h : SizedOp ch op) : OrdinaryOp 1 ch op := by
  cases op with
  | process m d =>
    refine .process m d (fun x hx => ?_)
    subst hx
    have h : SincSized ch x := h
    exact ⟨h.ratio, h.inSize.le.trans (by norm_num), h.outSize.trans (by norm_num), by omega⟩
  | setRatio r => exact .setRatio r h
  | reset => exact .reset
  | read => exact absurd h id

/-- Room for a single frame per call: the ratio does not move. -/
theorem glides_stuck {ε l : ℚ} {ops : List Op} {os : List Obs} {a : List ℚ} (h : Glides ε l ops os a)
    (h1 : ∀ op ∈ ops, (∀ r, op ≠ .setRatio r) ∧ ∀ m d, op = .process m (some d) → d.outputFrames ≤ 1) (q : ℚ) (hq : q ≠ 0)
    (hl : l = q ∨ (l = 0 ∧ ∀ m d rest, ops = .process m (some d) :: rest → d.srcRatio.val = some q)) : ∀ r ∈ a, r = q := by
  induction h with
  | nil => simp
  | call l m d d' o t a b ops os h0 hd ht ha hG hR ih =>
    have hl0 : (if l = 0 then t else l) = q := by
      rcases hl with rfl | ⟨rfl, hl⟩
      · rw [if_neg hq]
      · have := hl m d ops rfl
        rw [ht] at this
        rw [if_pos rfl]
        exact Option.some.inj this
    rw [hl0] at hG hR ih
    have h2 := (h1 _ (List.mem_cons_self ..)).2 m d rfl
    have key : a = [] ∨ a = [q] := by
      have hr := hG.room
      match a, hr, hG with
      | [], _, _ => exact Or.inl rfl
      | [r], _, hG => exact Or.inr (by rw [hG.first r rfl])
      | _ :: _ :: _, ha, _ => simp at ha; omega
    have hlast : a.getLast?.getD q = q := by rcases key with rfl | rfl <;> rfl
    rw [hlast] at ih
    intro r hr
    rcases List.mem_append.1 hr with h | h
    · rcases key with rfl | rfl <;> simpa using h
    · exact ih (fun op h => h1 op (List.mem_cons_of_mem _ h)) (Or.inl rfl) r h
  | setRatio => exact absurd rfl ((h1 _ (List.mem_cons_self ..)).1 _)
  | setRejected => exact absurd rfl ((h1 _ (List.mem_cons_self ..)).1 _)

end Verif
