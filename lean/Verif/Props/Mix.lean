import Verif.Props.Glide
import Verif.Props.Filter
import Verif.Props.History
import Verif.Proof.Mix

/-! Accuracy of the linear converter (C19), and mixing before or after a conversion (C55). -/

namespace Verif
open Spec

theorem within_val {u : ℚ} {x : F32} (h : Within u x) : x.val = some (valOf x) ∧ |valOf x| ≤ u := by
  obtain ⟨q, h1, h2⟩ := h
  rw [valOf_eq h1]
  exact ⟨h1, h2⟩

theorem fract_time (ρ : ℕ → ℚ) (j : ℕ) : Int.fract (timeAt ρ j) = (posAt ⟨0, 0⟩ ρ j).i := by
  have := posAt_frac0 ρ j
  unfold timeAt
  rw [Int.fract_natCast_add]
  exact Int.fract_eq_self.2 this

theorem linear_near_at {x : ℕ → ℕ → F32} {u : ℚ} {c n : ℕ} {ρ : ℕ → ℚ} (h1 : ∀ j < n, ValidRatio (ρ j)) {j : ℕ} (hj : j < n)
    (hx0 : Within u (x (⌊timeAt ρ j⌋₊ - 1) c)) (hx1 : Within u (x ⌊timeAt ρ j⌋₊ c)) :
    ∃ y, (idealAt SRC_LINEAR x (timeAt ρ j) c).val = some y ∧ |y - exactLinear x (timeAt ρ j) c| ≤ u / 2 ^ 23 + 1 / 2 ^ 149 := by
  obtain ⟨hp, hp'⟩ := within_val hx0
  obtain ⟨hq, hq'⟩ := within_val hx1
  have hfr := posAt_frac0 ρ j
  have hrep : Rep0 f64 (posAt ⟨0, 0⟩ ρ j).i := posAt_rep0 ρ h1 j (by omega)
  have hs : (Fl.round f64 (posAt ⟨0, 0⟩ ρ j).i).val = some (posAt ⟨0, 0⟩ ρ j).i :=
    Fl.val_round_of_rep ⟨hrep, by rw [abs_of_nonneg hfr.1]; exact hfr.2.trans one_lt_emax⟩
  unfold idealAt exactLinear
  rw [if_neg (by decide), fract_time]
  refine ⟨_, (linearSample_val hp hq hs hfr.1 hfr.2).1, ?_⟩
  have := lin_near hp' hq' hfr.1 hfr.2
  rwa [show ∀ p s q : ℚ, p + s * (q - p) = (1 - s) * p + s * q by intros; ring] at this

theorem linear_near {x : ℕ → ℕ → F32} {u : ℚ} {c n : ℕ} (hx : ∀ k, Within u (x k c)) {ρ : ℕ → ℚ} (h1 : ∀ j < n, ValidRatio (ρ j)) {j : ℕ} (hj : j < n) :
    ∃ y, (idealAt SRC_LINEAR x (timeAt ρ j) c).val = some y ∧ |y - exactLinear x (timeAt ρ j) c| ≤ u / 2 ^ 23 + 1 / 2 ^ 149 :=
  linear_near_at h1 hj (hx _) (hx _)

/-- C19, accuracy: every sample the linear converter puts out differs from the exact interpolation between its two neighbours, at the time of the output frame, by no more than
`u / 2^23 + 2^-149`, if the samples of its channel are of magnitude at most `u`. -/
theorem C19_near (cfg : Config) (ch : ℕ) (hc : ch ≤ 8355967) (e : ℤ) (st st1 : SrcState)
    (h : srcNew cfg SRC_LINEAR ch = .ok (e, some st)) (x : ℕ → ℕ → F32) (ops : List Op) (os : List Obs)
    (V : ℕ) (hO : ∀ op ∈ ops, OrdinaryOp 1 ch op) (hr : run ops st = .ok (os, st1)) (hF : Fed x ch 0 ops os V) :
    ∃ ρ : ℕ → ℚ, (∀ j < (outputs ch os).length, 1 / 256 ≤ ρ j ∧ ρ j ≤ 256) ∧ ratiosFrom ratioAt ch 0 ops os = (List.range (outputs ch os).length).map ρ ∧
      ∀ j f c s u, (outputs ch os)[j]? = some f → f[c]? = some s → (∀ k, Within u (x k c)) →
        ∃ y, s.val = some y ∧ |y - exactLinear x (timeAt ρ j) c| ≤ u / 2 ^ 23 + 1 / 2 ^ 149 := by
  obtain ⟨ρ, h1, -, hR, h2, -⟩ := C24_interp cfg SRC_LINEAR (Or.inr rfl) ch hc e st st1 h x ops os V hO hr hF
  refine ⟨ρ, h1, hR, fun j f c s u hf hs hx => ?_⟩
  obtain ⟨hj, rfl⟩ := getElem?_of_map h2 hf
  obtain ⟨-, rfl⟩ := getElem?_of_map (n := ch) rfl hs
  exact linear_near hx h1 hj

/-! ### Mixing -/

theorem mixed_of {a b ε : ℚ} {ch n : ℕ} {X Y Z : ℕ → ℕ → F32} {EX EY EZ : ℕ → ℕ → ℚ} {x y z : List (List F32)}
    (hX : x = (List.range n).map (fun j => frameOf ch (X j))) (hY : y = (List.range n).map (fun j => frameOf ch (Y j)))
    (hZ : z = (List.range n).map (fun j => frameOf ch (Z j)))
    (kX : ∀ j < n, ∀ c < ch, ∃ v, (X j c).val = some v ∧ |v - EX j c| ≤ ε) (kY : ∀ j < n, ∀ c < ch, ∃ v, (Y j c).val = some v ∧ |v - EY j c| ≤ ε)
    (kZ : ∀ j < n, ∀ c < ch, ∃ v, (Z j c).val = some v ∧ |v - EZ j c| ≤ ε) (hE : ∀ j < n, ∀ c, EZ j c = a * EX j c + b * EY j c) :
    MixedOut a b ((1 + |a| + |b|) * ε) x y z := by
  refine ⟨by rw [hX, hZ]; simp, by rw [hY, hZ]; simp, fun j f g h hf hg hh => ?_⟩
  obtain ⟨hj, rfl⟩ := getElem?_of_map hX hf
  obtain ⟨-, rfl⟩ := getElem?_of_map hY hg
  obtain ⟨-, rfl⟩ := getElem?_of_map hZ hh
  refine ⟨by simp [frameOf], by simp [frameOf], fun c u v w hu hv hw => ?_⟩
  obtain ⟨hc, rfl⟩ := getElem?_of_map (n := ch) rfl hu
  obtain ⟨-, rfl⟩ := getElem?_of_map (n := ch) rfl hv
  obtain ⟨-, rfl⟩ := getElem?_of_map (n := ch) rfl hw
  obtain ⟨p, p1, p2⟩ := kX j hj c hc
  obtain ⟨q, q1, q2⟩ := kY j hj c hc
  obtain ⟨r, r1, r2⟩ := kZ j hj c hc
  refine ⟨p, q, r, p1, q1, r1, ?_⟩
  rw [hE j hj c] at r2
  have e : r - (a * p + b * q) = (r - (a * EX j c + b * EY j c)) + (-(a * (p - EX j c)) + -(b * (q - EY j c))) := by ring
  have s1 : |a * (p - EX j c)| ≤ |a| * ε := by rw [abs_mul]; exact mul_le_mul_of_nonneg_left p2 (abs_nonneg _)
  have s2 : |b * (q - EY j c)| ≤ |b| * ε := by rw [abs_mul]; exact mul_le_mul_of_nonneg_left q2 (abs_nonneg _)
  rw [e]
  refine (abs_add_le _ _).trans ?_
  have := abs_add_le (-(a * (p - EX j c))) (-(b * (q - EY j c)))
  rw [abs_neg, abs_neg] at this
  linarith

theorem ordinary_same {lo ch : ℤ} {ops ops' : List Op} (h : List.Forall₂ SameCall ops ops') (hO : ∀ op ∈ ops, OrdinaryOp lo ch op) :
    ∀ op ∈ ops', OrdinaryOp lo ch op := by
  induction h with
  | nil => simp
  | cons hab _ ih =>
    intro op hop
    rcases List.mem_cons.1 hop with rfl | hop
    · have := hO _ (List.mem_cons_self ..)
      cases hab with
      | process m m' d =>
        cases this with
        | process _ _ h => exact .process _ _ h
      | setRatio r => exact this
      | reset => exact this
    · exact ih (fun op h => hO op (List.mem_cons_of_mem _ h)) op hop

theorem sized_same {ch : ℤ} {ops ops' : List Op} (h : List.Forall₂ SameCall ops ops') (hO : ∀ op ∈ ops, SizedOp ch op) :
    ∀ op ∈ ops', SizedOp ch op := by
  induction h with
  | nil => simp
  | cons hab _ ih =>
    intro op hop
    rcases List.mem_cons.1 hop with rfl | hop
    · have := hO _ (List.mem_cons_self ..)
      cases hab with
      | process m m' d => cases d <;> exact this
      | setRatio r => exact this
      | reset => exact this
    · exact ih (fun op h => hO op (List.mem_cons_of_mem _ h)) op hop

theorem use_same {lo : ℚ} {ch : ℤ} {u : Use} {ops ops' : List Op} (h : List.Forall₂ SameCall ops ops') (hU : SincUse lo ch u ops) : SincUse lo ch u ops' := by
  induction hU generalizing ops' with
  | nil => cases h; exact .nil _
  | reset u u' ops hu _ ih => cases h with | cons a b => cases a; exact .reset _ _ _ hu (ih b)
  | noData u m ops _ ih => cases h with | cons a b => cases a; exact .noData _ _ _ (ih b)
  | freeRatio r ops hr _ ih => cases h with | cons a b => cases a; exact .freeRatio _ _ hr (ih b)
  | freeCall m d ops h1 h2 _ ih => cases h with | cons a b => cases a; exact .freeCall _ _ _ h1 h2 (ih b)
  | riseRatio q r ops h1 h2 _ ih => cases h with | cons a b => cases a; exact .riseRatio _ _ _ h1 h2 (ih b)
  | riseCall q m d ops h1 h2 _ ih => cases h with | cons a b => cases a; exact .riseCall _ _ _ _ h1 h2 (ih b)

theorem ratio_same {a b : ℚ} {ops ops' : List Op} (h : List.Forall₂ SameCall ops ops') (hO : ∀ op ∈ ops, RatioIn a b op) : ∀ op ∈ ops', RatioIn a b op := by
  induction h with
  | nil => simp
  | cons hab _ ih =>
    intro op hop
    rcases List.mem_cons.1 hop with rfl | hop
    · have := hO _ (List.mem_cons_self ..)
      cases hab with
      | process m m' d => cases d <;> exact this
      | setRatio r => exact this
      | reset => trivial
    · exact ih (fun op h => hO op (List.mem_cons_of_mem _ h)) op hop

theorem same_timing {cfg : Config} {type ch e : ℤ} {st st1 st2 : SrcState} (h : srcNew cfg type ch = .ok (e, some st)) {ops ops' : List Op} {os os' : List Obs}
    (hs : List.Forall₂ SameCall ops ops') (hr : run ops st = .ok (os, st1)) (hr' : run ops' st = .ok (os', st2)) : List.Forall₂ SameTiming os os' := by
  obtain ⟨os2, st3, h1, h2⟩ := C17 cfg st (.new _ _ _ _ h) ops ops' hs os st1 hr
  rw [hr'] at h1
  cases h1
  exact h2

/-- C55, zero order hold: mixing two streams and converting the mix is the same as converting the streams with the same calls and mixing the results. -/
theorem C55_zoh (cfg : Config) (ch : ℕ) (hc : ch ≤ 8355967) (x y z : ℕ → ℕ → F32) (a b : ℚ) (hM : Mixed a b x y z)
    (hx : ∀ k c, (x k c).val ≠ none) (hy : ∀ k c, (y k c).val ≠ none) (hz : ∀ k c, (z k c).val ≠ none) (ops ops' ops'' : List Op) (os os' os'' : List Obs)
    (hO : ∀ op ∈ ops, OrdinaryOp 1 ch op) (s1 : List.Forall₂ SameCall ops ops') (s2 : List.Forall₂ SameCall ops ops'')
    (h1 : Streamed cfg SRC_ZERO_ORDER_HOLD ch x ops os) (h2 : Streamed cfg SRC_ZERO_ORDER_HOLD ch y ops' os')
    (h3 : Streamed cfg SRC_ZERO_ORDER_HOLD ch z ops'' os'') : MixedOut a b 0 (outputs ch os) (outputs ch os') (outputs ch os'') := by
  obtain ⟨e, st, r1, V, n1, q1, f1⟩ := h1
  obtain ⟨_, _, r2, V2, n2, q2, f2⟩ := h2
  obtain ⟨_, _, r3, V3, n3, q3, f3⟩ := h3
  rw [n1] at n2 n3
  cases n2
  cases n3
  have t2 := same_timing n1 s1 q1 q2
  have t3 := same_timing n1 s2 q1 q3
  obtain ⟨ρ, v1, -, e1, o1, -⟩ := C24_interp cfg _ (Or.inl rfl) ch hc e st r1 n1 x ops os V hO q1 f1
  obtain ⟨ρ', -, -, e2, o2, -⟩ := C24_interp cfg _ (Or.inl rfl) ch hc e st r2 n1 y ops' os' V2 (ordinary_same s1 hO) q2 f2
  obtain ⟨ρ'', -, -, e3, o3, -⟩ := C24_interp cfg _ (Or.inl rfl) ch hc e st r3 n1 z ops'' os'' V3 (ordinary_same s2 hO) q3 f3
  obtain ⟨k2, k2'⟩ := schedule_congr s1 t2 e1 e2
  obtain ⟨k3, k3'⟩ := schedule_congr s2 t3 e1 e3
  rw [← k2] at o2
  rw [← k3] at o3
  have fin : ∀ {w : ℕ → ℕ → F32} (hw : ∀ k c, (w k c).val ≠ none) (t : ℚ) (c : ℕ),
      ∃ v, (idealAt SRC_ZERO_ORDER_HOLD w t c).val = some v ∧ |v - valOf (w (⌊t⌋₊ - 1) c)| ≤ 0 := by
    intro w hw t c
    obtain ⟨v, hv⟩ := Option.ne_none_iff_exists'.1 (hw (⌊t⌋₊ - 1) c)
    refine ⟨v, ?_, by rw [valOf_eq hv]; simp⟩
    unfold idealAt
    rw [if_pos (by decide)]
    exact hv
  have := mixed_of (a := a) (b := b) (ε := 0) (EX := fun j c => valOf (x (⌊timeAt ρ j⌋₊ - 1) c)) (EY := fun j c => valOf (y (⌊timeAt ρ' j⌋₊ - 1) c))
    (EZ := fun j c => valOf (z (⌊timeAt ρ'' j⌋₊ - 1) c)) o1 o2 o3 (fun j _ c _ => fin hx _ _) (fun j _ c _ => fin hy _ _) (fun j _ c _ => fin hz _ _)
    (fun j hj c => by rw [← (k2' j hj).2, ← (k3' j hj).2]; exact hM _ _)
  rwa [mul_zero] at this

theorem exactLinear_mix {a b : ℚ} {x y z : ℕ → ℕ → F32} (h : Mixed a b x y z) (t : ℚ) (c : ℕ) :
    exactLinear z t c = a * exactLinear x t c + b * exactLinear y t c := by
  unfold exactLinear
  rw [h, h]
  ring

/-- C55, linear: likewise up to rounding, for samples of magnitude at most `u`. -/
theorem C55_linear (cfg : Config) (ch : ℕ) (hc : ch ≤ 8355967) (x y z : ℕ → ℕ → F32) (a b u : ℚ) (hM : Mixed a b x y z)
    (hx : ∀ k c, Within u (x k c)) (hy : ∀ k c, Within u (y k c)) (hz : ∀ k c, Within u (z k c)) (ops ops' ops'' : List Op) (os os' os'' : List Obs)
    (hO : ∀ op ∈ ops, OrdinaryOp 1 ch op) (s1 : List.Forall₂ SameCall ops ops') (s2 : List.Forall₂ SameCall ops ops'')
    (h1 : Streamed cfg SRC_LINEAR ch x ops os) (h2 : Streamed cfg SRC_LINEAR ch y ops' os') (h3 : Streamed cfg SRC_LINEAR ch z ops'' os'') :
    MixedOut a b ((1 + |a| + |b|) * (u / 2 ^ 23 + 1 / 2 ^ 149)) (outputs ch os) (outputs ch os') (outputs ch os'') := by
  obtain ⟨e, st, r1, V, n1, q1, f1⟩ := h1
  obtain ⟨_, _, r2, V2, n2, q2, f2⟩ := h2
  obtain ⟨_, _, r3, V3, n3, q3, f3⟩ := h3
  rw [n1] at n2 n3
  cases n2
  cases n3
  have t2 := same_timing n1 s1 q1 q2
  have t3 := same_timing n1 s2 q1 q3
  obtain ⟨ρ, v1, -, e1, o1, -⟩ := C24_interp cfg _ (Or.inr rfl) ch hc e st r1 n1 x ops os V hO q1 f1
  obtain ⟨ρ', v2, -, e2, o2, -⟩ := C24_interp cfg _ (Or.inr rfl) ch hc e st r2 n1 y ops' os' V2 (ordinary_same s1 hO) q2 f2
  obtain ⟨ρ'', v3, -, e3, o3, -⟩ := C24_interp cfg _ (Or.inr rfl) ch hc e st r3 n1 z ops'' os'' V3 (ordinary_same s2 hO) q3 f3
  obtain ⟨k2, k2'⟩ := schedule_congr s1 t2 e1 e2
  obtain ⟨k3, k3'⟩ := schedule_congr s2 t3 e1 e3
  rw [← k2] at o2 v2
  rw [← k3] at o3 v3
  exact mixed_of (EX := fun j c => exactLinear x (timeAt ρ j) c) (EY := fun j c => exactLinear y (timeAt ρ' j) c)
    (EZ := fun j c => exactLinear z (timeAt ρ'' j) c) o1 o2 o3 (fun j hj c _ => linear_near (fun k => hx k c) v1 hj)
    (fun j hj c _ => linear_near (fun k => hy k c) v2 hj) (fun j hj c _ => linear_near (fun k => hz k c) v3 hj)
    (fun j hj c => by rw [← (k2' j hj).2, ← (k3' j hj).2]; exact exactLinear_mix hM _ _)

/-- The arithmetic of the sinc converters is within `δ` of exact on samples of magnitude at most `u`. -/
def Close (t : CoeffTable) (u δ : ℚ) : Prop :=
  ∀ (x : ℕ → ℕ → F32) (c : ℕ), (∀ k, Within u (x k c)) → ∀ (D : ℤ), sincReach (t.count - 2) t.increment 1 ≤ D → ∀ (ρ : ℚ), 1 / 256 ≤ ρ → ∀ τ : ℚ,
    ∃ y, (sincIdeal t x D ρ τ c).val = some y ∧ |y - exactIdeal t x D ρ τ c| ≤ δ

theorem close_within {cfg : Config} (hL : LibraryTables cfg) (hW : TablesWithin cfg) {type : ℤ} (ht : SincType type) {ch e : ℤ} {st : SrcState}
    (h : srcNew cfg type ch = .ok (e, some st)) {u : ℚ} (u0 : 0 ≤ u) (u1 : u ≤ 2 ^ 63) {t : CoeffTable} (hT : cfg.table type = some t) : Close t u (u / 4096 + 1 / 2 ^ 148) := by
  obtain ⟨t', hT', hd⟩ := sinc_table hL ht h
  rw [hT] at hT'
  cases hT'
  obtain ⟨B, G, -⟩ := table_geom hd
  intro x c hx D hD ρ hρ τ
  have hD : 0 ≤ D := by have := reach_nonneg hd; omega
  obtain ⟨y, a1, a2, -⟩ := ideal_near G (by omega) (by omega) (table_within hW hT) u0 u1 hD hρ (τ := τ) (fun k _ => hx k)
  exact ⟨y, a1, by rwa [show p2 (-148) = 1 / 2 ^ 148 by norm_num [p2]] at a2⟩

theorem close_shipped {cfg : Config} (hL : LibraryTables cfg) (hP : ShippedTables cfg) {type : ℤ} (ht : type = SRC_SINC_FASTEST ∨ type = SRC_SINC_MEDIUM_QUALITY)
    {ch e : ℤ} {st : SrcState} (h : srcNew cfg type ch = .ok (e, some st)) {u : ℚ} (u0 : 0 ≤ u) (u1 : u ≤ 2 ^ 63) {t : CoeffTable} (hT : cfg.table type = some t) :
    Close t u (u / 2 ^ 19 + 1 / 2 ^ 148) := by
  have ht' : SincType type := by rcases ht with rfl | rfl; exacts [Or.inr (Or.inr rfl), Or.inr (Or.inl rfl)]
  obtain ⟨t', hT', hd⟩ := sinc_table hL ht' h
  rw [hT] at hT'
  cases hT'
  intro x c hx D hD ρ hρ τ
  have hD : 0 ≤ D := by have := reach_nonneg hd; omega
  obtain ⟨g, g1, hG, hg⟩ : ∃ g g1, Good t g g1 ∧ g ≤ 8 := by
    obtain ⟨hA, hB⟩ := shipped_good hP hT
    rcases ht with ht | ht
    · rw [hA ht]; exact ⟨_, _, fastest_good, by norm_num⟩
    · rw [hB ht]; exact ⟨_, _, mid_good, by norm_num⟩
  obtain ⟨y, a1, a2, a3, -⟩ := hG.near x c u u0 u1 _ hD _ hρ τ (fun k _ => hx k)
  refine ⟨y, a1, a2.trans ?_⟩
  have a4 : 601 * (p2 (-30) + p2 (-33)) + 8 / 16777216 ≤ 1 / 2 ^ 19 := by norm_num [p2]
  have a5 := mul_le_mul_of_nonneg_right a4 u0
  have a6 := mul_le_mul_of_nonneg_right hg u0
  have a7 : p2 (-149) ≤ 1 / 2 ^ 148 := by norm_num [p2]
  generalize p2 (-149) = q at *
  generalize p2 (-30) + p2 (-33) = r at *
  linarith

theorem sinc_mix {cfg : Config} (hL : LibraryTables cfg) {type : ℤ} (ht : SincType type) {ch : ℕ} {x y z : ℕ → ℕ → F32} {a b u δ : ℚ} (hM : Mixed a b x y z)
    (hx : ∀ k c, Within u (x k c)) (hy : ∀ k c, Within u (y k c)) (hz : ∀ k c, Within u (z k c)) {len len' len'' : Option ℕ} {ops ops' ops'' : List Op} {os os' os'' : List Obs}
    (hS : ∀ op ∈ ops, SizedOp ch op) (hU : SincUse 0 ch (.rising 0) ops ∨ ∀ op ∈ ops, RatioIn 1 256 op) (s1 : List.Forall₂ SameCall ops ops') (s2 : List.Forall₂ SameCall ops ops'')
    (h1 : StreamedTo cfg type ch x len ops os) (h2 : StreamedTo cfg type ch y len' ops' os') (h3 : StreamedTo cfg type ch z len'' ops'' os'')
    (hC : ∀ e st t, srcNew cfg type ch = .ok (e, some st) → cfg.table type = some t → Close t u δ) :
    MixedOut a b ((1 + |a| + |b|) * δ) (outputs ch os) (outputs ch os') (outputs ch os'') := by
  obtain ⟨l1, e, st, r1, V, n1, q1, f1⟩ := h1
  obtain ⟨l2, _, _, r2, V2, n2, q2, f2⟩ := h2
  obtain ⟨l3, _, _, r3, V3, n3, q3, f3⟩ := h3
  rw [n1] at n2 n3
  cases n2
  cases n3
  have t2 := same_timing n1 s1 q1 q2
  have t3 := same_timing n1 s2 q1 q3
  obtain ⟨t, ρ, D, hT, v1, w1, e1, o1, -⟩ := C24_sinc cfg hL type ht ch e st r1 n1 x len l1 ops os V hS q1 f1
  obtain ⟨_, ρ', D', hT', v2, w2, e2, o2, -⟩ := C24_sinc cfg hL type ht ch e st r2 n1 y len' l2 ops' os' V2 (sized_same s1 hS) q2 f2
  obtain ⟨_, ρ'', D'', hT'', v3, w3, e3, o3, -⟩ := C24_sinc cfg hL type ht ch e st r3 n1 z len'' l3 ops'' os'' V3 (sized_same s2 hS) q3 f3
  rw [hT] at hT' hT''
  cases hT'
  cases hT''
  obtain ⟨k2, k2'⟩ := schedule_congr s1 t2 e1 e2
  obtain ⟨k3, k3'⟩ := schedule_congr s2 t3 e1 e3
  rw [← k2] at o2 v2 w2
  rw [← k3] at o3 v3 w3
  have C := hC e st t n1 hT
  refine mixed_of (EX := fun j c => exactIdeal t x (D j) (ρ j) (timeAt ρ j) c) (EY := fun j c => exactIdeal t y (D' j) (ρ' j) (timeAt ρ' j) c)
    (EZ := fun j c => exactIdeal t z (D'' j) (ρ'' j) (timeAt ρ'' j) c) o1 o2 o3 (fun j hj c _ => C x c (fun k => hx k c) _ (v1 j hj).2.2.1 _ (v1 j hj).1 _)
    (fun j hj c _ => C y c (fun k => hy k c) _ (v2 j hj).2.2.1 _ (v2 j hj).1 _) (fun j hj c _ => C z c (fun k => hz k c) _ (v3 j hj).2.2.1 _ (v3 j hj).1 _)
    (fun j hj c => ?_)
  have q1 : D j = allHistory t := (v1 j hj).2.2.2 (hU.symm.imp_left fun hR => (w1 1 256 hR j hj).1)
  have q2 : D' j = allHistory t := (v2 j hj).2.2.2 (hU.symm.imp (fun hR => (w2 1 256 (ratio_same s1 hR) j hj).1) (use_same s1))
  have q3 : D'' j = allHistory t := (v3 j hj).2.2.2 (hU.symm.imp (fun hR => (w3 1 256 (ratio_same s2 hR) j hj).1) (use_same s2))
  rw [← (k2' j hj).2, ← (k3' j hj).2, ← (k2' j hj).1, ← (k3' j hj).1, q1, q2, q3]
  exact exactIdeal_mix hM _ _ _ _

/-- C55, sinc: likewise up to the arithmetic of the filter, for any tables of the library's dimensions with coefficients in [-1, 1], while the ratio does not fall or stays at 1 or above.
The streams may be of different lengths. -/
theorem C55_sinc (cfg : Config) (hL : LibraryTables cfg) (hW : TablesWithin cfg) (type : ℤ) (ht : SincType type) (ch : ℕ) (x y z : ℕ → ℕ → F32) (a b u : ℚ)
    (hM : Mixed a b x y z) (u0 : 0 ≤ u) (u1 : u ≤ 2 ^ 63) (hx : ∀ k c, Within u (x k c)) (hy : ∀ k c, Within u (y k c)) (hz : ∀ k c, Within u (z k c))
    (len len' len'' : Option ℕ) (ops ops' ops'' : List Op) (os os' os'' : List Obs) (hS : ∀ op ∈ ops, SizedOp ch op) (hU : SincUse 0 ch (.rising 0) ops ∨ ∀ op ∈ ops, RatioIn 1 256 op)
    (s1 : List.Forall₂ SameCall ops ops') (s2 : List.Forall₂ SameCall ops ops'')
    (h1 : StreamedTo cfg type ch x len ops os) (h2 : StreamedTo cfg type ch y len' ops' os') (h3 : StreamedTo cfg type ch z len'' ops'' os'') :
    MixedOut a b ((1 + |a| + |b|) * (u / 4096 + 1 / 2 ^ 148)) (outputs ch os) (outputs ch os') (outputs ch os'') :=
  sinc_mix hL ht hM hx hy hz hS hU s1 s2 h1 h2 h3 fun _ _ _ h hT => close_within hL hW ht h u0 u1 hT

/-- C55, the tables in the source tree: the difference is at most two parts in a million of the level, for either factor and the sum. -/
theorem C55_sinc_shipped (cfg : Config) (hL : LibraryTables cfg) (hP : ShippedTables cfg) (type : ℤ) (ht : type = SRC_SINC_FASTEST ∨ type = SRC_SINC_MEDIUM_QUALITY)
    (ch : ℕ) (x y z : ℕ → ℕ → F32) (a b u : ℚ)
    (hM : Mixed a b x y z) (u0 : 0 ≤ u) (u1 : u ≤ 2 ^ 63) (hx : ∀ k c, Within u (x k c)) (hy : ∀ k c, Within u (y k c)) (hz : ∀ k c, Within u (z k c))
    (len len' len'' : Option ℕ) (ops ops' ops'' : List Op) (os os' os'' : List Obs) (hS : ∀ op ∈ ops, SizedOp ch op) (hU : SincUse 0 ch (.rising 0) ops ∨ ∀ op ∈ ops, RatioIn 1 256 op)
    (s1 : List.Forall₂ SameCall ops ops') (s2 : List.Forall₂ SameCall ops ops'')
    (h1 : StreamedTo cfg type ch x len ops os) (h2 : StreamedTo cfg type ch y len' ops' os') (h3 : StreamedTo cfg type ch z len'' ops'' os'') :
    MixedOut a b ((1 + |a| + |b|) * (u / 2 ^ 19 + 1 / 2 ^ 148)) (outputs ch os) (outputs ch os') (outputs ch os'') :=
  sinc_mix hL (by rcases ht with rfl | rfl; exacts [Or.inr (Or.inr rfl), Or.inr (Or.inl rfl)]) hM hx hy hz hS hU s1 s2 h1 h2 h3
    fun _ _ _ h hT => close_shipped hL hP ht h u0 u1 hT

/-! ### Mixing channels of one stream: any history of ratios -/

theorem exactIdeal_mix_ch {t : CoeffTable} {a b : ℚ} {x : ℕ → ℕ → F32} {c1 c2 c3 : ℕ} (h : MixedCh a b x c1 c2 c3) (D : ℤ) (ρ τ : ℚ) :
    exactIdeal t x D ρ τ c3 = a * exactIdeal t x D ρ τ c1 + b * exactIdeal t x D ρ τ c2 :=
  exactIdeal_mix (x := fun k _ => x k c1) (y := fun k _ => x k c2) (z := fun k _ => x k c3) (fun k _ => h k) D ρ τ 0

theorem mixed_frames {a b ε : ℚ} {ch n : ℕ} {X : ℕ → ℕ → F32} {E : ℕ → ℕ → ℚ} {x : List (List F32)} {c1 c2 c3 : ℕ}
    (hX : x = (List.range n).map (fun j => frameOf ch (X j))) (k1 : ∀ j < n, ∃ v, (X j c1).val = some v ∧ |v - E j c1| ≤ ε)
    (k2 : ∀ j < n, ∃ v, (X j c2).val = some v ∧ |v - E j c2| ≤ ε) (k3 : ∀ j < n, ∃ v, (X j c3).val = some v ∧ |v - E j c3| ≤ ε)
    (hE : ∀ j < n, E j c3 = a * E j c1 + b * E j c2) : ∀ f ∈ x, MixedFrame a b ((1 + |a| + |b|) * ε) f c1 c2 c3 := by
  intro f hf u v w hu hv hw
  obtain ⟨j, hf'⟩ := List.mem_iff_getElem?.1 hf
  obtain ⟨hj, rfl⟩ := getElem?_of_map hX hf'
  obtain ⟨-, rfl⟩ := getElem?_of_map (n := ch) rfl hu
  obtain ⟨-, rfl⟩ := getElem?_of_map (n := ch) rfl hv
  obtain ⟨-, rfl⟩ := getElem?_of_map (n := ch) rfl hw
  obtain ⟨p, p1, p2⟩ := k1 j hj
  obtain ⟨q, q1, q2⟩ := k2 j hj
  obtain ⟨r, r1, r2⟩ := k3 j hj
  refine ⟨p, q, r, p1, q1, r1, ?_⟩
  rw [hE j hj] at r2
  have e : r - (a * p + b * q) = (r - (a * E j c1 + b * E j c2)) + (-(a * (p - E j c1)) + -(b * (q - E j c2))) := by ring
  have s1 : |a * (p - E j c1)| ≤ |a| * ε := by rw [abs_mul]; exact mul_le_mul_of_nonneg_left p2 (abs_nonneg _)
  have s2 : |b * (q - E j c2)| ≤ |b| * ε := by rw [abs_mul]; exact mul_le_mul_of_nonneg_left q2 (abs_nonneg _)
  rw [e]
  refine (abs_add_le _ _).trans ?_
  have := abs_add_le (-(a * (p - E j c1))) (-(b * (q - E j c2)))
  rw [abs_neg, abs_neg] at this
  linarith

/-- C55, channels, linear. -/
theorem C55_channels_linear (cfg : Config) (ch : ℕ) (hc : ch ≤ 8355967) (x : ℕ → ℕ → F32) (a b u : ℚ) (c1 c2 c3 : ℕ) (hM : MixedCh a b x c1 c2 c3)
    (hx : ∀ k, ∀ c ∈ [c1, c2, c3], Within u (x k c)) (ops : List Op) (os : List Obs) (hO : ∀ op ∈ ops, OrdinaryOp 1 ch op) (h : Streamed cfg SRC_LINEAR ch x ops os) :
    ∀ f ∈ outputs ch os, MixedFrame a b ((1 + |a| + |b|) * (u / 2 ^ 23 + 1 / 2 ^ 149)) f c1 c2 c3 := by
  obtain ⟨e, st, r1, V, n1, q1, f1⟩ := h
  obtain ⟨ρ, v1, -, e1, o1, -⟩ := C24_interp cfg _ (Or.inr rfl) ch hc e st r1 n1 x ops os V hO q1 f1
  have hn : ∀ c ∈ [c1, c2, c3], ∀ j < (outputs ch os).length, _ := fun c hc j hj => linear_near (fun k => hx k c hc) v1 hj
  refine mixed_frames (E := fun j c => exactLinear x (timeAt ρ j) c) o1 (hn _ (by simp)) (hn _ (by simp)) (hn _ (by simp)) fun j hj => ?_
  exact exactLinear_mix (x := fun k _ => x k c1) (y := fun k _ => x k c2) (z := fun k _ => x k c3) (fun k _ => hM k) (timeAt ρ j) 0

theorem channels_mix {cfg : Config} (hL : LibraryTables cfg) {type : ℤ} (ht : SincType type) {ch : ℕ} {x : ℕ → ℕ → F32} {a b u δ : ℚ} {c1 c2 c3 : ℕ}
    (hM : MixedCh a b x c1 c2 c3) (hx : ∀ k, ∀ c ∈ [c1, c2, c3], Within u (x k c)) {len : Option ℕ} {ops : List Op} {os : List Obs}
    (hS : ∀ op ∈ ops, SizedOp ch op) (h : StreamedTo cfg type ch x len ops os)
    (hC : ∀ e st t, srcNew cfg type ch = .ok (e, some st) → cfg.table type = some t → Close t u δ) :
    ∀ f ∈ outputs ch os, MixedFrame a b ((1 + |a| + |b|) * δ) f c1 c2 c3 := by
  obtain ⟨l1, e, st, r1, V, n1, q1, f1⟩ := h
  obtain ⟨t, ρ, D, hT, v1, -, e1, o1, -⟩ := C24_sinc cfg hL type ht ch e st r1 n1 x len l1 ops os V hS q1 f1
  have C := hC e st t n1 hT
  have hn : ∀ c ∈ [c1, c2, c3], ∀ j < (outputs ch os).length, _ := fun c hc j hj => C x c (fun k => hx k c hc) _ (v1 j hj).2.2.1 _ (v1 j hj).1 (timeAt ρ j)
  exact mixed_frames (E := fun j c => exactIdeal t x (D j) (ρ j) (timeAt ρ j) c) o1 (hn _ (by simp)) (hn _ (by simp)) (hn _ (by simp))
    fun j hj => exactIdeal_mix_ch hM _ _ _

/-- C55, channels, sinc: a channel that carries the mix of two others comes out as the mix of the other two, for every history of ratios. -/
theorem C55_channels_sinc (cfg : Config) (hL : LibraryTables cfg) (hW : TablesWithin cfg) (type : ℤ) (ht : SincType type) (ch : ℕ) (x : ℕ → ℕ → F32) (a b u : ℚ)
    (c1 c2 c3 : ℕ) (hM : MixedCh a b x c1 c2 c3) (u0 : 0 ≤ u) (u1 : u ≤ 2 ^ 63) (hx : ∀ k, ∀ c ∈ [c1, c2, c3], Within u (x k c)) (len : Option ℕ)
    (ops : List Op) (os : List Obs) (hS : ∀ op ∈ ops, SizedOp ch op) (h : StreamedTo cfg type ch x len ops os) :
    ∀ f ∈ outputs ch os, MixedFrame a b ((1 + |a| + |b|) * (u / 4096 + 1 / 2 ^ 148)) f c1 c2 c3 :=
  channels_mix hL ht hM hx hS h fun _ _ _ h hT => close_within hL hW ht h u0 u1 hT

/-- C55, channels, the tables in the source tree. -/
theorem C55_channels_sinc_shipped (cfg : Config) (hL : LibraryTables cfg) (hP : ShippedTables cfg) (type : ℤ)
    (ht : type = SRC_SINC_FASTEST ∨ type = SRC_SINC_MEDIUM_QUALITY) (ch : ℕ) (x : ℕ → ℕ → F32) (a b u : ℚ)
    (c1 c2 c3 : ℕ) (hM : MixedCh a b x c1 c2 c3) (u0 : 0 ≤ u) (u1 : u ≤ 2 ^ 63) (hx : ∀ k, ∀ c ∈ [c1, c2, c3], Within u (x k c)) (len : Option ℕ)
    (ops : List Op) (os : List Obs) (hS : ∀ op ∈ ops, SizedOp ch op) (h : StreamedTo cfg type ch x len ops os) :
    ∀ f ∈ outputs ch os, MixedFrame a b ((1 + |a| + |b|) * (u / 2 ^ 19 + 1 / 2 ^ 148)) f c1 c2 c3 :=
  channels_mix hL (by rcases ht with rfl | rfl; exacts [Or.inr (Or.inr rfl), Or.inr (Or.inl rfl)]) hM hx hS h fun _ _ _ h hT => close_shipped hL hP ht h u0 u1 hT

/-- Hundred frames of the sample `w`. -/
def level (w : F32) (k _c : ℕ) : F32 := if k < 100 then w else zero32

theorem level_streamed (w : F32) : ∃ os, StreamedTo libCfg SRC_SINC_FASTEST 2 (level w) (some 100) [.process (fun _ => w) (some sincCall)] os ∧ 98 ≤ (outputs 2 os).length := by
  obtain ⟨st, o, st1, d', h1, h2, h3, h4, h5, -, h7⟩ := sinc_one_call_of libCfg_tables (t := Fastest.table)
    (by simp [Config.table, libCfg, SRC_SINC_FASTEST, SRC_SINC_MEDIUM_QUALITY, SRC_SINC_BEST_QUALITY])
  have hr : run [.process (fun _ => zero32) (some sincCall)] st = .ok ([o], st1) := by
    simp only [run, h2]; rfl
  obtain ⟨os', st1', hr', hs⟩ := C17 libCfg st (.new _ _ _ _ h1) _ [.process (fun _ => w) (some sincCall)] (.cons (.process _ _ _) .nil) _ _ hr
  cases hs with
  | cons hs hnil =>
  rename_i o' l
  cases hnil
  have hret : o'.ret = 0 := by rw [hs.ret]; exact h3
  have hdat : o'.data = some d' := by rw [hs.data]; exact h4
  refine ⟨[o'], ⟨?_, 0, st, st1', 100, h1, hr', ?_⟩, ?_⟩
  · intro n hn k hk c
    cases hn
    simp [level, hk]
  · exact FedTo.call 0 100 (fun _ => w) sincCall d' o' [] [] (x := level w) (ch := 2) (len := some 100) (fun k c hk _ => by
      have : k < 100 := by exact_mod_cast (show (k : ℤ) < 100 from hk)
      simp [level, this]) (fun _ => rfl) hret hdat (by rw [h5]; exact .nil _)
  · simp only [run] at hr'
    obtain ⟨⟨o1, s1⟩, r1, hr'⟩ := bind_ok hr'
    obtain ⟨⟨o2, s2⟩, -, hr'⟩ := bind_ok hr'
    have hr' := ok_inj hr'
    simp only [Prod.mk.injEq, List.cons.injEq] at hr'
    obtain ⟨⟨rfl, _⟩, rfl⟩ := hr'
    simp only [Op.run] at r1
    obtain ⟨⟨e, m', st', d1⟩, -, r1⟩ := bind_ok r1
    have r1 := ok_inj r1
    simp only [Prod.mk.injEq] at r1
    obtain ⟨rfl, -⟩ := r1
    have hdat : d1 = some d' := hdat
    subst hdat
    simp [outputs, outOf]
    omega

theorem int32_val {n : ℤ} (h : |n| < 2 ^ 24) : (Fl.ofInt f32 n).val = some (n : ℚ) := Fl.val_ofInt (by norm_num [f32]; norm_num at h; exact h.le)

/-- The hypotheses of C55_sinc and C55_sinc_shipped are met by three calls, each with hundred frames of ones, of twos and of threes, and so the threes come out as ones plus twos. -/
example : ∃ (os os' os'' : List Obs), 98 ≤ (outputs 2 os'').length ∧
    StreamedTo libCfg SRC_SINC_FASTEST 2 (level (Fl.ofInt f32 1)) (some 100) [.process (fun _ => Fl.ofInt f32 1) (some sincCall)] os ∧
    StreamedTo libCfg SRC_SINC_FASTEST 2 (level (Fl.ofInt f32 2)) (some 100) [.process (fun _ => Fl.ofInt f32 2) (some sincCall)] os' ∧
    StreamedTo libCfg SRC_SINC_FASTEST 2 (level (Fl.ofInt f32 3)) (some 100) [.process (fun _ => Fl.ofInt f32 3) (some sincCall)] os'' ∧
    MixedOut 1 1 (3 * (3 / 2 ^ 19 + 1 / 2 ^ 148)) (outputs 2 os) (outputs 2 os') (outputs 2 os'') := by
  obtain ⟨os, h1, -⟩ := level_streamed (Fl.ofInt f32 1)
  obtain ⟨os', h2, -⟩ := level_streamed (Fl.ofInt f32 2)
  obtain ⟨os'', h3, h4⟩ := level_streamed (Fl.ofInt f32 3)
  have e1 := int32_val (n := 1) (by norm_num)
  have e2 := int32_val (n := 2) (by norm_num)
  have e3 := int32_val (n := 3) (by norm_num)
  have hW : ∀ w q, w.val = some q → |q| ≤ 3 → ∀ k c, Within 3 (level w k c) := by
    intro w q hw hq k c
    unfold level
    split_ifs
    · exact ⟨q, hw, hq⟩
    · exact ⟨0, zero32_val, by norm_num⟩
  refine ⟨os, os', os'', h4, h1, h2, h3, ?_⟩
  have := C55_sinc_shipped libCfg libCfg_tables libCfg_shipped SRC_SINC_FASTEST (Or.inl rfl) 2 _ _ _ 1 1 3 (fun k c => ?_) (by norm_num) (by norm_num)
    (hW _ _ e1 (by norm_num)) (hW _ _ e2 (by norm_num)) (hW _ _ e3 (by norm_num)) _ _ _ _ _ _ _ _ _ (fun op hop => by rw [List.mem_singleton.1 hop]; exact sincCall_sized)
    (Or.inl (.riseCall _ _ _ _ sincCall_sized (fun r hr => ?_) (.nil _))) (.cons (.process _ _ _) .nil) (.cons (.process _ _ _) .nil) h1 h2 h3
  · norm_num at this ⊢
    exact this
  · unfold level
    split_ifs
    · rw [valOf_eq e1, valOf_eq e2, valOf_eq e3]; norm_num
    · rw [valOf_eq zero32_val]; norm_num
  · have h1 : sincCall.srcRatio.val = some 1 := one64_val
    rw [h1] at hr
    cases hr
    norm_num

theorem small_stream (K : Kind) (x : ℕ → ℕ → F32) (m : Mem) (P : Presents x 2 0 m smallCall) : ∃ os, Streamed ⟨none, none, none⟩ K.type 2 x [.process m (some smallCall)] os ∧
    0 < (outputs 2 os).length := by
  obtain ⟨e, st, h⟩ : ∃ e st, srcNew ⟨none, none, none⟩ K.type (2 : ℕ) = .ok (e, some st) := by
    cases K
    · exact ⟨_, _, zoh2_new⟩
    · refine ⟨0, { stateInit .linear 2 with priv := .linear (linearReset 2 (interpInit 2)) }, ?_⟩
      simp [srcNew, Config.table, Kind.type, SRC_LINEAR, SRC_ZERO_ORDER_HOLD, SRC_SINC_BEST_QUALITY, SRC_SINC_MEDIUM_QUALITY, SRC_SINC_FASTEST,
        linearStateNew, assertM, bind, Except.bind, pure, Except.pure, resetPriv, stateInit, Err.NO_ERROR]
  obtain ⟨a, b, c, d⟩ := smallCall_ok K
  have T := new_track x h (by norm_num)
  obtain ⟨o1, s1, r1, z1⟩ := call_succeeds T a b c d m
  obtain ⟨d1, ρ1, g, u, t, e1, e2, _, e3, _, e4, e5, e6, e7, e8, eb, es, eu, ek, l1, T1, _⟩ := track_call T a.one P r1 z1
  refine ⟨[o1], ⟨e, st, s1, _, h, by simp only [run, r1]; rfl, .call _ _ _ _ d1 _ _ _ P z1 e1 (.nil _)⟩, ?_⟩
  have hg : 0 < g := by
    by_contra hg
    have hg : g = 0 := by omega
    subst hg
    have := es (by simp [smallCall]) (by simp [smallCall])
    simp only [posAt, smallCall] at this
    cases K <;> dsimp only at this <;> omega
  simp only [outputs, List.flatMap_cons, List.length_append, e8, List.length_map, List.length_range]
  omega

theorem small_streamed (K : Kind) (w : F32) : ∃ os, Streamed ⟨none, none, none⟩ K.type 2 (fun _ _ => w) [.process (fun _ => w) (some smallCall)] os ∧
    0 < (outputs 2 os).length := small_stream K _ _ (fun _ _ _ _ => rfl)

/-- The hypotheses of C55_zoh and C55_linear are met by calls with ones, twos and threes. -/
example (K : Kind) : ∃ (os os' os'' : List Obs), 0 < (outputs 2 os'').length ∧ Mixed 1 1 (fun _ _ => Fl.ofInt f32 1) (fun _ _ => Fl.ofInt f32 2) (fun _ _ => Fl.ofInt f32 3) ∧
    Streamed ⟨none, none, none⟩ K.type 2 (fun _ _ => Fl.ofInt f32 1) [.process (fun _ => Fl.ofInt f32 1) (some smallCall)] os ∧
    Streamed ⟨none, none, none⟩ K.type 2 (fun _ _ => Fl.ofInt f32 2) [.process (fun _ => Fl.ofInt f32 2) (some smallCall)] os' ∧
    Streamed ⟨none, none, none⟩ K.type 2 (fun _ _ => Fl.ofInt f32 3) [.process (fun _ => Fl.ofInt f32 3) (some smallCall)] os'' ∧
    (∀ op ∈ [Op.process (fun _ => Fl.ofInt f32 1) (some smallCall)], OrdinaryOp 1 (2 : ℕ) op) := by
  obtain ⟨os, h1, -⟩ := small_streamed K (Fl.ofInt f32 1)
  obtain ⟨os', h2, -⟩ := small_streamed K (Fl.ofInt f32 2)
  obtain ⟨os'', h3, h4⟩ := small_streamed K (Fl.ofInt f32 3)
  refine ⟨os, os', os'', h4, fun k c => ?_, h1, h2, h3, fun op hop => ?_⟩
  · rw [valOf_eq (int32_val (n := 1) (by norm_num)), valOf_eq (int32_val (n := 2) (by norm_num)), valOf_eq (int32_val (n := 3) (by norm_num))]; norm_num
  · rw [List.mem_singleton.1 hop]
    exact .process _ _ (by rintro _ ⟨⟩; exact (smallCall_ok K).1.one)

end Verif
