import Verif.Props.Mix
import Verif.Proof.Louder

/-! Changing the volume by a power of two before or after a conversion (C83). -/

namespace Verif
open Spec

theorem louder_of {g : ℚ} {ch k : ℕ} {X Y : ℕ → ℕ → F32} {x y : List (List F32)} (hX : x = (List.range k).map (fun j => frameOf ch (X j)))
    (hY : y = (List.range k).map (fun j => frameOf ch (Y j))) (h : ∀ j < k, ∀ c < ch, LouderSample g (X j c) (Y j c)) : LouderOut g x y := by
  refine ⟨by rw [hX, hY]; simp, fun j f f' hf hg => ?_⟩
  obtain ⟨hj, rfl⟩ := getElem?_of_map hX hf
  obtain ⟨-, rfl⟩ := getElem?_of_map hY hg
  refine ⟨by simp [frameOf], fun c u v hu hv => ?_⟩
  obtain ⟨hc, rfl⟩ := getElem?_of_map (n := ch) rfl hu
  obtain ⟨-, rfl⟩ := getElem?_of_map (n := ch) rfl hv
  exact h j hj c hc

theorem frac_grid {n : ℕ} {ρ : ℕ → ℚ} (h1 : ∀ j < n, ValidRatio (ρ j)) {j : ℕ} (hj : j < n) {c : ℚ} (hc : (Fl.round f64 (Int.fract (timeAt ρ j))).val = some c) : Grid (-60) c := by
  obtain ⟨-, rfl⟩ := fin_round hc
  rw [fract_time]
  exact (grid_pos j fun i hi => h1 i (by omega)).rq f64

theorem signal_louder {g : ℚ} {c1 c2 : ℕ} {x y : ℕ → ℕ → F32} (h : ∀ k, ∃ p, (x k c1).val = some p ∧ (y k c2).val = some (g * p)) (z : ℤ) :
    ∃ p, (signal x z c1).val = some p ∧ (signal y z c2).val = some (g * p) := by
  unfold signal
  split_ifs with hz
  · exact ⟨0, zero32_val, by rw [mul_zero]; exact zero32_val⟩
  · exact h _

/-- C83, zero order hold: every sample of the louder stream comes out exactly as much louder. -/
theorem C83_zoh (cfg : Config) (ch : ℕ) (hc : ch ≤ 8355967) (g : ℚ) (x y : ℕ → ℕ → F32) (hM : LouderBy g x y) (ops ops' : List Op) (os os' : List Obs)
    (hO : ∀ op ∈ ops, OrdinaryOp 1 ch op) (s1 : List.Forall₂ SameCall ops ops')
    (h1 : Streamed cfg SRC_ZERO_ORDER_HOLD ch x ops os) (h2 : Streamed cfg SRC_ZERO_ORDER_HOLD ch y ops' os') :
    List.Forall₂ (List.Forall₂ fun u v : F32 => ∃ p, u.val = some p ∧ v.val = some (g * p)) (outputs ch os) (outputs ch os') := by
  obtain ⟨e, st, r1, V, n1, q1, f1⟩ := h1
  obtain ⟨_, _, r2, V2, n2, q2, f2⟩ := h2
  rw [n1] at n2
  cases n2
  have t2 := same_timing n1 s1 q1 q2
  obtain ⟨ρ, v1, -, e1, o1, -⟩ := C24_interp cfg _ (Or.inl rfl) ch hc e st r1 n1 x ops os V hO q1 f1
  obtain ⟨ρ', -, -, e2, o2, -⟩ := C24_interp cfg _ (Or.inl rfl) ch hc e st r2 n1 y ops' os' V2 (ordinary_same s1 hO) q2 f2
  obtain ⟨k2, k2'⟩ := schedule_congr s1 t2 e1 e2
  rw [← k2] at o2
  rw [o1, o2, List.forall₂_map_left_iff, List.forall₂_map_right_iff, List.forall₂_same]
  intro j hj
  have hj := List.mem_range.1 hj
  unfold frameOf
  rw [List.forall₂_map_left_iff, List.forall₂_map_right_iff, List.forall₂_same]
  intro c _
  rw [← (k2' j hj).2]
  unfold idealAt
  rw [if_pos (by decide), if_pos (by decide)]
  exact hM _ _

/-- C83, linear. -/
theorem C83_linear (cfg : Config) (ch : ℕ) (hc : ch ≤ 8355967) (g : ℚ) (hG : Gain g) (x y : ℕ → ℕ → F32) (hM : LouderBy g x y) (ops ops' : List Op) (os os' : List Obs)
    (hO : ∀ op ∈ ops, OrdinaryOp 1 ch op) (s1 : List.Forall₂ SameCall ops ops') (h1 : Streamed cfg SRC_LINEAR ch x ops os) (h2 : Streamed cfg SRC_LINEAR ch y ops' os') :
    LouderOut g (outputs ch os) (outputs ch os') := by
  obtain ⟨e, st, r1, V, n1, q1, f1⟩ := h1
  obtain ⟨_, _, r2, V2, n2, q2, f2⟩ := h2
  rw [n1] at n2
  cases n2
  have t2 := same_timing n1 s1 q1 q2
  obtain ⟨ρ, v1, -, e1, o1, -⟩ := C24_interp cfg _ (Or.inr rfl) ch hc e st r1 n1 x ops os V hO q1 f1
  obtain ⟨ρ', -, -, e2, o2, -⟩ := C24_interp cfg _ (Or.inr rfl) ch hc e st r2 n1 y ops' os' V2 (ordinary_same s1 hO) q2 f2
  obtain ⟨k2, k2'⟩ := schedule_congr s1 t2 e1 e2
  rw [← k2] at o2
  refine louder_of o1 o2 fun j hj c _ => ?_
  rw [← (k2' j hj).2]
  unfold idealAt
  rw [if_neg (by decide), if_neg (by decide)]
  exact linear_louder hG (hM _ _) (hM _ _) fun q hq => frac_grid v1 hj hq

/-- C83, sinc, with any coefficients in tables of the library's dimensions, while the ratio does not fall or stays at 1 or above. -/
theorem C83_sinc (cfg : Config) (hL : LibraryTables cfg) (type : ℤ) (ht : SincType type) (ch : ℕ) (g : ℚ) (hG : Gain g) (x y : ℕ → ℕ → F32) (hM : LouderBy g x y)
    (len len' : Option ℕ) (ops ops' : List Op) (os os' : List Obs) (hS : ∀ op ∈ ops, SizedOp ch op) (hU : SincUse 0 ch (.rising 0) ops ∨ ∀ op ∈ ops, RatioIn 1 256 op)
    (s1 : List.Forall₂ SameCall ops ops') (h1 : StreamedTo cfg type ch x len ops os) (h2 : StreamedTo cfg type ch y len' ops' os') :
    LouderOut g (outputs ch os) (outputs ch os') := by
  obtain ⟨l1, e, st, r1, V, n1, q1, f1⟩ := h1
  obtain ⟨l2, _, _, r2, V2, n2, q2, f2⟩ := h2
  rw [n1] at n2
  cases n2
  have t2 := same_timing n1 s1 q1 q2
  obtain ⟨t, ρ, D, hT, v1, w1, e1, o1, -⟩ := C24_sinc cfg hL type ht ch e st r1 n1 x len l1 ops os V hS q1 f1
  obtain ⟨_, ρ', D', hT', v2, w2, e2, o2, -⟩ := C24_sinc cfg hL type ht ch e st r2 n1 y len' l2 ops' os' V2 (sized_same s1 hS) q2 f2
  rw [hT] at hT'
  cases hT'
  obtain ⟨t', hT', hd⟩ := sinc_table hL ht n1
  rw [hT] at hT'
  cases hT'
  obtain ⟨B, G, -⟩ := table_geom hd
  obtain ⟨k2, k2'⟩ := schedule_congr s1 t2 e1 e2
  rw [← k2] at o2 v2 w2
  refine louder_of o1 o2 fun j hj c _ => ?_
  have q1 : D j = allHistory t := (v1 j hj).2.2.2 (hU.symm.imp_left fun hR => (w1 1 256 hR j hj).1)
  have q2 : D' j = allHistory t := (v2 j hj).2.2.2 (hU.symm.imp (fun hR => (w2 1 256 (ratio_same s1 hR) j hj).1) (use_same s1))
  rw [← (k2' j hj).2, ← (k2' j hj).1, q1, q2]
  exact sincAt_louder hG G (v1 j hj).1 fun z => signal_louder (fun k => hM k c) _

/-- C83, two channels of one stream, linear. -/
theorem C83_channels_linear (cfg : Config) (ch : ℕ) (hc : ch ≤ 8355967) (g : ℚ) (hG : Gain g) (x : ℕ → ℕ → F32) (c1 c2 : ℕ) (hM : LouderCh g x c1 c2) (ops : List Op) (os : List Obs)
    (hO : ∀ op ∈ ops, OrdinaryOp 1 ch op) (h : Streamed cfg SRC_LINEAR ch x ops os) :
    ∀ f ∈ outputs ch os, ∀ u v : F32, f[c1]? = some u → f[c2]? = some v → LouderSample g u v := by
  obtain ⟨e, st, r1, V, n1, q1, f1⟩ := h
  obtain ⟨ρ, v1, -, e1, o1, -⟩ := C24_interp cfg _ (Or.inr rfl) ch hc e st r1 n1 x ops os V hO q1 f1
  intro f hf u v hu hv
  obtain ⟨j, hf'⟩ := List.mem_iff_getElem?.1 hf
  obtain ⟨hj, rfl⟩ := getElem?_of_map o1 hf'
  obtain ⟨-, rfl⟩ := getElem?_of_map (n := ch) rfl hu
  obtain ⟨-, rfl⟩ := getElem?_of_map (n := ch) rfl hv
  unfold idealAt
  rw [if_neg (by decide), if_neg (by decide)]
  exact linear_louder hG (hM _) (hM _) fun q hq => frac_grid v1 hj hq

/-- C83, two channels of one stream, sinc: for every history of ratios. -/
theorem C83_channels_sinc (cfg : Config) (hL : LibraryTables cfg) (type : ℤ) (ht : SincType type) (ch : ℕ) (g : ℚ) (hG : Gain g) (x : ℕ → ℕ → F32) (c1 c2 : ℕ) (hM : LouderCh g x c1 c2)
    (len : Option ℕ) (ops : List Op) (os : List Obs) (hS : ∀ op ∈ ops, SizedOp ch op) (h : StreamedTo cfg type ch x len ops os) :
    ∀ f ∈ outputs ch os, ∀ u v : F32, f[c1]? = some u → f[c2]? = some v → LouderSample g u v := by
  obtain ⟨l1, e, st, r1, V, n1, q1, f1⟩ := h
  obtain ⟨t, ρ, D, hT, v1, -, e1, o1, -⟩ := C24_sinc cfg hL type ht ch e st r1 n1 x len l1 ops os V hS q1 f1
  obtain ⟨t', hT', hd⟩ := sinc_table hL ht n1
  rw [hT] at hT'
  cases hT'
  obtain ⟨B, G, -⟩ := table_geom hd
  intro f hf u v hu hv
  obtain ⟨j, hf'⟩ := List.mem_iff_getElem?.1 hf
  obtain ⟨hj, rfl⟩ := getElem?_of_map o1 hf'
  obtain ⟨-, rfl⟩ := getElem?_of_map (n := ch) rfl hu
  obtain ⟨-, rfl⟩ := getElem?_of_map (n := ch) rfl hv
  exact sincAt_louder hG G (v1 j hj).1 fun z => signal_louder hM _

/-- The hypotheses of C83_sinc are met by two calls, one with hundred frames of ones and one with hundred frames of minus fours. -/
example : ∃ (os os' : List Obs), 98 ≤ (outputs 2 os).length ∧ Gain (-4) ∧ LouderBy (-4) (level (Fl.ofInt f32 1)) (level (Fl.ofInt f32 (-4))) ∧
    StreamedTo libCfg SRC_SINC_FASTEST 2 (level (Fl.ofInt f32 1)) (some 100) [.process (fun _ => Fl.ofInt f32 1) (some sincCall)] os ∧
    StreamedTo libCfg SRC_SINC_FASTEST 2 (level (Fl.ofInt f32 (-4))) (some 100) [.process (fun _ => Fl.ofInt f32 (-4)) (some sincCall)] os' ∧
    LouderOut (-4) (outputs 2 os) (outputs 2 os') := by
  obtain ⟨os, h1, hl⟩ := level_streamed (Fl.ofInt f32 1)
  obtain ⟨os', h2, -⟩ := level_streamed (Fl.ofInt f32 (-4))
  have hG : Gain (-4) := ⟨2, Or.inr (by norm_num)⟩
  have hM : LouderBy (-4) (level (Fl.ofInt f32 1)) (level (Fl.ofInt f32 (-4))) := by
    intro k c
    unfold level
    split_ifs
    · exact ⟨1, by simpa using int32_val (n := 1) (by norm_num), by rw [int32_val (n := -4) (by norm_num)]; norm_num⟩
    · exact ⟨0, zero32_val, by rw [mul_zero]; exact zero32_val⟩
  refine ⟨os, os', hl, hG, hM, h1, h2, C83_sinc libCfg libCfg_tables _ (Or.inr (Or.inr rfl)) 2 _ hG _ _ hM _ _ _ _ _ _ (fun op hop => by rw [List.mem_singleton.1 hop]; exact sincCall_sized)
    (Or.inl (.riseCall _ _ _ _ sincCall_sized (fun r hr => ?_) (.nil _))) (.cons (.process _ _ _) .nil) h1 h2⟩
  have h1 : sincCall.srcRatio.val = some 1 := one64_val
  rw [h1] at hr
  cases hr
  norm_num

/-- And those of C83_channels_sinc, for every history of such calls: the second channel of such a call carries the first one with inverted polarity. -/
example : Gain (-1) ∧ LouderCh (-1) (fun _ c => if c = 0 then Fl.ofInt f32 1 else Fl.ofInt f32 (-1)) 0 1 := by
  refine ⟨⟨0, Or.inr (by norm_num)⟩, fun k => ⟨1, ?_, ?_⟩⟩
  · simpa using int32_val (n := 1) (by norm_num)
  · show (Fl.ofInt f32 (-1)).val = _
    rw [int32_val (n := -1) (by norm_num)]; norm_num

end Verif
