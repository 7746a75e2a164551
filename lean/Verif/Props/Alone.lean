import Verif.Props.Mix
import Verif.Props.Duration
import Verif.Spec.Alone

/-! Number and order of the channels (C84). -/

namespace Verif
open Spec

theorem sameChannel_of {ch ch' n n' c c' : ℕ} {X Y : ℕ → ℕ → F32} {x y : List (List F32)} (hX : x = (List.range n).map (fun j => frameOf ch (X j)))
    (hY : y = (List.range n').map (fun j => frameOf ch' (Y j))) (h : ∀ j < n, j < n' → X j c = Y j c') : SameChannel c c' x y := by
  intro j f f' u v hf hf' hu hv
  obtain ⟨hj, rfl⟩ := getElem?_of_map hX hf
  obtain ⟨hj', rfl⟩ := getElem?_of_map hY hf'
  obtain ⟨-, rfl⟩ := getElem?_of_map (n := ch) rfl hu
  obtain ⟨-, rfl⟩ := getElem?_of_map (n := ch') rfl hv
  exact h j hj hj'

/-- C84, zero order hold and linear, constant ratio: a channel is converted in the same way, bit by bit, whatever the number of channels of the stream it belongs to, its place among them, and the calls. -/
theorem C84_interp (cfg cfg' : Config) (type : ℤ) (ht : type = SRC_ZERO_ORDER_HOLD ∨ type = SRC_LINEAR) (ch ch' : ℕ) (hc : ch ≤ 8355967) (hc' : ch' ≤ 8355967) (x y : ℕ → ℕ → F32)
    (c c' : ℕ) (hxy : ∀ k, x k c = y k c') (r : ℚ) (ops ops' : List Op) (os os' : List Obs) (hO : ∀ op ∈ ops, OrdinaryOp 1 ch op ∧ AtRatio r op) (hO' : ∀ op ∈ ops', OrdinaryOp 1 ch' op ∧ AtRatio r op)
    (h : Streamed cfg type ch x ops os) (h' : Streamed cfg' type ch' y ops' os') : SameChannel c c' (outputs ch os) (outputs ch' os') := by
  obtain ⟨e, st, r1, V, n1, q1, f1⟩ := h
  obtain ⟨e', st', r2, V2, n2, q2, f2⟩ := h'
  obtain ⟨K, rfl⟩ := kind_of ht
  refine sameChannel_of (stream_const n1 hc (fun op a => (hO op a).1) f1 (fun op a => (hO op a).2) q1)
    (stream_const n2 hc' (fun op a => (hO' op a).1) f2 (fun op a => (hO' op a).2) q2) fun j _ _ => ?_
  rw [ideal_eq, ideal_eq]
  unfold idealAt
  rw [hxy, hxy]

/-- C84, sinc, constant ratio. -/
theorem C84_sinc (cfg : Config) (hL : LibraryTables cfg) (type : ℤ) (ht : SincType type) (ch ch' : ℕ) (x y : ℕ → ℕ → F32)
    (c c' : ℕ) (hxy : ∀ k, x k c = y k c') (len len' : Option ℕ) (r : ℚ) (hr0 : 0 ≤ r) (ops ops' : List Op) (os os' : List Obs) (hO : ∀ op ∈ ops, SizedOp ch op ∧ AtRatio r op)
    (hO' : ∀ op ∈ ops', SizedOp ch' op ∧ AtRatio r op)
    (h : StreamedTo cfg type ch x len ops os) (h' : StreamedTo cfg type ch' y len' ops' os') : SameChannel c c' (outputs ch os) (outputs ch' os') := by
  obtain ⟨l1, e, st, r1, V, n1, q1, f1⟩ := h
  obtain ⟨l2, e', st', r2, V2, n2, q2, f2⟩ := h'
  obtain ⟨t, hT, e1⟩ := sinc_const hL ht n1 l1 f1 hr0 hO q1
  obtain ⟨t', hT', e2⟩ := sinc_const hL ht n2 l2 f2 hr0 hO' q2
  rw [hT] at hT'
  cases hT'
  refine sameChannel_of e1 e2 fun j _ _ => ?_
  unfold sincIdeal signal
  simp only [hxy]

/-- C84, order of the channels, zero order hold and linear, any ratios: if the channels of the input are put in another order, those of the output appear in the same other order. -/
theorem C84_order_interp (cfg : Config) (type : ℤ) (ht : type = SRC_ZERO_ORDER_HOLD ∨ type = SRC_LINEAR) (ch : ℕ) (hc : ch ≤ 8355967) (x y : ℕ → ℕ → F32)
    (σ : ℕ → ℕ) (hxy : ∀ k c, c < ch → x k c = y k (σ c)) (ops ops' : List Op) (os os' : List Obs) (hO : ∀ op ∈ ops, OrdinaryOp 1 ch op) (s1 : List.Forall₂ SameCall ops ops')
    (h : Streamed cfg type ch x ops os) (h' : Streamed cfg type ch y ops' os') :
    (outputs ch os).length = (outputs ch os').length ∧ ∀ c < ch, SameChannel c (σ c) (outputs ch os) (outputs ch os') := by
  obtain ⟨e, st, r1, V, n1, q1, f1⟩ := h
  obtain ⟨_, _, r2, V2, n2, q2, f2⟩ := h'
  rw [n1] at n2
  cases n2
  have t2 := same_timing n1 s1 q1 q2
  obtain ⟨ρ, v1, -, e1, o1, -⟩ := C24_interp cfg _ ht ch hc e st r1 n1 x ops os V hO q1 f1
  obtain ⟨ρ', -, -, e2, o2, -⟩ := C24_interp cfg _ ht ch hc e st r2 n1 y ops' os' V2 (ordinary_same s1 hO) q2 f2
  obtain ⟨k2, k2'⟩ := schedule_congr s1 t2 e1 e2
  refine ⟨k2, fun c hc => sameChannel_of o1 o2 fun j hj _ => ?_⟩
  rw [← (k2' j hj).2]
  unfold idealAt
  rw [hxy _ _ hc, hxy _ _ hc]

/-- C84, order of the channels, sinc, while the ratio does not fall or stays at 1 or above. -/
theorem C84_order_sinc (cfg : Config) (hL : LibraryTables cfg) (type : ℤ) (ht : SincType type) (ch : ℕ) (x y : ℕ → ℕ → F32) (σ : ℕ → ℕ) (hxy : ∀ k c, c < ch → x k c = y k (σ c))
    (len len' : Option ℕ) (ops ops' : List Op) (os os' : List Obs) (hS : ∀ op ∈ ops, SizedOp ch op) (hU : SincUse 0 ch (.rising 0) ops ∨ ∀ op ∈ ops, RatioIn 1 256 op)
    (s1 : List.Forall₂ SameCall ops ops') (h1 : StreamedTo cfg type ch x len ops os) (h2 : StreamedTo cfg type ch y len' ops' os') :
    (outputs ch os).length = (outputs ch os').length ∧ ∀ c < ch, SameChannel c (σ c) (outputs ch os) (outputs ch os') := by
  obtain ⟨l1, e, st, r1, V, n1, q1, f1⟩ := h1
  obtain ⟨l2, _, _, r2, V2, n2, q2, f2⟩ := h2
  rw [n1] at n2
  cases n2
  have t2 := same_timing n1 s1 q1 q2
  obtain ⟨t, ρ, D, hT, v1, w1, e1, o1, -⟩ := C24_sinc cfg hL type ht ch e st r1 n1 x len l1 ops os V hS q1 f1
  obtain ⟨_, ρ', D', hT', v2, w2, e2, o2, -⟩ := C24_sinc cfg hL type ht ch e st r2 n1 y len' l2 ops' os' V2 (sized_same s1 hS) q2 f2
  rw [hT] at hT'
  cases hT'
  obtain ⟨k2, k2'⟩ := schedule_congr s1 t2 e1 e2
  refine ⟨k2, fun c hc => sameChannel_of o1 o2 fun j hj hj' => ?_⟩
  have q1 : D j = allHistory t := (v1 j hj).2.2.2 (hU.symm.imp_left fun hR => (w1 1 256 hR j hj).1)
  have q2 : D' j = allHistory t := (v2 j hj').2.2.2 (hU.symm.imp (fun hR => (w2 1 256 (ratio_same s1 hR) j hj').1) (use_same s1))
  rw [← (k2' j hj).2, ← (k2' j hj).1, q1, q2]
  unfold sincIdeal signal
  simp only [hxy _ _ hc]

theorem outcome_one {cfg : Config} {type ch : ℤ} {op : Op} {v : ℤ × Option (ℤ × ℤ)} (h : outcome cfg type ch [op] = .ok [v]) :
    ∃ e st o st1, srcNew cfg type ch = .ok (e, some st) ∧ run [op] st = .ok ([o], st1) ∧ (o.ret, o.data.map (fun d => (d.inputFramesUsed, d.outputFramesGen))) = v := by
  unfold outcome at h
  split at h
  · rename_i e st hn
    split at h
    · rename_i os st' hr
      have h := ok_inj h
      obtain ⟨o, os, rfl⟩ : ∃ o os', os = o :: os' := by
        cases os with
        | nil => simp at h
        | cons o os => exact ⟨o, os, rfl⟩
      simp only [List.map_cons, List.cons.injEq, List.map_eq_nil_iff] at h
      obtain ⟨h1, rfl⟩ := h
      exact ⟨e, st, o, st', hn, hr, h1⟩
    · cases h
  · cases h
  · cases h

theorem plain_streamed {ch : ℕ} {n o g : ℤ} (h : outcome fastCfg SRC_SINC_FASTEST ch [plainCall n o one64 1] = .ok [(0, some (n, g))]) :
    ∃ os, StreamedTo fastCfg SRC_SINC_FASTEST ch (fun _ _ => zero32) (some n.toNat) [plainCall n o one64 1] os := by
  obtain ⟨e, st, o1, st1, hn, hr, h1⟩ := outcome_one h
  simp only [Prod.mk.injEq, Option.map_eq_some_iff] at h1
  obtain ⟨z1, d1, a1, a2, a3⟩ := h1
  refine ⟨[o1], fun _ _ _ _ _ => rfl, e, st, st1, 0 + n.toNat, hn, hr, ?_⟩
  refine .call _ _ _ _ d1 _ _ _ (fun k c _ _ => rfl) (fun _ => by simp) z1 a1 ?_
  rw [a2]
  exact .nil _

theorem plain_ok {ch : ℕ} {n o : ℤ} (h1 : samples ch n < 2 ^ 31) (h2 : samples ch o ≤ 2 ^ 50) : ∀ op ∈ [plainCall n o one64 1], SizedOp ch op ∧ AtRatio 1 op := by
  intro op hop
  rw [List.mem_singleton.1 hop]
  refine ⟨⟨?_, h1, h2⟩, one64_val⟩
  intro hc
  have := one64_val
  rw [show one64 = Fl.nan from hc] at this
  cases this

set_option maxRecDepth 100000 in
/-- The hypotheses of C84_sinc are met by a mono stream and a stream of two channels, converted in different pieces. -/
example : ∃ os os', StreamedTo fastCfg SRC_SINC_FASTEST (1 : ℕ) (fun _ _ => zero32) (some 10) [plainCall 10 50 one64 1] os ∧
    StreamedTo fastCfg SRC_SINC_FASTEST (2 : ℕ) (fun _ _ => zero32) (some 10) [plainCall 10 5 one64 1] os' ∧
    (∀ op ∈ [plainCall 10 50 one64 1], SizedOp (1 : ℕ) op ∧ AtRatio 1 op) ∧ (∀ op ∈ [plainCall 10 5 one64 1], SizedOp (2 : ℕ) op ∧ AtRatio 1 op) ∧
    SameChannel 0 1 (outputs 1 os) (outputs 2 os') := by
  have h1 : outcome fastCfg SRC_SINC_FASTEST (1 : ℕ) [plainCall 10 50 one64 1] = .ok [(0, some (10, 10))] := by decide +kernel
  have h2 : outcome fastCfg SRC_SINC_FASTEST (2 : ℕ) [plainCall 10 5 one64 1] = .ok [(0, some (10, 5))] := by decide +kernel
  obtain ⟨os, s1⟩ := plain_streamed h1
  obtain ⟨os', s2⟩ := plain_streamed h2
  have o1 : ∀ op ∈ [plainCall 10 50 one64 1], SizedOp (1 : ℕ) op ∧ AtRatio 1 op := plain_ok (by norm_num [samples]) (by norm_num [samples])
  have o2 : ∀ op ∈ [plainCall 10 5 one64 1], SizedOp (2 : ℕ) op ∧ AtRatio 1 op := plain_ok (by norm_num [samples]) (by norm_num [samples])
  exact ⟨os, os', s1, s2, o1, o2, C84_sinc fastCfg fastCfg_tables _ (Or.inr (Or.inr rfl)) 1 2 _ _ 0 1 (fun _ => rfl) _ _ 1 (by norm_num) _ _ _ _ o1 o2 s1 s2⟩

set_option maxRecDepth 100000 in
/-- "As far as both go" in C84_sinc cannot be left out: the sinc converters turn 11 frames in one channel into 5 frames at ratio 1/2, and 11 frames in three channels into 6, because the position that is compared
with the end of the input counts samples, and the step that is added to it frames. -/
theorem C84_counts : outcome fastCfg SRC_SINC_FASTEST (1 : ℕ) [plainCall 11 50 (Fl.round f64 (1 / 2)) 1] = .ok [(0, some (11, 5))] ∧
    outcome fastCfg SRC_SINC_FASTEST (3 : ℕ) [plainCall 11 50 (Fl.round f64 (1 / 2)) 1] = .ok [(0, some (11, 6))] := by
  constructor <;> decide +kernel

end Verif
