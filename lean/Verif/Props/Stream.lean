import Verif.Proof.LinearSample
import Verif.Props.History
import Verif.Props.Api

/-! Properties of streams through the interpolating converters: C18, C20, C21, C23, C24, C43, C44. -/

namespace Verif
open Spec

/-- The type number of a converter. -/
def Kind.type : Kind → ℤ
  | .zoh => SRC_ZERO_ORDER_HOLD
  | .linear => SRC_LINEAR

theorem new_track {K : Kind} {cfg : Config} {ch : ℕ} {e : ℤ} {st : SrcState} (x : ℕ → ℕ → F32)
    (h : srcNew cfg K.type ch = .ok (e, some st)) (hc : ch ≤ 8355967) : Track K x ch 0 ⟨0, 0⟩ 0 st := by
  obtain ⟨V, hm, _⟩ := new_view (K := K) h (by cases K <;> rfl) (by exact_mod_cast hc)
  rw [Int.toNat_natCast] at V
  exact ⟨⟨0, none, V, by simp [Pos.ofQ], fun _ => ⟨rfl, rfl⟩, fun f hf => by cases hf⟩, hm⟩

/-- A whole stream on a new handle. -/
theorem stream_new {K : Kind} {cfg : Config} {ch : ℕ} {e : ℤ} {st st' : SrcState} {x : ℕ → ℕ → F32} {ops : List Op} {os : List Obs}
    {V : ℕ} (h : srcNew cfg K.type ch = .ok (e, some st)) (hc : ch ≤ 8355967) (hO : ∀ op ∈ ops, OrdinaryOp 1 ch op)
    (hF : Fed x ch 0 ops os V) (hr : run ops st = .ok (os, st')) :
    ∃ ρ : ℕ → ℚ, (∀ j < (outputs ch os).length, ValidRatio (ρ j)) ∧
      outputs ch os = (List.range (outputs ch os).length).map (fun j => frameOf ch (K.out (x 0) x (posAt ⟨0, 0⟩ ρ j))) ∧
      (∀ r, (∀ op ∈ ops, AtRatio r op) → ∀ j < (outputs ch os).length, ρ j = r) ∧
      (∀ a b, (∀ op ∈ ops, RatioIn a b op ∧ SmallOut ch op) → ∀ j < (outputs ch os).length, a ≤ ρ j ∧ ρ j ≤ b) ∧
      ratiosFrom ratioAt ch 0 ops os = (List.range (outputs ch os).length).map ρ ∧
      (∀ j < (outputs ch os).length, (posAt ⟨0, 0⟩ ρ j).k ≤ V) ∧
      ∃ l, Track K x ch V (posAt ⟨0, 0⟩ ρ (outputs ch os).length) l st' ∧ (∀ r, (∀ op ∈ ops, AtRatio r op) → l = 0 ∨ l = r) ∧
        (∀ a b, (∀ op ∈ ops, RatioIn a b op ∧ SmallOut ch op) → l = 0 ∨ (a ≤ l ∧ l ≤ b)) := by
  obtain ⟨ρ, h1, h2, h3, hI, hR, _, h4, l, h5, h6, h7⟩ := stream_spec hF (new_track x h hc) hO hr
  exact ⟨ρ, h1, h2, fun r => h3 r (Or.inl rfl), fun a b => hI a b (Or.inl rfl), hR, h4, l, h5, fun r => h6 r (Or.inl rfl), fun a b => h7 a b (Or.inl rfl)⟩

/-- At a constant ratio the output is a prefix of one stream that depends only on the input and the ratio. -/
theorem stream_const {K : Kind} {cfg : Config} {ch : ℕ} {e : ℤ} {st st' : SrcState} {x : ℕ → ℕ → F32} {ops : List Op} {os : List Obs}
    {V : ℕ} {r : ℚ} (h : srcNew cfg K.type ch = .ok (e, some st)) (hc : ch ≤ 8355967) (hO : ∀ op ∈ ops, OrdinaryOp 1 ch op)
    (hF : Fed x ch 0 ops os V) (hA : ∀ op ∈ ops, AtRatio r op) (hr : run ops st = .ok (os, st')) :
    outputs ch os = (List.range (outputs ch os).length).map
      (fun j => frameOf ch (K.out (x 0) x (posAt ⟨0, 0⟩ (fun _ => r) j))) := by
  obtain ⟨ρ, _, h2, h3, _⟩ := stream_new h hc hO hF hr
  conv_lhs => rw [h2]
  refine List.map_congr_left (fun j hj => ?_)
  rw [posAt_congr (ρ := ρ) (ρ' := fun _ => r) (fun i hi => h3 r hA i (hi.trans (List.mem_range.1 hj)))]

theorem range_map_prefix {α : Type} (f : ℕ → α) {a b : ℕ} (h : a ≤ b) : (List.range a).map f <+: (List.range b).map f := by
  obtain ⟨c, rfl⟩ := Nat.exists_eq_add_of_le h
  rw [List.range_add, List.map_append]
  exact List.prefix_append _ _

/-- Two chunkings of one stream at one ratio. -/
theorem stream_chunks {K : Kind} {cfg cfg' : Config} {ch : ℕ} {e e' : ℤ} {st st1 st' st1' : SrcState} {x : ℕ → ℕ → F32}
    {ops ops' : List Op} {os os' : List Obs} {V V' : ℕ} {r : ℚ}
    (h : srcNew cfg K.type ch = .ok (e, some st)) (h' : srcNew cfg' K.type ch = .ok (e', some st')) (hc : ch ≤ 8355967)
    (hO : ∀ op ∈ ops, OrdinaryOp 1 ch op) (hO' : ∀ op ∈ ops', OrdinaryOp 1 ch op)
    (hF : Fed x ch 0 ops os V) (hF' : Fed x ch 0 ops' os' V') (hA : ∀ op ∈ ops, AtRatio r op) (hA' : ∀ op ∈ ops', AtRatio r op)
    (hr : run ops st = .ok (os, st1)) (hr' : run ops' st' = .ok (os', st1')) :
    outputs ch os <+: outputs ch os' ∨ outputs ch os' <+: outputs ch os := by
  rw [stream_const h hc hO hF hA hr, stream_const h' hc hO' hF' hA' hr']
  rcases Nat.le_total (outputs ch os).length (outputs ch os').length with h | h
  · exact Or.inl (range_map_prefix _ h)
  · exact Or.inr (range_map_prefix _ h)

/-- C20: on two new zero order hold handles the same stream `x`, fed in two ways at the same ratio `r`, gives the same output
frames, as far as both go.  The two histories may cut the input and the output space into calls in any way. -/
theorem C20 (cfg cfg' : Config) (ch : ℕ) (hc : ch ≤ 8355967) (e e' : ℤ) (st st' st1 st1' : SrcState)
    (h : srcNew cfg SRC_ZERO_ORDER_HOLD ch = .ok (e, some st)) (h' : srcNew cfg' SRC_ZERO_ORDER_HOLD ch = .ok (e', some st'))
    (x : ℕ → ℕ → F32) (r : ℚ) (ops ops' : List Op) (os os' : List Obs) (V V' : ℕ)
    (hO : ∀ op ∈ ops, OrdinaryOp 1 ch op ∧ AtRatio r op) (hO' : ∀ op ∈ ops', OrdinaryOp 1 ch op ∧ AtRatio r op)
    (hr : run ops st = .ok (os, st1)) (hr' : run ops' st' = .ok (os', st1'))
    (hF : Fed x ch 0 ops os V) (hF' : Fed x ch 0 ops' os' V') :
    outputs ch os <+: outputs ch os' ∨ outputs ch os' <+: outputs ch os :=
  stream_chunks (K := .zoh) h h' hc (fun op a => (hO op a).1) (fun op a => (hO' op a).1) hF hF' (fun op a => (hO op a).2)
    (fun op a => (hO' op a).2) hr hr'

/-- C21: the same for the linear converter.  As everywhere, `run … = .ok` says that no call has undefined behaviour (a call with one or
two input frames can read outside its input buffer, see `C07_one_frame`; with none, or three and more, it cannot, see
`C07_partial`). -/
theorem C21 (cfg cfg' : Config) (ch : ℕ) (hc : ch ≤ 8355967) (e e' : ℤ) (st st' st1 st1' : SrcState)
    (h : srcNew cfg SRC_LINEAR ch = .ok (e, some st)) (h' : srcNew cfg' SRC_LINEAR ch = .ok (e', some st'))
    (x : ℕ → ℕ → F32) (r : ℚ) (ops ops' : List Op) (os os' : List Obs) (V V' : ℕ)
    (hO : ∀ op ∈ ops, OrdinaryOp 1 ch op ∧ AtRatio r op) (hO' : ∀ op ∈ ops', OrdinaryOp 1 ch op ∧ AtRatio r op)
    (hr : run ops st = .ok (os, st1)) (hr' : run ops' st' = .ok (os', st1'))
    (hF : Fed x ch 0 ops os V) (hF' : Fed x ch 0 ops' os' V') :
    outputs ch os <+: outputs ch os' ∨ outputs ch os' <+: outputs ch os :=
  stream_chunks (K := .linear) h h' hc (fun op a => (hO op a).1) (fun op a => (hO' op a).1) hF hF' (fun op a => (hO op a).2)
    (fun op a => (hO' op a).2) hr hr'

theorem floor_time (ρ : ℕ → ℚ) (j : ℕ) : ⌊timeAt ρ j⌋₊ = (posAt ⟨0, 0⟩ ρ j).k := by
  have := time_k ρ j
  rw [Nat.floor_eq_iff (by linarith [show (0 : ℚ) ≤ (posAt ⟨0, 0⟩ ρ j).k by positivity])]
  exact this

theorem prevFrame_sub (x : ℕ → ℕ → F32) (k : ℕ) : prevFrame (x 0) x k = x (k - 1) := by cases k <;> rfl

theorem getElem?_of_map {α : Type} {l : List α} {n : ℕ} {f : ℕ → α} (h : l = (List.range n).map f) {j : ℕ} {a : α}
    (ha : l[j]? = some a) : j < n ∧ a = f j := by
  rw [h] at ha
  by_cases hj : j < n
  · rw [List.getElem?_map, List.getElem?_range hj] at ha
    simp only [Option.map_some, Option.some.injEq] at ha
    exact ⟨hj, ha.symm⟩
  · rw [List.getElem?_eq_none (by simpa using hj)] at ha
    cases ha

/-- C18: every output frame of a zero order hold handle is a copy of an input frame.  There are valid ratios `ρ j`, one per output
frame and given by the schedule `ratiosFrom`, such that output frame `j`, at the input time `t = timeAt ρ j`, is the last of the frames whose interval has ended at `t`:
frame `⌊t⌋ - 1` (frame 0 if `t < 1`).  All frames used have been consumed. -/
theorem C18 (cfg : Config) (ch : ℕ) (hc : ch ≤ 8355967) (e : ℤ) (st st1 : SrcState)
    (h : srcNew cfg SRC_ZERO_ORDER_HOLD ch = .ok (e, some st)) (x : ℕ → ℕ → F32) (ops : List Op) (os : List Obs) (V : ℕ)
    (hO : ∀ op ∈ ops, OrdinaryOp 1 ch op) (hr : run ops st = .ok (os, st1)) (hF : Fed x ch 0 ops os V) :
    ∃ ρ : ℕ → ℚ, (∀ j < (outputs ch os).length, 1 / 256 ≤ ρ j ∧ ρ j ≤ 256) ∧
      (∀ r, (∀ op ∈ ops, AtRatio r op) → ∀ j < (outputs ch os).length, ρ j = r) ∧
      ratiosFrom ratioAt ch 0 ops os = (List.range (outputs ch os).length).map ρ ∧
      ∀ j f, (outputs ch os)[j]? = some f → f = frameOf ch (x (⌊timeAt ρ j⌋₊ - 1)) ∧ ⌊timeAt ρ j⌋₊ ≤ V := by
  obtain ⟨ρ, h1, h2, h3, hI, hR, h4, _⟩ := stream_new (K := .zoh) h hc hO hF hr
  refine ⟨ρ, h1, h3, hR, fun j f hf => ?_⟩
  obtain ⟨hj, rfl⟩ := getElem?_of_map h2 hf
  rw [floor_time]
  refine ⟨?_, h4 j hj⟩
  simp only [Kind.out]
  congr 1
  funext c
  unfold zohOut
  rw [prevFrame_sub]

theorem ideal_eq (K : Kind) (x : ℕ → ℕ → F32) (ρ : ℕ → ℚ) (j : ℕ) :
    K.out (x 0) x (posAt ⟨0, 0⟩ ρ j) = idealAt K.type x (timeAt ρ j) := by
  have hfr : Int.fract (timeAt ρ j) = (posAt ⟨0, 0⟩ ρ j).i := by
    have := posAt_frac0 ρ j
    unfold timeAt
    rw [Int.fract_natCast_add]
    exact Int.fract_eq_self.2 this
  funext c
  unfold idealAt
  rw [floor_time]
  cases K
  · rw [if_pos (show Kind.zoh.type = 3 from rfl)]
    simp only [Kind.out, zohOut]
    rw [prevFrame_sub]
  · rw [if_neg (by decide)]
    simp only [Kind.out, linearOut]
    rw [prevFrame_sub, hfr]

theorem kind_of {type : ℤ} (ht : type = SRC_ZERO_ORDER_HOLD ∨ type = SRC_LINEAR) : ∃ K : Kind, type = K.type := by
  rcases ht with rfl | rfl
  · exact ⟨.zoh, rfl⟩
  · exact ⟨.linear, rfl⟩

theorem time_between {ρ : ℕ → ℚ} {j : ℕ} (hv : ValidRatio (ρ j)) {a b : ℚ} (ha : 0 < a) (h : a ≤ ρ j ∧ ρ j ≤ b) :
    1 / b - p2 (-44) ≤ timeAt ρ (j + 1) - timeAt ρ j ∧ timeAt ρ (j + 1) - timeAt ρ j ≤ 1 / a + p2 (-44) := by
  have hs := abs_le.1 (time_step hv)
  have b1 : 1 / ρ j ≤ 1 / a := one_div_le_one_div_of_le ha h.1
  have b2 : 1 / b ≤ 1 / ρ j := one_div_le_one_div_of_le (ha.trans_le h.1) h.2
  constructor <;> linarith

theorem time_gap {ρ : ℕ → ℚ} {j : ℕ} (hv : ValidRatio (ρ j)) : timeAt ρ j + 1 / 257 ≤ timeAt ρ (j + 1) ∧ timeAt ρ (j + 1) ≤ timeAt ρ j + 257 := by
  have hs := abs_le.1 (time_step hv)
  have hp : 0 < ρ j := lt_of_lt_of_le (by norm_num) hv.1
  have b1 : 1 / ρ j ≤ 256 := by rw [div_le_iff₀ hp]; linarith [hv.1]
  have b2 : 1 / 256 ≤ 1 / ρ j := one_div_le_one_div_of_le hp hv.2
  have b3 : p2 (-44) ≤ 1 / 256 - 1 / 257 := by norm_num [p2]
  constructor <;> linarith

/-- C44 for the interpolating converters (sinc: `C44_sinc`): for the zero order hold and the linear converter output frame `j` is taken at an input time `t j`, and these times
increase, by between `1/257` and `257` input frames from frame to frame; if all ratios passed are in `[a, b]`, by between `1/b` and `1/a`, up to
rounding. -/
theorem C44_interp (cfg : Config) (type : ℤ) (ht : type = SRC_ZERO_ORDER_HOLD ∨ type = SRC_LINEAR) (ch : ℕ)
    (hc : ch ≤ 8355967) (e : ℤ) (st st1 : SrcState)
    (h : srcNew cfg type ch = .ok (e, some st)) (x : ℕ → ℕ → F32) (ops : List Op) (os : List Obs) (V : ℕ)
    (hO : ∀ op ∈ ops, OrdinaryOp 1 ch op) (hr : run ops st = .ok (os, st1)) (hF : Fed x ch 0 ops os V) :
    ∃ t : ℕ → ℚ, t 0 = 0 ∧ (∀ j < (outputs ch os).length, t j + 1 / 257 ≤ t (j + 1) ∧ t (j + 1) ≤ t j + 257) ∧
      (∀ a b, 0 < a → (∀ op ∈ ops, RatioIn a b op ∧ SmallOut ch op) → ∀ j < (outputs ch os).length,
        1 / b - p2 (-44) ≤ t (j + 1) - t j ∧ t (j + 1) - t j ≤ 1 / a + p2 (-44)) ∧
      ∀ j f, (outputs ch os)[j]? = some f → f = frameOf ch (idealAt type x (t j)) := by
  obtain ⟨K, rfl⟩ := kind_of ht
  obtain ⟨ρ, h1, h2, h3, hI, hR, h4, _⟩ := stream_new h hc hO hF hr
  refine ⟨timeAt ρ, by simp [timeAt, posAt], fun j hj => time_gap (h1 j hj), fun a b ha hA j hj => time_between (h1 j hj) ha (hI a b hA j hj), fun j f hf => ?_⟩
  · obtain ⟨hj, rfl⟩ := getElem?_of_map h2 hf
    rw [ideal_eq]

/-- C24 for zero order hold and linear (sinc: `C24_sinc`): a caller that always continues after the frames reported as used gets the output of the
uncut stream: output frame `j` is what the converter yields for the whole stream `x` at the time given by the ratios `ρ`, although
each call saw only the frames from the first unconsumed one on.  Where the cuts are has no influence on the values, and no frame beyond
those presented is involved.  The ratios `ρ` are the ones of the schedule `ratiosFrom`: within each call the ratio moves
linearly from the one reached before to the one requested; so it never leaves the range of the ratios passed (calls with up to `2^50` samples of output). -/
theorem C24_interp (cfg : Config) (type : ℤ) (ht : type = SRC_ZERO_ORDER_HOLD ∨ type = SRC_LINEAR) (ch : ℕ)
    (hc : ch ≤ 8355967) (e : ℤ) (st st1 : SrcState)
    (h : srcNew cfg type ch = .ok (e, some st)) (x : ℕ → ℕ → F32) (ops : List Op) (os : List Obs) (V : ℕ)
    (hO : ∀ op ∈ ops, OrdinaryOp 1 ch op) (hr : run ops st = .ok (os, st1)) (hF : Fed x ch 0 ops os V) :
    ∃ ρ : ℕ → ℚ, (∀ j < (outputs ch os).length, 1 / 256 ≤ ρ j ∧ ρ j ≤ 256) ∧
      (∀ a b, (∀ op ∈ ops, RatioIn a b op ∧ SmallOut ch op) → ∀ j < (outputs ch os).length, a ≤ ρ j ∧ ρ j ≤ b) ∧
      ratiosFrom ratioAt ch 0 ops os = (List.range (outputs ch os).length).map ρ ∧
      outputs ch os = (List.range (outputs ch os).length).map (fun j => frameOf ch (idealAt type x (timeAt ρ j))) ∧
      ∀ j < (outputs ch os).length, timeAt ρ j < V + 1 := by
  obtain ⟨K, rfl⟩ := kind_of ht
  obtain ⟨ρ, h1, h2, h3, hI, hR, h4, _⟩ := stream_new h hc hO hF hr
  refine ⟨ρ, h1, hI, hR, ?_, fun j hj => ?_⟩
  · conv_lhs => rw [h2]
    refine List.map_congr_left (fun j _ => ?_)
    rw [ideal_eq]
  · have a := (time_k ρ j).2
    have b : (((posAt ⟨0, 0⟩ ρ j).k : ℕ) : ℚ) ≤ V := by exact_mod_cast h4 j hj
    linarith

theorem posAt_one (j : ℕ) : posAt ⟨0, 0⟩ (fun _ => 1) j = ⟨j, 0⟩ := by
  induction j with
  | zero => rfl
  | succ j ih =>
    simp only [posAt, ih, Pos.advance]
    have e1 : rq f64 ((1 : ℚ) / 1) = 1 := by
      rw [div_one]; exact rq_of_rep (by have := rep64_val one64_val; exact this)
    rw [e1, zero_add]
    have e2 : rq f64 (1 : ℚ) = 1 := by rw [div_one] at e1; exact e1
    rw [e2]
    simp

/-- C43: at ratio 1 the zero order hold and the linear converter delay by one frame: output frame 0 is input frame 0 and output
frame `j` is input frame `j - 1`, however the stream is cut (finite samples). -/
theorem C43 (cfg : Config) (type : ℤ) (ht : type = SRC_ZERO_ORDER_HOLD ∨ type = SRC_LINEAR) (ch : ℕ)
    (hc : ch ≤ 8355967) (e : ℤ) (st st1 : SrcState)
    (h : srcNew cfg type ch = .ok (e, some st)) (x : ℕ → ℕ → F32) (hx : ∀ k c, (x k c).val ≠ none) (ops : List Op) (os : List Obs)
    (V : ℕ) (hO : ∀ op ∈ ops, OrdinaryOp 1 ch op ∧ AtRatio 1 op) (hr : run ops st = .ok (os, st1)) (hF : Fed x ch 0 ops os V) :
    ∀ j f, (outputs ch os)[j]? = some f → f = frameOf ch (x (j - 1)) := by
  obtain ⟨K, rfl⟩ := kind_of ht
  intro j f hf
  obtain ⟨hj, rfl⟩ := getElem?_of_map (stream_const h hc (fun op a => (hO op a).1) hF (fun op a => (hO op a).2) hr) hf
  rw [posAt_one]
  congr 1
  funext c
  cases K
  · simp only [Kind.out, zohOut]
    rw [prevFrame_sub]
  · simp only [Kind.out, linearOut]
    rw [prevFrame_sub]
    obtain ⟨p, hp⟩ := Option.ne_none_iff_exists'.1 (hx (j - 1) c)
    obtain ⟨q, hq⟩ := Option.ne_none_iff_exists'.1 (hx j c)
    exact linearSample_zero hp hq

/-- C23: at a constant ratio `r`, when a call had room for more output than it generated, the total number `G` of output frames is
`N * r` up to one output period, one input period and accumulated rounding, where `N` is the number of frames presented so far. -/
theorem C23 (cfg : Config) (type : ℤ) (ht : type = SRC_ZERO_ORDER_HOLD ∨ type = SRC_LINEAR) (ch : ℕ)
    (hc : ch ≤ 8355967) (e : ℤ) (st st1 st2 : SrcState)
    (h : srcNew cfg type ch = .ok (e, some st)) (x : ℕ → ℕ → F32) (r : ℚ) (ops : List Op) (os : List Obs) (U : ℕ)
    (hO : ∀ op ∈ ops, OrdinaryOp 1 ch op ∧ AtRatio r op) (hr : run ops st = .ok (os, st1)) (hF : Fed x ch 0 ops os U)
    (m : Mem) (d d' : SrcData) (o : Obs) (hd : Ordinary 1 ch d) (hA : AtRatio r (.process m (some d))) (hP : Presents x ch U m d)
    (hrun : (Op.process m (some d)).run st1 = .ok (o, st2)) (hret : o.ret = 0) (hdata : o.data = some d')
    (hin : 0 < d.inputFrames) (hroom : d'.outputFramesGen < d.outputFrames) (G N : ℚ)
    (hG : G = (outputs ch os).length + d'.outputFramesGen) (hN : N = U + d.inputFrames) :
    |G - N * r| ≤ 1 + r + G * r / 2 ^ 44 := by
  obtain ⟨K, rfl⟩ := kind_of ht
  obtain ⟨ρ, h1, h2, h3, _, hR, h4, l, T, hl, _⟩ := stream_new h hc (fun op a => (hO op a).1) hF hr
  obtain ⟨d1, ρ1, g, u, t, e1, e2, _, e3, _, e4, e5, e6, e7, e8, eb, es, eu, ek, l1, T1, vl1, e9, _⟩ := track_call T hd hP hrun hret
  rw [hdata] at e1
  simp only [Option.some.injEq] at e1
  subst e1
  have htr : t = r := by
    simp only [AtRatio] at hA
    rw [hA] at e4
    exact (Option.some.inj e4).symm
  subst htr
  have hst : startRatio l t = t := by
    rcases hl t (fun op a => (hO op a).2) with rfl | rfl <;> simp [startRatio]
  have h3 := h3 t (fun op a => (hO op a).2)
  have e7 := e7 hst
  set n := (outputs ch os).length with hn
  have hpos : ∀ j ≤ g, posAt (posAt ⟨0, 0⟩ ρ n) ρ1 j = posAt ⟨0, 0⟩ (fun _ => t) (n + j) := by
    intro j hj
    rw [posAt_append, posAt_congr (P := ⟨0, 0⟩) (ρ := ρ) (ρ' := fun _ => t) h3]
    exact posAt_congr (fun i hi => e7 i (by omega))
  have hrp : 0 < t := lt_of_lt_of_le (by norm_num) e5.1
  have hs := es (by rw [← e3]; exact hroom) hin
  rw [hpos g (le_refl _)] at hs
  have hGq : G = ((n + g : ℕ) : ℚ) := by rw [hG, e3]; push_cast; ring
  have hb : p2 (-44) = 1 / 2 ^ 44 := by norm_num [p2]
  have tg := abs_le.1 (time_const e5 (n + g))
  have tk := time_k (fun _ => t) (n + g)
  have hlow : N ≤ (posAt ⟨0, 0⟩ (fun _ => t) (n + g)).k + 1 := by
    rw [hN]
    have : (U : ℤ) + d.inputFrames ≤ (posAt ⟨0, 0⟩ (fun _ => t) (n + g)).k + 1 := by
      cases K <;> dsimp only at hs <;> omega
    exact_mod_cast this
  have hup : ∀ j, n + g = j + 1 → ((posAt ⟨0, 0⟩ (fun _ => t) j).k : ℚ) ≤ N := by
    intro j hj
    rw [hN]
    by_cases hg : g = 0
    · have := h4 j (by omega)
      rw [posAt_congr (ρ' := fun _ => t) (fun i hi => h3 i (by omega))] at this
      have h' : ((posAt ⟨0, 0⟩ (fun _ => t) j).k : ℤ) ≤ U + d.inputFrames := by omega
      exact_mod_cast h'
    · have := (eb (g - 1) (by omega)).2
      rw [hpos _ (by omega), show n + (g - 1) = j by omega] at this
      exact_mod_cast this
  have hG0 : 0 ≤ G := by rw [hGq]; positivity
  rw [abs_le]
  constructor
  · have : N * t ≤ (G / t + G * (1 / 2 ^ 44) + 1) * t := by
      apply mul_le_mul_of_nonneg_right _ hrp.le
      rw [hGq, ← hb]; linarith
    rw [add_mul, add_mul, div_mul_cancel₀ _ hrp.ne'] at this
    linarith
  · rcases Nat.eq_zero_or_pos (n + g) with h0 | h0
    · rw [hGq, h0]
      have : 0 ≤ N * t := by
        apply mul_nonneg _ hrp.le
        rw [hN]; have : (0 : ℚ) ≤ d.inputFrames := by exact_mod_cast hin.le
        positivity
      simp only [Nat.cast_zero, zero_mul, zero_div]
      linarith
    · obtain ⟨j, hj⟩ : ∃ j, n + g = j + 1 := ⟨n + g - 1, by omega⟩
      have hu := hup j hj
      have tj := abs_le.1 (time_const e5 j)
      have tkj := time_k (fun _ => t) j
      have hjG : (j : ℚ) = G - 1 := by rw [hGq, hj]; push_cast; ring
      rw [hjG, hb] at tj
      have : ((G - 1) / t) * t ≤ (N + 1 + (G - 1) * (1 / 2 ^ 44)) * t := by
        apply mul_le_mul_of_nonneg_right _ hrp.le
        linarith
      rw [div_mul_cancel₀ _ hrp.ne'] at this
      nlinarith

theorem posAt_rep0 (ρ : ℕ → ℚ) {n : ℕ} (h : ∀ j < n, ValidRatio (ρ j)) (j : ℕ) (hj : j ≤ n) : Rep0 f64 (posAt ⟨0, 0⟩ ρ j).i := by
  cases j with
  | zero => exact rep0_zero _
  | succ j =>
    have hf := posAt_frac0 ρ j
    have hb := inv_bounds (h j (by omega))
    simp only [posAt, Pos.advance]
    refine fract_rep (rep0_rq _ _) (rq_nonneg (by linarith)) ?_
    exact (rq_le (rep64_257) (by linarith)).trans (by norm_num)

/-- `v` lies between the finite samples `a` and `b`. -/
def Between (a b v : F32) : Prop :=
  ∃ p q w, a.val = some p ∧ b.val = some q ∧ v.val = some w ∧ min p q ≤ w ∧ w ≤ max p q

/-- C19: every sample the linear converter puts out lies between the samples, in its channel, of two successive input frames: those at
the input time of the output frame (finite samples). -/
theorem C19 (cfg : Config) (ch : ℕ) (hc : ch ≤ 8355967) (e : ℤ) (st st1 : SrcState)
    (h : srcNew cfg SRC_LINEAR ch = .ok (e, some st)) (x : ℕ → ℕ → F32) (hx : ∀ k c, (x k c).val ≠ none) (ops : List Op) (os : List Obs)
    (V : ℕ) (hO : ∀ op ∈ ops, OrdinaryOp 1 ch op) (hr : run ops st = .ok (os, st1)) (hF : Fed x ch 0 ops os V) :
    ∃ ρ : ℕ → ℚ, (∀ j < (outputs ch os).length, 1 / 256 ≤ ρ j ∧ ρ j ≤ 256) ∧ ratiosFrom ratioAt ch 0 ops os = (List.range (outputs ch os).length).map ρ ∧
      ∀ j f, (outputs ch os)[j]? = some f → f.length = ch ∧ ∀ c v, f[c]? = some v →
        Between (x (⌊timeAt ρ j⌋₊ - 1) c) (x ⌊timeAt ρ j⌋₊ c) v := by
  obtain ⟨ρ, h1, h2, h3, hI, hR, h4, _⟩ := stream_new (K := .linear) h hc hO hF hr
  refine ⟨ρ, h1, hR, fun j f hf => ?_⟩
  obtain ⟨hj, rfl⟩ := getElem?_of_map h2 hf
  refine ⟨by simp [frameOf], fun c v hv => ?_⟩
  obtain ⟨_, rfl⟩ := getElem?_of_map (n := ch) rfl hv
  rw [floor_time]
  simp only [Kind.out, linearOut]
  rw [prevFrame_sub]
  obtain ⟨p, hp⟩ := Option.ne_none_iff_exists'.1 (hx ((posAt ⟨0, 0⟩ ρ j).k - 1) c)
  obtain ⟨q, hq⟩ := Option.ne_none_iff_exists'.1 (hx (posAt ⟨0, 0⟩ ρ j).k c)
  have hfr := posAt_frac0 ρ j
  have hi : ∃ s, (Fl.round f64 (posAt ⟨0, 0⟩ ρ j).i).val = some s ∧ 0 ≤ s ∧ s < 1 := by
    have hrep : Rep0 f64 (posAt ⟨0, 0⟩ ρ j).i := posAt_rep0 ρ h1 j (by omega)
    exact ⟨_, Fl.val_round_of_rep ⟨hrep, by
      rw [abs_of_nonneg hfr.1]; exact hfr.2.trans one_lt_emax⟩, hfr.1, hfr.2⟩
  obtain ⟨s, hs, hs0, hs1⟩ := hi
  obtain ⟨a1, a2, a3⟩ := linearSample_val hp hq hs hs0 hs1
  exact ⟨p, q, _, hp, hq, a1, a2, a3⟩

/-- C19, constant input: if the samples of channel `c` are all `v`, so are the output samples of that channel. -/
theorem C19_constant (cfg : Config) (ch : ℕ) (hc : ch ≤ 8355967) (e : ℤ) (st st1 : SrcState)
    (h : srcNew cfg SRC_LINEAR ch = .ok (e, some st)) (x : ℕ → ℕ → F32) (hx : ∀ k c, (x k c).val ≠ none) (ops : List Op) (os : List Obs)
    (V : ℕ) (hO : ∀ op ∈ ops, OrdinaryOp 1 ch op) (hr : run ops st = .ok (os, st1)) (hF : Fed x ch 0 ops os V)
    (c : ℕ) (v : F32) (hv : ∀ k, x k c = v) : ∀ f ∈ outputs ch os, ∀ w, f[c]? = some w → w = v := by
  obtain ⟨ρ, _, _, h2⟩ := C19 cfg ch hc e st st1 h x hx ops os V hO hr hF
  intro f hf w hw
  obtain ⟨j, hj⟩ := List.mem_iff_getElem?.1 hf
  obtain ⟨p, q, r, hp, hq, hr, b1, b2⟩ := (h2 j f hj).2 c w hw
  rw [hv] at hp hq
  rw [hp] at hq
  simp only [Option.some.injEq] at hq
  subst hq
  rw [min_self] at b1
  rw [max_self] at b2
  exact eq_of_val hr (by rw [hp]; congr 1; linarith)

/-! ### Non-vacuity: a stream of two calls on new handles -/

theorem call_succeeds {K : Kind} {x : ℕ → ℕ → F32} {ch U : ℕ} {P : Pos} {l : ℚ} {st : SrcState} (T : Track K x ch U P l st) {d : SrcData}
    (hO : Ordinary K.lo ch d) (h1 : ¬ MissingBuffer d) (h2 : ¬ BadRatio d.srcRatio)
    (h3 : ¬ Clash d.dataIn (samples ch d.inputFrames) d.dataOut (samples ch d.outputFrames)) (m : Mem) :
    ∃ o st', (Op.process m (some d)).run st = .ok (o, st') ∧ o.ret = 0 := by
  obtain ⟨p, before, V, _⟩ := T.view
  obtain ⟨e, m', st', x', h, _, _, h5⟩ := process_total V T.mode (some d) (by rintro _ ⟨⟩; exact hO) m
  refine ⟨_, st', by simp only [Op.run, h]; rfl, ?_⟩
  dsimp only
  rcases h5 with ⟨ha, _, _⟩ | ⟨he, _⟩
  · exfalso
    have hf := (C02 _ _ _ _ _ _ _ h (by rcases ha with h | h | h | h | h <;> simp [h])).1
    cases hf with
    | state hh => simp at hh
    | mode s a b => cases a; exact b T.mode
    | data s a b c => cases c
    | buffer s y a b c d => cases c; exact h1 d
    | ratio s y a b c d e => cases c; exact h2 e
    | overlap s y a b c d e f => cases a; cases c; rw [V.hch] at f; exact h3 f
  · exact he

theorem smallCall_ok (K : Kind) : Ordinary K.lo (2 : ℕ) smallCall ∧ ¬ MissingBuffer smallCall ∧ ¬ BadRatio smallCall.srcRatio ∧
    ¬ Clash smallCall.dataIn (samples (2 : ℕ) smallCall.inputFrames) smallCall.dataOut (samples (2 : ℕ) smallCall.outputFrames) := by
  obtain ⟨h, he⟩ := Fl.eq_fin_of_val one64_val
  refine ⟨⟨by simp [smallCall, he], by simp [smallCall, samples], by simp [smallCall, samples], Or.inr ?_⟩, ?_, ?_, ?_⟩
  · cases K <;> simp [smallCall, Kind.lo]
  · simp [MissingBuffer, smallCall]
  · simp only [smallCall, he, BadRatio]; norm_num
  · simp [Clash, smallCall, samples]

/-- Two calls of `smallCall` on a new handle: a stream at ratio 1, with output. -/
theorem two_calls {K : Kind} {cfg : Config} {e : ℤ} {st : SrcState} (h : srcNew cfg K.type (2 : ℕ) = .ok (e, some st)) :
    ∃ os V st1, run [.process (fun _ => zero32) (some smallCall), .process (fun _ => zero32) (some smallCall)] st = .ok (os, st1) ∧
      Fed (fun _ _ => zero32) 2 0 [.process (fun _ => zero32) (some smallCall), .process (fun _ => zero32) (some smallCall)] os V ∧
      0 < (outputs 2 os).length := by
  obtain ⟨a, b, c, d⟩ := smallCall_ok K
  have T := new_track (fun _ _ => zero32) h (by norm_num)
  have P : ∀ U, Presents (fun _ _ => zero32) 2 U (fun _ => zero32) smallCall := fun U k c _ _ => rfl
  obtain ⟨o1, s1, r1, z1⟩ := call_succeeds T a b c d (fun _ => zero32)
  obtain ⟨d1, ρ1, g, u, t, e1, e2, _, e3, _, e4, e5, e6, e7, e8, eb, es, eu, ek, l1, T1, _⟩ := track_call T a.one (P 0) r1 z1
  obtain ⟨o2, s2, r2, z2⟩ := call_succeeds T1 a b c d (fun _ => zero32)
  obtain ⟨d2, ρ2, g2, u2, t2, f1, f2, _⟩ := track_call T1 a.one (P _) r2 z2
  refine ⟨[o1, o2], _, s2, ?_, .call _ _ _ _ d1 _ _ _ (P _) z1 e1 (.call _ _ _ _ d2 _ _ _ (P _) z2 f1 (.nil _)), ?_⟩
  · simp only [run, r1, r2, bind, Except.bind]; rfl
  · have hg : 0 < g := by
      by_contra hg
      have hg : g = 0 := by omega
      subst hg
      have := es (by simp [smallCall]) (by simp [smallCall])
      simp only [posAt, smallCall] at this
      cases K <;> dsimp only at this <;> omega
    simp only [outputs, List.flatMap_cons, List.length_append, e8, List.length_map, List.length_range]
    omega

/-- The hypotheses of C18, C20, C21, C24, C43, C44 are met by these two calls. -/
example (K : Kind) : ∃ e st, srcNew ⟨none, none, none⟩ K.type (2 : ℕ) = .ok (e, some st) ∧
    ∃ ops os V st1, run ops st = .ok (os, st1) ∧ Fed (fun _ _ => zero32) 2 0 ops os V ∧
      (∀ op ∈ ops, OrdinaryOp K.lo (2 : ℕ) op ∧ AtRatio 1 op) ∧ 0 < (outputs 2 os).length := by
  have hn : ∃ e st, srcNew ⟨none, none, none⟩ K.type (2 : ℕ) = .ok (e, some st) := by
    cases K
    · exact ⟨_, _, zoh2_new⟩
    · refine ⟨0, { stateInit .linear 2 with priv := .linear (linearReset 2 (interpInit 2)) }, ?_⟩
      simp [srcNew, Config.table, Kind.type, SRC_LINEAR, SRC_ZERO_ORDER_HOLD, SRC_SINC_BEST_QUALITY, SRC_SINC_MEDIUM_QUALITY, SRC_SINC_FASTEST,
        linearStateNew, assertM, bind, Except.bind, pure, Except.pure, resetPriv, stateInit, Err.NO_ERROR]
  obtain ⟨e, st, hn⟩ := hn
  obtain ⟨os, V, st1, h1, h2, h3⟩ := two_calls hn
  refine ⟨e, st, hn, _, os, V, st1, h1, h2, ?_, h3⟩
  intro op hop
  simp only [List.mem_cons, List.not_mem_nil, or_false, or_self] at hop
  subst hop
  exact ⟨.process _ _ (by rintro _ ⟨⟩; exact (smallCall_ok K).1), one64_val⟩

/-- Non-vacuity of C23: a first call with room for 50 frames of output. -/
example (K : Kind) (e : ℤ) (st : SrcState) (h : srcNew ⟨none, none, none⟩ K.type (2 : ℕ) = .ok (e, some st)) :
    ∃ d d' o st2, Ordinary K.lo (2 : ℕ) d ∧ AtRatio 1 (.process (fun _ => zero32) (some d)) ∧
      (Op.process (fun _ => zero32) (some d)).run st = .ok (o, st2) ∧ o.ret = 0 ∧ o.data = some d' ∧ 0 < d.inputFrames ∧
      d'.outputFramesGen < d.outputFrames := by
  obtain ⟨a, b, c, d⟩ := smallCall_ok K
  have T := new_track (fun _ _ => zero32) h (by norm_num)
  have a' : Ordinary K.lo (2 : ℕ) { smallCall with outputFrames := 50 } := ⟨a.ratio, a.inSize, by norm_num [samples], a.few⟩
  obtain ⟨o1, s1, r1, z1⟩ := call_succeeds T (d := { smallCall with outputFrames := 50 }) a' (by simp [MissingBuffer, smallCall]) c
    (by simp [Clash, smallCall, samples]) (fun _ => zero32)
  obtain ⟨d1, ρ1, g, u, t, e1, e2, _, e3, _, e4, e5, e6, e7, e8, eb, es, eu, ek, l1, T1, _⟩ :=
    track_call T a'.one (fun k c _ _ => rfl) r1 z1
  refine ⟨_, d1, o1, s1, a', one64_val, r1, z1, e1, by simp [smallCall], ?_⟩
  have ht : t = 1 := by
    simp only [smallCall] at e4
    rw [one64_val] at e4
    exact (Option.some.inj e4).symm
  subst ht
  have e7 := e7 (by simp [startRatio])
  rw [e3]
  dsimp only
  rcases Nat.eq_zero_or_pos g with h0 | h0
  · omega
  · have := (eb (g - 1) (by omega)).2
    rw [posAt_congr (ρ' := fun _ => 1) (fun i hi => e7 i (by omega)), posAt_one] at this
    simp only [smallCall] at this
    omega

end Verif
