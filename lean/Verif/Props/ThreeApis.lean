import Verif.Props.Simple
import Verif.Props.Reading
import Verif.Props.Shift

/-! C89: the simple, the full and the callback interface give the same output. -/

namespace Verif

open Spec

/-- The `n` frames of `ch` channels in memory from address `a` on. -/
def framesAt (ch : ℕ) (m : Mem) (a : ℤ) (n : ℕ) : List (List F32) := (List.range n).map fun j => frameOf ch fun c => m (a + ((ch * j + c : ℕ) : ℤ))

/-- One of two outputs is the beginning of the other. -/
def SameAsFar (a b : List (List F32)) : Prop := a <+: b ∨ b <+: a

theorem same_as_far {f : ℕ → List F32} {a b : List (List F32)} (ha : a = (List.range a.length).map f) (hb : b = (List.range b.length).map f) : SameAsFar a b := by
  rw [ha, hb]
  rcases Nat.le_total a.length b.length with h | h
  · exact Or.inl (range_map_prefix _ h)
  · exact Or.inr (range_map_prefix _ h)

theorem converted_frames {ch : ℕ} {r : ℚ} {out : ℚ → ℕ → F32} {m m' : Mem} {d d' : SrcData} (h : Converted ch r out m d m' d') :
    framesAt ch m' d.dataOut d'.outputFramesGen.toNat =
      (List.range (framesAt ch m' d.dataOut d'.outputFramesGen.toNat).length).map fun j => frameOf ch (out (timeAt (fun _ => r) j)) := by
  have hl : (framesAt ch m' d.dataOut d'.outputFramesGen.toNat).length = d'.outputFramesGen.toNat := by simp [framesAt]
  rw [hl]
  unfold framesAt
  refine List.map_congr_left (fun j hj => List.map_congr_left (fun c hc => ?_))
  have hj := List.mem_range.1 hj
  have hc := List.mem_range.1 hc
  obtain ⟨τ, -, rfl, e⟩ := h.frames j c (by omega) hc
  exact e

/-- C89, sinc: `src_simple` converts a recording; a history of `src_process` calls on a handle of the same kind is fed with the same recording, cut in any way; and a history of
`src_callback_read` calls reads it through a callback that hands it out in pieces of any sizes.  At the same ratio all three give the same frames, bit by bit, as far as they go. -/
theorem C89_sinc (cfg : Config) (hL : LibraryTables cfg) (type : ℤ) (ht : SincType type) (t : CoeffTable) (hT : cfg.table type = some t) (ch : ℕ) (h1 : 1 ≤ ch) (h2 : ch ≤ 128)
    (m : Mem) (d : SrcData) (r : ℚ) (hA : ProperArgs ch r d) (hr0 : 1 / 180 ≤ r) (n : ℕ) (hn : n = d.inputFrames.toNat)
    (e : ℤ) (st st1 : SrcState) (h : srcNew cfg type ch = .ok (e, some st)) (ops : List Op) (os : List Obs) (V : ℕ)
    (hO : ∀ op ∈ ops, SizedOp ch op ∧ AtRatio r op) (hr : run ops st = .ok (os, st1)) (hF : FedTo (inputOf ch m d) ch (some n) 0 ops os V)
    (func : Option ℕ) (e' : ℤ) (ud : ℕ) (st' st1' : SrcState) (h' : srcCallbackNew cfg func type ch ud = .ok (e', some st')) (cnt addr : ℕ → ℤ) (hcnt : ∀ i, samples ch (cnt i) < 2 ^ 31)
    (hend : EndsFor cnt (some n)) (ops' : List Op) (os' : List Obs) (hO' : ∀ op ∈ ops', SizedRead ch (2 ^ 50) op ∧ ReadsAt r op) (hr' : run ops' st' = .ok (os', st1'))
    (hQ : Pulls (inputOf ch m d) ch cnt addr 0 ops' os') :
    ∃ m' d', srcSimple cfg m (some d) type ch = .ok (0, m', some d') ∧
      SameAsFar (framesAt ch m' d.dataOut d'.outputFramesGen.toNat) (outputs ch os) ∧
      SameAsFar (framesAt ch m' d.dataOut d'.outputFramesGen.toNat) (pulled ch ops' os') ∧
      SameAsFar (outputs ch os) (pulled ch ops' os') := by
  obtain ⟨m', d', hs, hC, -⟩ := C60_sinc cfg hL type ht t hT ch h1 h2 m d r hA hr0
  have hx : EndsAt (inputOf ch m d) (some n) := by rw [hn]; exact inputOf_ends m d
  have hr00 : 0 ≤ r := by linarith
  obtain ⟨t1, hT1, e1⟩ := sinc_const hL ht h hx hF hr00 hO hr
  obtain ⟨t2, hT2, e2⟩ := pulled_sinc hL ht (by omega) h' hcnt hend hx hr00 hO' hr' hQ
  rw [hT] at hT1 hT2
  cases hT1
  cases hT2
  have e3 := converted_frames hC
  exact ⟨m', d', hs, same_as_far e3 e1, same_as_far e3 e2, same_as_far e1 e2⟩

/-- C89, zero order hold and linear. -/
theorem C89_interp (cfg : Config) (hL : LibraryTables cfg) (type : ℤ) (ht : type = SRC_ZERO_ORDER_HOLD ∨ type = SRC_LINEAR) (ch : ℕ) (h1 : 1 ≤ ch) (h2 : ch ≤ 8355967)
    (m : Mem) (d : SrcData) (r : ℚ) (hA : ProperArgs ch r d) (hlin : type = SRC_LINEAR → 3 ≤ d.inputFrames)
    (e : ℤ) (st st1 : SrcState) (h : srcNew cfg type ch = .ok (e, some st)) (ops : List Op) (os : List Obs) (V : ℕ)
    (hO : ∀ op ∈ ops, OrdinaryOp 1 ch op ∧ AtRatio r op) (hr : run ops st = .ok (os, st1)) (hF : Fed (inputOf ch m d) ch 0 ops os V)
    (func : Option ℕ) (e' : ℤ) (ud : ℕ) (st' st1' : SrcState) (h' : srcCallbackNew cfg func type ch ud = .ok (e', some st')) (cnt addr : ℕ → ℤ) (hcnt : ∀ i, samples ch (cnt i) ≤ 2 ^ 52)
    (ops' : List Op) (os' : List Obs) (hO' : ∀ op ∈ ops', SizedRead ch (2 ^ 52) op ∧ ReadsAt r op) (hr' : run ops' st' = .ok (os', st1'))
    (hQ : Pulls (inputOf ch m d) ch cnt addr 0 ops' os') :
    ∃ m' d', srcSimple cfg m (some d) type ch = .ok (0, m', some d') ∧
      SameAsFar (framesAt ch m' d.dataOut d'.outputFramesGen.toNat) (outputs ch os) ∧
      SameAsFar (framesAt ch m' d.dataOut d'.outputFramesGen.toNat) (pulled ch ops' os') ∧
      SameAsFar (outputs ch os) (pulled ch ops' os') := by
  obtain ⟨m', d', hs, hC, -⟩ := C60_interp cfg hL type ht ch h1 h2 m d r hA hlin
  have e2 := pulled_interp hL ht h2 h' hcnt hO' hr' hQ
  have e3 := converted_frames hC
  have e1 : outputs ch os = (List.range (outputs ch os).length).map (fun j => frameOf ch (idealAt type (inputOf ch m d) (timeAt (fun _ => r) j))) := by
    obtain ⟨K, rfl⟩ := kind_of ht
    conv_lhs => rw [stream_const h h2 (fun op a => (hO op a).1) hF (fun op a => (hO op a).2) hr]
    exact List.map_congr_left (fun j _ => by rw [ideal_eq])
  exact ⟨m', d', hs, same_as_far e3 e1, same_as_far e3 e2, same_as_far e1 e2⟩

set_option maxRecDepth 100000 in
theorem lib_new2 : pullOutcome libCfg SRC_SINC_FASTEST (2 : ℕ) [.reset] = .ok [(0, 0, 0)] := by
  decide +kernel

/-- One read of hundred frames from a callback that hands out the stream `x` in buffers of four frames. -/
theorem stereo_read (x : ℕ → ℕ → F32) : ∃ e st N os st1, srcCallbackNew libCfg (some 1) SRC_SINC_FASTEST (2 : ℕ) 0 = .ok (e, some st) ∧
    run [.read (streamCb x 2 (fun _ => 4)) 1 N 0 (fun _ => zero32) one64 100 1] st = .ok (os, st1) ∧
    Pulls x 2 (fun _ => 4) (fun _ => 1000) 0 [.read (streamCb x 2 (fun _ => 4)) 1 N 0 (fun _ => zero32) one64 100 1] os ∧
    (pulled 2 [.read (streamCb x 2 (fun _ => 4)) 1 N 0 (fun _ => zero32) one64 100 1] os).length = 100 := by
  obtain ⟨e, st, h⟩ : ∃ e st, srcCallbackNew libCfg (some 1) SRC_SINC_FASTEST (2 : ℕ) 0 = .ok (e, some st) := by
    have hn := lib_new2
    unfold pullOutcome at hn
    generalize hq : srcCallbackNew libCfg (some 1) SRC_SINC_FASTEST (2 : ℕ) 0 = q at hn
    rcases q with f | ⟨e, _ | st⟩
    · cases hn
    · cases hn
    · exact ⟨e, st, rfl⟩
  have hS : Supplies 2 1000 8 (streamCb x 2 (fun _ => 4)) := fun _ _ _ =>
    ⟨by simp [streamCb], by simp only [streamCb]; decide, 1000, rfl, le_rfl, by simp only [streamCb]; decide⟩
  obtain ⟨N, ⟨n, m', s', k⟩, hd, hN⟩ := C59_sinc libCfg libCfg_tables 1 SRC_SINC_FASTEST e (Or.inr (Or.inr rfl)) 2 0 st st (by norm_num) h 1000 8 (by norm_num) (fun _ => 4)
    [] [] 0 (fun _ h => by simp at h) rfl (.nil _) (streamCb x 2 (fun _ => 4)) (fun _ _ _ => rfl) 1 (fun _ => zero32) one64 100 1
    ⟨hS, ⟨1, one64_val, by norm_num, by norm_num⟩, by norm_num, by decide, by norm_num, Or.inl (by decide)⟩
  obtain ⟨hn, s1, hs, he⟩ := hd
  have hN := hN N le_rfl
  dsimp only at hn hs he
  subst hn hs
  have hrun : run [.read (streamCb x 2 (fun _ => 4)) 1 N 0 (fun _ => zero32) one64 100 1] st =
      .ok ([⟨100, some m', none, k, srcError (some s1), srcGetChannels (some s1)⟩], s1) := by
    simp only [run, Op.run, hN]; rfl
  have hP : Pulls x 2 (fun _ => 4) (fun _ => 1000) 0 [.read (streamCb x 2 (fun _ => 4)) 1 N 0 (fun _ => zero32) one64 100 1]
      [⟨100, some m', none, k, srcError (some s1), srcGetChannels (some s1)⟩] :=
    .read 0 _ _ _ _ _ _ _ _ _ _ (streamCb_hands _ _) (streamCb_spares _ _ (by norm_num)) (by simp) he (.nil _)
  exact ⟨e, st, N, _, s1, h, hrun, hP, by simp [pulled, pulledBy]⟩

/-- The recording of the example: ninety frames of a tone, then silence, as it lies in memory. -/
def recording : ℕ → ℕ → F32 := inputOf 2 (stereoMem ninety) (simpleArgs one64 100 102)

/-- Non-vacuity of C89: this recording converted by `src_simple`, by one call of `src_process`, and through a callback that hands it out four frames at a time; the first 98 frames
(at least) of the last two agree. -/
example : ∃ (st st' : SrcState) (e : ℤ) (N : ℕ) (os os' : List Obs) (m' : Mem) (d' : SrcData), srcNew libCfg SRC_SINC_FASTEST (2 : ℕ) = .ok (0, some st) ∧
    srcCallbackNew libCfg (some 1) SRC_SINC_FASTEST (2 : ℕ) 0 = .ok (e, some st') ∧
    srcSimple libCfg (stereoMem ninety) (some (simpleArgs one64 100 102)) SRC_SINC_FASTEST (2 : ℕ) = .ok (0, m', some d') ∧
    SameAsFar (framesAt 2 m' 1000 d'.outputFramesGen.toNat) (outputs 2 os) ∧
    SameAsFar (framesAt 2 m' 1000 d'.outputFramesGen.toNat) (pulled 2 [.read (streamCb recording 2 (fun _ => 4)) 1 N 0 (fun _ => zero32) one64 100 1] os') ∧
    98 ≤ (outputs 2 os).length ∧ (pulled 2 [.read (streamCb recording 2 (fun _ => 4)) 1 N 0 (fun _ => zero32) one64 100 1] os').length = 100 := by
  obtain ⟨st, st1, os, h1, h2, h3, h4⟩ := stereo_call recording
  obtain ⟨e, st', N, os', st1', g1, g2, g3, g4⟩ := stereo_read recording
  have hO : ∀ op ∈ [Op.process (stereoMem recording) (some sincCall)], SizedOp (2 : ℕ) op ∧ AtRatio 1 op := by
    intro op hop
    rw [List.mem_singleton.1 hop]
    exact ⟨sincCall_sized, one64_val⟩
  have hO' : ∀ op ∈ [Op.read (streamCb recording 2 (fun _ => 4)) 1 N 0 (fun _ => zero32) one64 100 1], SizedRead 2 (2 ^ 50) op ∧ ReadsAt 1 op := by
    intro op hop
    rw [List.mem_singleton.1 hop]
    refine ⟨⟨fun h => ?_, by decide⟩, one64_val⟩
    have := congrArg Fl.val h
    rw [one64_val] at this
    cases this
  obtain ⟨m', d', k1, k2, k3, -⟩ := C89_sinc libCfg libCfg_tables SRC_SINC_FASTEST (Or.inr (Or.inr rfl)) Fastest.table
    (by simp [Config.table, libCfg, SRC_SINC_FASTEST, SRC_SINC_MEDIUM_QUALITY, SRC_SINC_BEST_QUALITY]) 2 (by norm_num) (by norm_num) (stereoMem ninety) (simpleArgs one64 100 102) 1 simpleArgs_proper
    (by norm_num) 100 rfl 0 st st1 h1 _ os _ hO h2 h3 (some 1) e 0 st' st1' g1 (fun _ => 4) (fun _ => 1000) (fun _ => by decide) (fun i hi => by simp at hi) _ os' hO' g2 g3
  exact ⟨st, st', e, N, os, os', m', d', h1, g1, k1, k2, k3, h4, g4⟩

end Verif
