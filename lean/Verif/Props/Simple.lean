import Verif.Spec.Simple
import Verif.Props.Sinc
import Verif.Props.Heap
import Verif.Props.LinearFault
import Verif.Proof.CallbackStream

/-! C60: `src_simple` converts a whole signal. -/

namespace Verif
open Spec

section
variable {ch : ℕ} {r : ℚ} {d : SrcData}

theorem Spec.ProperArgs.nan (A : ProperArgs ch r d) : d.srcRatio ≠ .nan := fun h => by have := A.ratio; rw [h] at this; cases this

theorem Spec.ProperArgs.inS (A : ProperArgs ch r d) : samples ch d.inputFrames = d.inputFrames * ch := by
  have := A.input
  unfold samples; rw [max_eq_left (by omega)]

theorem Spec.ProperArgs.outS (A : ProperArgs ch r d) : samples ch d.outputFrames = d.outputFrames * ch := by
  unfold samples; rw [max_eq_left A.room]

theorem Spec.ProperArgs.sized (A : ProperArgs ch r d) : SincSized ch { d with endOfInput := 1 } :=
  ⟨A.nan, by dsimp only; rw [A.inS]; exact A.inSize, by dsimp only; rw [A.outS]; exact A.outSize⟩

theorem Spec.ProperArgs.good (A : ProperArgs ch r d) : ¬ BadRatio d.srcRatio := by
  have := A.ratio
  cases hr : d.srcRatio with
  | nan => exact absurd hr A.nan
  | inf s => rw [hr] at this; cases this
  | fin x hx =>
    rw [hr] at this
    cases this
    simp only [BadRatio, not_or, not_lt]
    exact ⟨A.low, A.high⟩

theorem Spec.ProperArgs.clash (A : ProperArgs ch r d) (hch : 1 ≤ ch) : ¬ Clash d.dataIn (samples ch d.inputFrames) d.dataOut (samples ch d.outputFrames) := by
  rw [A.inS, A.outS]
  have h1 : 0 < d.inputFrames * (ch : ℤ) := mul_pos (by have := A.input; omega) (by omega)
  have h2 := mul_nonneg A.room (Int.natCast_nonneg ch)
  have := A.apart
  unfold Clash
  omega

theorem Spec.ProperArgs.present (A : ProperArgs ch r d) (m : Mem) : Presents (inputOf ch m d) ch 0 m { d with endOfInput := 1 } := by
  intro k c hk hc
  dsimp only at hk ⊢
  rw [Nat.zero_add, inputOf, if_pos hk]

theorem inputOf_ends (m : Mem) (d : SrcData) : EndsAt (inputOf ch m d) (some d.inputFrames.toNat) := by
  intro n hn k hk c
  cases hn
  rw [inputOf, if_neg (by omega)]

theorem time_steady (hv : ValidRatio r) (j : ℕ) : |timeAt (fun _ => r) j - j / r| ≤ j / 2 ^ 44 := by
  have hb : p2 (-44) = 1 / 2 ^ 44 := by norm_num [p2]
  have := time_const hv j
  rw [hb] at this
  rw [div_eq_mul_one_div (j : ℚ) (2 ^ 44)]
  exact this

/-- Enough room. -/
theorem room_left (hv : ValidRatio r) {N O G : ℤ} (hN : 0 ≤ N) (hG : 0 ≤ G) (hGO : G ≤ O) (hlast : ∀ j : ℕ, G = j + 1 → timeAt (fun _ => r) j ≤ N)
    (hroom : (N + O / 2 ^ 44) * r + 1 < (O : ℚ)) : G < O := by
  have hrp : 0 < r := lt_of_lt_of_le (by norm_num) hv.1
  rcases lt_or_eq_of_le hGO with h | rfl
  · exact h
  exfalso
  rcases Nat.eq_zero_or_pos G.toNat with h0 | h0
  · have : G = 0 := by omega
    subst this
    have : (0 : ℚ) ≤ N := by exact_mod_cast hN
    have := mul_nonneg this hrp.le
    simp only [Int.cast_zero, zero_div, add_zero] at hroom
    linarith
  · have h1 := hlast (G.toNat - 1) (by omega)
    have h2 := (abs_le.1 (time_steady hv (G.toNat - 1))).1
    have h3 : ((G.toNat - 1 : ℕ) : ℚ) = G - 1 := by
      have : ((G.toNat - 1 : ℕ) : ℤ) = G - 1 := by omega
      exact_mod_cast this
    rw [h3] at h2
    have : ((G : ℚ) - 1) / r * r ≤ (N + G / 2 ^ 44) * r := by
      apply mul_le_mul_of_nonneg_right _ hrp.le
      linarith [show ((G : ℚ) - 1) / 2 ^ 44 ≤ G / 2 ^ 44 by apply div_le_div_of_nonneg_right <;> linarith]
    rw [div_mul_cancel₀ _ hrp.ne'] at this
    linarith

end

/-- C60 for the sinc converters: `src_simple` with proper arguments at a ratio of at least 1/180 returns 0; output frame `j` is the response of the filter to the
whole signal, preceded and followed by silence, at the input time `j / r`, up to rounding of the time; nothing else is written.  If room is left, all input
has been used and the number of frames is that of the input times the ratio, up to one frame and rounding; and room for one more than that is enough. -/
theorem C60_sinc (cfg : Config) (hL : LibraryTables cfg) (type : ℤ) (ht : SincType type) (t : CoeffTable) (hT : cfg.table type = some t) (ch : ℕ) (h1 : 1 ≤ ch)
    (h2 : ch ≤ 128) (m : Mem) (d : SrcData) (r : ℚ) (hA : ProperArgs ch r d) (hr : 1 / 180 ≤ r) :
    ∃ m' d', srcSimple cfg m (some d) type ch = .ok (0, m', some d') ∧
      Converted ch r (sincIdeal t (inputOf ch m d) (allHistory t) r) m d m' d' ∧
      (d'.outputFramesGen < d.outputFrames → d'.inputFramesUsed = d.inputFrames ∧
        |(d'.outputFramesGen : ℚ) - d.inputFrames * r| ≤ 1 + (d'.outputFramesGen / 2 ^ 44 + 1 / 10 ^ 6) * r) ∧
      ((d.inputFrames + d.outputFrames / 2 ^ 44) * r + 1 < (d.outputFrames : ℚ) → d'.outputFramesGen < d.outputFrames) := by
  obtain ⟨st, hnew⟩ := sinc_new_ok hL ht hT h1 h2
  obtain ⟨t', B, _, S⟩ := sinc_new_hist hL ht hnew (p := .live) (Or.inr (Or.inl rfl))
  have hv : ValidRatio r := ⟨hA.low, hA.high⟩
  set d1 : SrcData := { d with endOfInput := 1 } with hd1
  have hlow : AtLeast (1 / 180) d1.srcRatio := by
    intro v hv' _ _
    have : some r = some v := hA.ratio.symm.trans hv'
    cases this
    exact hr
  obtain ⟨e, m', st', x', hp, -, hcase⟩ := sinc_process_total (d := d1) S hA.sized hlow m
  rcases hcase with ⟨ha, -, -⟩ | ⟨rfl, d', rfl, hAc, hF, hK, -⟩
  · exfalso
    have hf := (C02 _ _ _ _ _ _ _ hp (by rcases ha with h | h | h | h | h <;> simp [h])).1
    have hin := hA.input
    cases hf with
    | state hh => simp at hh
    | mode s a b => cases a; exact b S.mode
    | data s a b c => cases c
    | buffer s y a b c d =>
      cases c
      rcases d with ⟨d1, _⟩ | ⟨d1, _⟩
      · exact hA.dataIn d1
      · exact hA.dataOut d1
    | ratio s y a b c d e => cases c; exact hA.good e
    | overlap s y a b c d e f =>
      cases a
      cases c
      rw [(new_params hnew).2] at f
      exact hA.clash h1 f
  have hrun : (Op.process m (some d1)).run st = .ok (⟨0, some m', some d', 0, srcError (some st'), srcGetChannels (some st')⟩, st') := by
    simp only [Op.run, hp]; rfl
  generalize ho : (⟨0, some m', some d', 0, srcError (some st'), srcGetChannels (some st')⟩ : Obs) = o at hrun
  have ho1 : o.ret = 0 := by rw [← ho]
  have ho2 : o.data = some d' := by rw [← ho]
  have ho3 : o.mem = some m' := by rw [← ho]
  have hx := inputOf_ends (ch := ch) m d
  have hN : d.inputFrames.toNat = 0 + d1.inputFrames.toNat := by simp [hd1]
  have hin := hA.input
  have hg0 := hAc.gen0
  have hg1 := hAc.gen1
  have hu0 := hAc.used0
  have hu1 := hAc.used1
  simp only [hd1] at hg1 hu1
  rw [max_eq_left hA.room] at hg1
  rw [max_eq_left (by omega)] at hu1
  obtain ⟨τ', ρ, D, hT', a1, a2, aR, a3, a4⟩ := C24_sinc cfg hL type ht ch 0 st st' hnew (inputOf ch m d) (some d.inputFrames.toNat) hx [.process m (some d1)] [o] _
    (by intro op hop; rw [List.mem_singleton.1 hop]; exact hA.sized) (run_one hrun)
    (.call 0 _ m d1 d' o [] [] (hA.present m) (fun _ => by rw [← hN]) ho1 ho2 (.nil _))
  rw [hT] at hT'
  cases hT'
  have hout : outputs ch [o] = (List.range d'.outputFramesGen.toNat).map fun j => frameOf ch fun c => m' (d'.dataOut + ((ch * j + c : ℕ) : ℤ)) := by
    rw [← outOf_eq ho3 ho2]; simp [outputs]
  have hlen : (outputs ch [o]).length = d'.outputFramesGen.toNat := by rw [hout]; simp
  rw [hlen] at a1 a2 a3 a4
  have hρ : ∀ j < d'.outputFramesGen.toNat, ρ j = r := by
    intro j hj
    have := a2 r r (by
      intro op hop
      rw [List.mem_singleton.1 hop]
      intro v hv'
      have : some r = some v := hA.ratio.symm.trans hv'
      cases this
      exact ⟨le_rfl, le_rfl⟩) j hj
    exact le_antisymm this.2 this.1
  have hτ : ∀ j ≤ d'.outputFramesGen.toNat, timeAt ρ j = timeAt (fun _ => r) j := by
    intro j hj
    unfold timeAt
    rw [posAt_congr (ρ' := fun _ => r) fun i hi => hρ i (by omega)]
  have hD : ∀ j < d'.outputFramesGen.toNat, D j = allHistory t := by
    intro j hj
    refine (a1 j hj).2.2.2 (Or.inr (.riseCall _ _ _ _ hA.sized ?_ (.nil _)))
    intro v hv'
    have : some r = some v := hA.ratio.symm.trans hv'
    cases this
    intro a _
    exact ⟨by linarith, by linarith⟩
  refine ⟨m', d', ?_, ⟨hu0, hu1, hg0, hg1, fun j c hj hc => ?_, hF⟩, fun hroom => ?_, fun hroom => ?_⟩
  · unfold srcSimple
    rw [hnew]
    simp only [bind, Except.bind]
    rw [hp]
    rfl
  · refine ⟨_, time_steady hv j, rfl, ?_⟩
    have hj' : j < d'.outputFramesGen.toNat := by omega
    rw [hout] at a3
    have := List.map_inj_left.1 a3 j (List.mem_range.2 hj')
    rw [hD j hj', hρ j hj', hτ j hj'.le] at this
    have := congrArg (fun l => l[c]?) this
    simp only [frameOf, List.getElem?_map, List.getElem?_range hc, Option.map_some, Option.some.injEq] at this
    rw [hK.dataOut] at this
    exact this
  · have hN' : ((d.inputFrames.toNat : ℕ) : ℚ) = d.inputFrames := by
      have : ((d.inputFrames.toNat : ℕ) : ℤ) = d.inputFrames := by omega
      exact_mod_cast this
    obtain ⟨b1, b2⟩ := C48 cfg hL type ht ch 0 st st st' hnew (inputOf ch m d) d.inputFrames.toNat hx r hr [] [] 0 (fun op h => absurd h (by simp)) rfl (.nil _) m d1 d' o
      hA.sized hA.ratio (hA.present m) (by simp [hd1]) hN hA.dataIn hrun ho1 ho2 hroom d'.outputFramesGen (by simp [outputs])
    rw [hN'] at b2
    refine ⟨by omega, b2⟩
  · refine room_left hv (by omega) hg0 hg1 (fun j hj => ?_) hroom
    have := (a4 j (by omega)).1
    rw [hτ j (by omega)] at this
    refine le_trans this.le ?_
    have : ((0 + d'.inputFramesUsed.toNat : ℕ) : ℤ) ≤ d.inputFrames := by omega
    exact_mod_cast this

/-- C60 for zero order hold, and for linear with at least three input frames (with one or two the linear converter may read outside the input, C07).  No output
frame lies after the end of the input. -/
theorem C60_interp (cfg : Config) (hL : LibraryTables cfg) (type : ℤ) (ht : type = SRC_ZERO_ORDER_HOLD ∨ type = SRC_LINEAR) (ch : ℕ)
    (h1 : 1 ≤ ch) (h2 : ch ≤ 8355967) (m : Mem) (d : SrcData) (r : ℚ) (hA : ProperArgs ch r d) (hlin : type = SRC_LINEAR → 3 ≤ d.inputFrames) :
    ∃ m' d', srcSimple cfg m (some d) type ch = .ok (0, m', some d') ∧
      Converted ch r (idealAt type (inputOf ch m d)) m d m' d' ∧
      (d'.outputFramesGen < d.outputFrames → (type = SRC_ZERO_ORDER_HOLD → d'.inputFramesUsed = d.inputFrames) ∧ d.inputFrames - 1 ≤ d'.inputFramesUsed ∧
        |(d'.outputFramesGen : ℚ) - d.inputFrames * r| ≤ 1 + r + d'.outputFramesGen * r / 2 ^ 44) ∧
      ((d.inputFrames + 1 + d.outputFrames / 2 ^ 44) * r + 1 < (d.outputFrames : ℚ) → d'.outputFramesGen < d.outputFrames) ∧
      ∀ j : ℕ, (j : ℤ) < d'.outputFramesGen → (⌊timeAt (fun _ => r) j⌋₊ : ℤ) ≤ d.inputFrames := by
  obtain ⟨K, rfl⟩ := kind_of ht
  have hv : ValidRatio r := ⟨hA.low, hA.high⟩
  have hin := hA.input
  have hz := hA.sized
  have htab : cfg.table K.type = none := by
    cases K <;> simp [Kind.type, Config.table, SRC_ZERO_ORDER_HOLD, SRC_LINEAR, SRC_SINC_BEST_QUALITY, SRC_SINC_MEDIUM_QUALITY, SRC_SINC_FASTEST]
  obtain ⟨st, hnew⟩ := (new_cases hL K.type ch).2.2.2 (by rcases ht with h | h; exacts [Or.inl h, Or.inr (Or.inl h)]) (by omega) (fun h => absurd htab h)
  set d1 : SrcData := { d with endOfInput := 1 } with hd1
  have T := new_track (inputOf ch m d) hnew h2
  have hOl : ∀ lo, lo ≤ d.inputFrames → Ordinary lo ch d1 := fun lo h => ⟨hA.nan, le_trans hz.inSize.le (by norm_num), le_trans hz.outSize (by norm_num), Or.inr h⟩
  obtain ⟨o, st', hrun, ho1⟩ := call_succeeds T (d := d1) (hOl K.lo (by cases K; exacts [hin, hlin rfl]))
    (by rintro (⟨h, _⟩ | ⟨h, _⟩); exacts [hA.dataIn h, hA.dataOut h]) hA.good (hA.clash h1) m
  obtain ⟨d', ρ, g, u, t, ho2, e1, e2, e3, e4, e5, -, e6, e7, e8, e9, e10, e11, -⟩ := track_call T (hOl 1 hin) (hA.present m) hrun ho1
  obtain ⟨m', x', ho3, hp⟩ : ∃ m' x', o.mem = some m' ∧ srcProcess m (some st) (some d1) = .ok (0, m', x', o.data) := by
    obtain ⟨⟨e, m', s', x'⟩, hp, h⟩ := bind_ok hrun
    have h := ok_inj h; simp only [Prod.mk.injEq] at h
    obtain ⟨rfl, -⟩ := h
    dsimp only at ho1 ho2 ⊢
    subst ho1
    exact ⟨m', s', rfl, hp⟩
  have h5 := C05 cfg hL K.type ch h2 0 st st' hnew [.process m (some d1)] (by
    intro op hop; rw [List.mem_singleton.1 hop]; exact .process _ _ (by rintro _ ⟨⟩; exact hOl 1 hin)) [o] (run_one hrun)
  obtain ⟨hF, hK⟩ : Footprint ch d d' m m' ∧ KeepsArgs d1 d' := by
    cases h5 with
    | cons h _ =>
      rcases h m _ rfl with ⟨ha, _⟩ | ⟨y, y', m2, hy, hd, hm, hk, hf, _⟩
      · rw [ho1] at ha; rcases ha with h | h | h | h | h <;> norm_num at h
      · cases hy
        rw [ho2] at hd; rw [ho3] at hm
        cases hd; cases hm
        exact ⟨hf ho1, hk⟩
  have htr : t = r := by
    have := hA.ratio
    rw [show d.srcRatio.val = some t from e5] at this
    exact Option.some.inj this
  subst htr
  have hst : startRatio 0 t = t := by simp [startRatio]
  have hρ := e7 hst
  have hpos : ∀ j ≤ g, posAt ⟨0, 0⟩ ρ j = posAt ⟨0, 0⟩ (fun _ => t) j := fun j hj => posAt_congr fun i hi => hρ i (by omega)
  rw [outOf_eq ho3 ho2, e3, Int.toNat_natCast] at e8
  have hg1 : (g : ℤ) ≤ d.outputFrames := by
    have : (g : ℤ) ≤ max d.outputFrames 0 := e4
    rwa [max_eq_left hA.room] at this
  have hu1 : (u : ℤ) ≤ d.inputFrames := by
    have : (u : ℤ) ≤ max d.inputFrames 0 := e2
    rwa [max_eq_left (by omega)] at this
  refine ⟨m', d', ?_, ⟨by omega, by omega, by omega, by omega, fun j c hj hc => ?_, hF⟩, fun hroom => ?_, fun hroom => ?_, fun j hj => ?_⟩
  · unfold srcSimple
    rw [hnew]
    simp only [bind, Except.bind]
    rw [hp, ho2]
    rfl
  · refine ⟨_, time_steady hv j, rfl, ?_⟩
    have hj' : j < g := by omega
    have := List.map_inj_left.1 e8 j (List.mem_range.2 hj')
    rw [ideal_eq] at this
    have ht : timeAt ρ j = timeAt (fun _ => t) j := by unfold timeAt; rw [hpos j hj'.le]
    rw [ht] at this
    have := congrArg (fun l => l[c]?) this
    simp only [frameOf, List.getElem?_map, List.getElem?_range hc, Option.map_some, Option.some.injEq] at this
    rw [hK.dataOut] at this
    exact this
  · have hs := e10 (by rw [← e3]; exact hroom) hin
    have hu := e11 hin
    have hin1 : d1.inputFrames = d.inputFrames := rfl
    have hs' : (K.type = SRC_ZERO_ORDER_HOLD → d.inputFrames ≤ (posAt ⟨0, 0⟩ ρ g).k) ∧ d.inputFrames ≤ (posAt ⟨0, 0⟩ ρ g).k + 1 := by
      cases K
      · dsimp only at hs; exact ⟨fun _ => by omega, by omega⟩
      · dsimp only at hs; exact ⟨fun h => absurd h (by decide), by omega⟩
    have hu' : (u : ℤ) = min ((posAt ⟨0, 0⟩ ρ g).k : ℤ) d.inputFrames := by simpa using hu
    refine ⟨fun hz => ?_, ?_, ?_⟩
    · have := hs'.1 hz; omega
    · have := hs'.2; omega
    · have := C23 cfg K.type ht ch h2 0 st st st' hnew (inputOf ch m d) t [] [] 0 (fun op h => absurd h (by simp)) rfl (.nil _) m d1 d' o (hOl 1 hin) hA.ratio
        (hA.present m) hrun ho1 ho2 hin hroom d'.outputFramesGen d.inputFrames (by simp [outputs]) (by simp [hd1])
      exact this
  · refine room_left (N := d.inputFrames + 1) hv (by omega) (by omega) (by omega) (fun j hj => ?_) (by push_cast; exact hroom)
    have := (e9 j (by omega)).2
    rw [hpos j (by omega)] at this
    have hk : ((posAt ⟨0, 0⟩ (fun _ => t) j).k : ℤ) ≤ d.inputFrames := by simpa using this
    have hk' : (((posAt ⟨0, 0⟩ (fun _ => t) j).k : ℕ) : ℚ) ≤ d.inputFrames := by exact_mod_cast hk
    have := (time_k (fun _ => t) j).2
    push_cast
    linarith
  · have := (e9 j (by omega)).2
    rw [hpos j (by omega)] at this
    rw [floor_time]
    simpa using this

/-- `src_simple` on the heap: if no allocation is refused it does what `srcSimple` does; if one is, it returns `SRC_ERR_MALLOC_FAILED` and does nothing. -/
theorem C34_value (A : Alloc) (cfg : Config) (w : World) (L : Set ℕ) (hw : At A cfg w L) (m m' : Mem) (d : SrcData) (x : Option SrcData) (type ch e : ℤ)
    (h : srcSimple cfg m (some d) type ch = .ok (e, m', x)) :
    ∃ w', (Call.simple m (some d) type ch).run A cfg w = .ok (.simple e m' x, w') ∧ w'.refused = w.refused ∨
      (Call.simple m (some d) type ch).run A cfg w = .ok (.simple 1 m (some d), w') ∧ w.refused < w'.refused := by
  obtain ⟨w0, V, ⟨lay, own, S⟩, rfl⟩ := at_sep hw
  unfold srcSimple at h
  obtain ⟨⟨e0, s⟩, hn, h⟩ := bind_ok h
  unfold Call.run simpleH
  dsimp only
  cases s with
  | none =>
    have h := ok_inj h; simp only [Prod.mk.injEq] at h
    obtain ⟨rfl, rfl, rfl⟩ := h
    rw [newH_none A hn]; exact ⟨w, Or.inl ⟨rfl, rfl⟩⟩
  | some st =>
    obtain ⟨he, e', p, w', hr, hm⟩ := newH_spec A S.zero hn
    rw [hr, ok_bindH]
    dsimp only
    rcases hm with ⟨rfl, rfl, hF⟩ | ⟨rfl, hrf, q, r, hA, hH⟩
    · rw [if_pos rfl]; exact ⟨w', Or.inr ⟨rfl, hF.2⟩⟩
    rw [if_neg hA.a0]
    have h0' := blocks0 hA S.zero
    rw [load_ok h0' hH, ok_bindH]
    obtain ⟨⟨e2, m2, s2, d2⟩, hp, h⟩ := bind_ok h
    have h := ok_inj h; simp only [Prod.mk.injEq] at h
    obtain ⟨rfl, rfl, rfl⟩ := h
    obtain ⟨s', rfl, L⟩ := process_like hH.like hp
    rw [hp, ofM_ok, ok_bindH]
    dsimp only
    obtain ⟨w2, e2', hH2, ho, hf2, _⟩ := store_ok h0' hH L (tight_like L hH.tight)
    rw [show (some s').getD st = s' from rfl, e2', ok_bindH]
    have h02 : w2.blocks 0 = none := by rw [ho 0 hA.a0.symm hA.b0.symm hA.c0.symm, h0']
    obtain ⟨w3, e3, hx, hy⟩ := closeH_spec h02 hH2
    unfold deleteH
    rw [if_neg hA.a0, e3, ok_bindH]
    exact ⟨w3, Or.inl ⟨rfl, by rw [hy, hf2, hrf]⟩⟩

/-- 100 frames of input at address 1, room for `room` frames at address 1000. -/
def simpleArgs (ratio : F64) (n room : ℤ) : SrcData :=
  { dataIn := 1, dataOut := 1000, inputFrames := n, outputFrames := room, inputFramesUsed := 0, outputFramesGen := 0, endOfInput := 0, srcRatio := ratio }

theorem simpleArgs_proper : ProperArgs 2 1 (simpleArgs one64 100 102) :=
  ⟨by decide, by decide, one64_val, by norm_num, by norm_num, by decide, by decide, Or.inl (by decide), by decide, by decide⟩

/-- Non-vacuity of `C60_sinc`: 100 stereo frames at ratio 1 with room for 102 frames: all input is used, 99, 100 or 101 frames are generated. -/
example (m : Mem) : ∃ m' d', srcSimple fastCfg m (some (simpleArgs one64 100 102)) SRC_SINC_FASTEST (2 : ℕ) = .ok (0, m', some d') ∧ d'.inputFramesUsed = 100 ∧
    99 ≤ d'.outputFramesGen ∧ d'.outputFramesGen ≤ 101 := by
  obtain ⟨m', d', h1, h2, h3, h4⟩ := C60_sinc fastCfg fastCfg_tables SRC_SINC_FASTEST (Or.inr (Or.inr rfl)) _ rfl 2 (by norm_num) (by norm_num) m _ 1 simpleArgs_proper (by norm_num)
  have h4 := h4 (by norm_num [simpleArgs])
  obtain ⟨h5, h6⟩ := h3 h4
  have h7 : d'.outputFramesGen ≤ 101 := by
    have : d'.outputFramesGen < 102 := h4
    omega
  have h8 := (abs_le.1 h6).1
  have h9 : (d'.outputFramesGen : ℚ) ≤ 101 := by exact_mod_cast h7
  have h10 : (98 : ℚ) < d'.outputFramesGen := by
    simp only [simpleArgs] at h8
    push_cast at h8
    norm_num at h8 ⊢
    linarith
  have h11 : 98 < d'.outputFramesGen := by exact_mod_cast h10
  exact ⟨m', d', h1, h5, by omega, h7⟩

/-- Non-vacuity of `C60_interp`. -/
example (m : Mem) : ∃ m' d', srcSimple fastCfg m (some (simpleArgs one64 100 103)) SRC_LINEAR (1 : ℕ) = .ok (0, m', some d') ∧ 99 ≤ d'.inputFramesUsed := by
  obtain ⟨m', d', h1, h2, h3, h4, -⟩ := C60_interp fastCfg fastCfg_tables SRC_LINEAR (Or.inr rfl) 1 (by norm_num) (by norm_num) m (simpleArgs one64 100 103) 1
    ⟨by decide, by decide, one64_val, by norm_num, by norm_num, by decide, by decide, Or.inl (by decide), by decide, by decide⟩ (fun _ => by decide)
  exact ⟨m', d', h1, (h3 (h4 (by norm_num [simpleArgs]))).2.1⟩

set_option maxRecDepth 100000 in
/-- The restriction to three input frames in `C60_interp` is needed: converting two frames with the linear converter at ratio 10 reads before the input buffer,
because ten steps of 0.1 make `1 - 2^-53`. -/
theorem C60_linear_two : srcSimple ⟨none, none, none⟩ (fun _ => zero32) (some (simpleArgs (dbl 10) 2 20)) SRC_LINEAR 1 = .error .oobRead := by
  have h : (match srcSimple ⟨none, none, none⟩ (fun _ => zero32) (some (simpleArgs (dbl 10) 2 20)) SRC_LINEAR 1 with | .error f => some f | .ok _ => none) =
      some Fault.oobRead := by decide +kernel
  generalize srcSimple ⟨none, none, none⟩ (fun _ => zero32) (some (simpleArgs (dbl 10) 2 20)) SRC_LINEAR 1 = y at h ⊢
  cases y with
  | ok y => cases h
  | error f => simpa using h

end Verif
