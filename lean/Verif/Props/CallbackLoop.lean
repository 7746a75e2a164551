import Verif.Props.Loop
import Verif.Props.Rising
import Verif.Props.Reading
import Verif.Props.Simple

/-! C87 and C88 for the callback API and for `src_simple`. -/

namespace Verif

open Spec

theorem idealAt_rises {type : ℤ} (ht : type = SRC_ZERO_ORDER_HOLD ∨ type = SRC_LINEAR) {x : ℕ → ℕ → F32} {r : ℚ} (hv : ValidRatio r) {c : ℕ}
    (hx : ∀ k, NotBelow (x k c) (x (k + 1) c)) {i j : ℕ} (hij : i ≤ j) :
    NotBelow (idealAt type x (timeAt (fun _ => r) i) c) (idealAt type x (timeAt (fun _ => r) j) c) := by
  obtain ⟨K, rfl⟩ := kind_of ht
  rw [← ideal_eq, ← ideal_eq]
  exact ideal_rises (n := j + 1) (fun _ _ => hv) hx hij (Nat.lt_succ_self j)

/-- C87 for the callback API: read at a constant ratio `r` in any number of reads, from a callback that hands out a rising stream in buffers of any sizes, the output rises. -/
theorem C87_callback (cfg : Config) (hL : LibraryTables cfg) (func : Option ℕ) (e : ℤ) (type : ℤ) (ht : type = SRC_ZERO_ORDER_HOLD ∨ type = SRC_LINEAR) (ch ud : ℕ) (hc : ch ≤ 8355967)
    (st st1 : SrcState) (h : srcCallbackNew cfg func type ch ud = .ok (e, some st)) (x : ℕ → ℕ → F32) (cnt addr : ℕ → ℤ) (hcnt : ∀ i, samples ch (cnt i) ≤ 2 ^ 52)
    (r : ℚ) (hr1 : 1 / 256 ≤ r) (hr2 : r ≤ 256) (ops : List Op) (os : List Obs) (hO : ∀ op ∈ ops, SizedRead ch (2 ^ 52) op ∧ ReadsAt r op) (hr : run ops st = .ok (os, st1))
    (hQ : Pulls x ch cnt addr 0 ops os) (c : ℕ) (hx : ∀ k, NotBelow (x k c) (x (k + 1) c)) :
    ∀ (i j : ℕ) (f g : List F32) (v w : F32), i ≤ j → (pulled ch ops os)[i]? = some f → (pulled ch ops os)[j]? = some g → f[c]? = some v → g[c]? = some w →
      NotBelow v w := by
  have hp := pulled_interp hL ht hc h hcnt hO hr hQ
  intro i j f g v w hij hf hg hv hw
  obtain ⟨-, rfl⟩ := getElem?_of_map hp hf
  obtain ⟨-, rfl⟩ := getElem?_of_map hp hg
  obtain ⟨-, rfl⟩ := getElem?_of_map (n := ch) rfl hv
  obtain ⟨-, rfl⟩ := getElem?_of_map (n := ch) rfl hw
  exact idealAt_rises ht ⟨hr1, hr2⟩ hx hij

/-- C88 for the callback API, zero order hold and linear: a callback that hands out a loop. -/
theorem C88_callback_interp (cfg : Config) (hL : LibraryTables cfg) (func : Option ℕ) (e : ℤ) (type : ℤ) (ht : type = SRC_ZERO_ORDER_HOLD ∨ type = SRC_LINEAR) (ch ud : ℕ) (hc : ch ≤ 8355967)
    (st st1 : SrcState) (h : srcCallbackNew cfg func type ch ud = .ok (e, some st)) (x : ℕ → ℕ → F32) (cnt addr : ℕ → ℤ) (hcnt : ∀ i, samples ch (cnt i) ≤ 2 ^ 52)
    (r : ℚ) (hp : PowerOfTwo r) (ops : List Op) (os : List Obs) (hO : ∀ op ∈ ops, SizedRead ch (2 ^ 52) op ∧ ReadsAt r op) (hr : run ops st = .ok (os, st1))
    (hQ : Pulls x ch cnt addr 0 ops os) (c N L : ℕ) (hx : Repeats x c N L) (j j' : ℕ) (f f' : List F32) (hj : (j' : ℚ) = j + N * r)
    (hf : (pulled ch ops os)[j]? = some f) (hf' : (pulled ch ops os)[j']? = some f') (h0 : 2 ≤ (j : ℚ) / r) (h1 : (j' : ℚ) / r < L) : f[c]? = f'[c]? := by
  have hr0 := hp.pos
  have he := pulled_interp hL ht hc h hcnt hO hr hQ
  obtain ⟨-, rfl⟩ := getElem?_of_map he hf
  obtain ⟨-, rfl⟩ := getElem?_of_map he hf'
  refine frameOf_at ?_
  rw [hj, add_div, mul_div_cancel_right₀ _ hr0.ne'] at h1
  rw [hp.time, hp.time, idealAt_shift (by linarith) (repeats_agree hx (by linarith) (by linarith)), hj, add_div, mul_div_cancel_right₀ _ hr0.ne']

/-- C88 for the callback API, sinc. -/
theorem C88_callback_sinc (cfg : Config) (hL : LibraryTables cfg) (func : Option ℕ) (e : ℤ) (type : ℤ) (ht : SincType type) (ch ud : ℕ) (hc : ch ≤ 8355967)
    (st st1 : SrcState) (h : srcCallbackNew cfg func type ch ud = .ok (e, some st)) (x : ℕ → ℕ → F32) (cnt addr : ℕ → ℤ) (hcnt : ∀ i, samples ch (cnt i) < 2 ^ 31)
    (len : Option ℕ) (hend : EndsFor cnt len) (hx : EndsAt x len)
    (r : ℚ) (hp : PowerOfTwo r) (ops : List Op) (os : List Obs) (hO : ∀ op ∈ ops, SizedRead ch (2 ^ 50) op ∧ ReadsAt r op) (hr : run ops st = .ok (os, st1))
    (hQ : Pulls x ch cnt addr 0 ops os) :
    ∃ t, cfg.table type = some t ∧ ∀ c N L, Repeats x c N L → ∀ (j j' : ℕ) (f f' : List F32), (j' : ℚ) = j + N * r →
      (pulled ch ops os)[j]? = some f → (pulled ch ops os)[j']? = some f' → filterReach t r ≤ j / r → j' / r + filterReach t r < L → f[c]? = f'[c]? := by
  have hr0 := hp.pos
  obtain ⟨t, hT, he⟩ := pulled_sinc hL ht hc h hcnt hend hx hr0.le hO hr hQ
  have hv : 1 / 256 ≤ r := by
    obtain ⟨a, ha, rfl | rfl⟩ := hp
    · have : (1 : ℚ) ≤ 2 ^ a := one_le_pow₀ (by norm_num)
      linarith
    · have : (2 : ℚ) ^ a ≤ 2 ^ 8 := pow_le_pow_right₀ (by norm_num) ha
      exact one_div_le_one_div_of_le (by positivity) (this.trans (by norm_num))
  refine ⟨t, hT, fun c N L hR j j' f f' hj hf hf' h0 h1 => ?_⟩
  obtain ⟨_, st0, hn, rfl⟩ := callbackNew_inv h
  obtain ⟨t', hT', hd⟩ := sinc_table hL ht hn
  rw [hT] at hT'
  cases hT'
  obtain ⟨B, G, -⟩ := table_geom hd
  obtain ⟨-, rfl⟩ := getElem?_of_map he hf
  obtain ⟨-, rfl⟩ := getElem?_of_map he hf'
  refine frameOf_at ?_
  rw [hj, add_div, mul_div_cancel_right₀ _ hr0.ne'] at h1
  rw [hp.time, hp.time, sincIdeal_shift (N := N) G (by omega) (by omega) (by omega) hv (repeats_agree hR h0 (by linarith)), hj, add_div,
    mul_div_cancel_right₀ _ hr0.ne']

/-- The input of a call, its last frame held for ever. -/
def heldInput (ch : ℕ) (m : Mem) (d : SrcData) (k c : ℕ) : F32 := m (d.dataIn + ((ch * min k (d.inputFrames.toNat - 1) + c : ℕ) : ℤ))

/-- C87 for `src_simple`: if the samples of the input rise in channel `c`, so do those of the output (any number of frames, any ratio). -/
theorem C87_simple (cfg : Config) (hL : LibraryTables cfg) (type : ℤ) (ht : type = SRC_ZERO_ORDER_HOLD ∨ type = SRC_LINEAR) (ch : ℕ)
    (h1 : 1 ≤ ch) (h2 : ch ≤ 8355967) (m : Mem) (d : SrcData) (r : ℚ) (hA : ProperArgs ch r d) (hlin : type = SRC_LINEAR → 3 ≤ d.inputFrames)
    (c : ℕ) (hc : c < ch) (hfin : (m (d.dataIn + c)).val ≠ none)
    (hx : ∀ k : ℕ, (k : ℤ) + 1 < d.inputFrames → NotBelow (m (d.dataIn + ((ch * k + c : ℕ) : ℤ))) (m (d.dataIn + ((ch * (k + 1) + c : ℕ) : ℤ)))) :
    ∃ m' d', srcSimple cfg m (some d) type ch = .ok (0, m', some d') ∧
      ∀ i j : ℕ, i ≤ j → (j : ℤ) < d'.outputFramesGen →
        NotBelow (m' (d.dataOut + ((ch * i + c : ℕ) : ℤ))) (m' (d.dataOut + ((ch * j + c : ℕ) : ℤ))) := by
  obtain ⟨m', d', hs, -⟩ := C60_interp cfg hL type ht ch h1 h2 m d r hA hlin
  refine ⟨m', d', hs, fun i j hij hj => ?_⟩
  have hin := hA.input
  have hz := hA.sized
  obtain ⟨K, rfl⟩ := kind_of ht
  have htab : cfg.table K.type = none := by
    cases K <;> simp [Kind.type, Config.table, SRC_ZERO_ORDER_HOLD, SRC_LINEAR, SRC_SINC_BEST_QUALITY, SRC_SINC_MEDIUM_QUALITY, SRC_SINC_FASTEST]
  obtain ⟨st, hnew⟩ := (new_cases hL K.type ch).2.2.2 (by rcases ht with h | h; exacts [Or.inl h, Or.inr (Or.inl h)]) (by omega) (fun h => absurd htab h)
  have T := new_track (heldInput ch m d) hnew h2
  set d1 : SrcData := { d with endOfInput := 1 } with hd1
  have hOl : ∀ lo, lo ≤ d.inputFrames → Ordinary lo ch d1 := fun lo h => ⟨hA.nan, le_trans hz.inSize.le (by norm_num), le_trans hz.outSize (by norm_num), Or.inr h⟩
  obtain ⟨o, st', hrun, ho1⟩ := call_succeeds T (d := d1) (hOl K.lo (by cases K; exacts [hin, hlin rfl]))
    (by rintro (⟨h, _⟩ | ⟨h, _⟩); exacts [hA.dataIn h, hA.dataOut h]) hA.good (hA.clash h1) m
  obtain ⟨ho3, ho2⟩ : o.mem = some m' ∧ o.data = some d' := by
    obtain ⟨⟨e, m1, s1, x1⟩, hp, h⟩ := bind_ok hrun
    have h := ok_inj h; simp only [Prod.mk.injEq] at h
    obtain ⟨rfl, -⟩ := h
    unfold srcSimple at hs
    rw [hnew] at hs
    simp only [bind, Except.bind] at hs
    rw [hp] at hs
    have hs := ok_inj hs
    simp only [Prod.mk.injEq] at hs
    exact ⟨by rw [hs.2.1], hs.2.2⟩
  have h5 := C05 cfg hL K.type ch h2 0 st st' hnew [.process m (some d1)] (by
    intro op hop; rw [List.mem_singleton.1 hop]; exact .process _ _ (by rintro _ ⟨⟩; exact hOl 1 hin)) [o] (run_one hrun)
  have hK : KeepsArgs d1 d' := by
    cases h5 with
    | cons h _ =>
      rcases h m _ rfl with ⟨ha, _⟩ | ⟨y, y', m2, hy, hd, hm, hk, hf, _⟩
      · rw [ho1] at ha; rcases ha with h | h | h | h | h <;> norm_num at h
      · cases hy
        rw [ho2] at hd
        cases hd
        exact hk
  have P : Presents (heldInput ch m d) ch 0 m d1 := by
    intro k c hk _
    have hk : (k : ℤ) < d.inputFrames := hk
    unfold heldInput
    rw [Nat.zero_add, min_eq_left (by omega)]
  have hup : ∀ k, NotBelow (heldInput ch m d k c) (heldInput ch m d (k + 1) c) := by
    have fin : ∀ n : ℕ, (n : ℤ) < d.inputFrames → (m (d.dataIn + ((ch * n + c : ℕ) : ℤ))).val ≠ none := by
      intro n hn
      cases n with
      | zero => simpa using hfin
      | succ n =>
        obtain ⟨_, q, _, hq, _⟩ := hx n (by omega)
        rw [hq]; simp
    intro k
    unfold heldInput
    by_cases hk : (k : ℤ) + 1 < d.inputFrames
    · rw [min_eq_left (by omega), min_eq_left (by omega)]
      exact hx k hk
    · rw [min_eq_right (show d.inputFrames.toNat - 1 ≤ k by omega), min_eq_right (show d.inputFrames.toNat - 1 ≤ k + 1 by omega)]
      obtain ⟨q, hq⟩ := Option.ne_none_iff_exists'.1 (fin (d.inputFrames.toNat - 1) (by omega))
      exact ⟨q, q, hq, hq, le_rfl⟩
  have key := C87 cfg K.type ht ch h2 0 st st' hnew (heldInput ch m d) [.process m (some d1)] [o] _ (by
    intro op hop; rw [List.mem_singleton.1 hop]; exact .process _ _ (by rintro _ ⟨⟩; exact hOl 1 hin)) (run_one hrun)
    (.call _ _ _ _ d' _ _ _ P ho1 ho2 (.nil _)) c hup
  have hout : ∀ j : ℕ, (j : ℤ) < d'.outputFramesGen → (outputs ch [o])[j]? = some (frameOf ch fun c => m' (d.dataOut + ((ch * j + c : ℕ) : ℤ))) := by
    intro j hj
    have hd : d'.dataOut = d.dataOut := hK.dataOut
    simp only [outputs, List.flatMap_cons, List.flatMap_nil, List.append_nil]
    rw [outOf_eq ho3 ho2, List.getElem?_map, List.getElem?_range (by omega), hd]
    rfl
  have hat : ∀ f : ℕ → F32, (frameOf ch f)[c]? = some (f c) := fun f => by simp [frameOf, hc]
  exact key i j _ _ _ _ hij (hout i (by omega)) (hout j hj) (hat _) (hat _)

theorem endlessQuarter_repeats (c : ℕ) : Repeats endlessQuarter c 4 100 := by
  intro k _
  unfold endlessQuarter
  rw [Nat.add_mod_right]

/-- Non-vacuity of C88 for the callback API: a callback that hands out the tone of `endlessQuarter` in buffers of four frames, and one read of hundred frames; output frame 40 is output frame 44. -/
example : ∃ e st N os st1, srcCallbackNew libCfg (some 1) SRC_SINC_FASTEST (1 : ℕ) 0 = .ok (e, some st) ∧
    run [.read (streamCb endlessQuarter 1 (fun _ => 4)) 1 N 0 (fun _ => zero32) one64 100 1] st = .ok (os, st1) ∧
    Pulls endlessQuarter 1 (fun _ => 4) (fun _ => 1000) 0 [.read (streamCb endlessQuarter 1 (fun _ => 4)) 1 N 0 (fun _ => zero32) one64 100 1] os ∧
    ∃ (f f' : List F32), (pulled 1 [.read (streamCb endlessQuarter 1 (fun _ => 4)) 1 N 0 (fun _ => zero32) one64 100 1] os)[40]? = some f ∧
      (pulled 1 [.read (streamCb endlessQuarter 1 (fun _ => 4)) 1 N 0 (fun _ => zero32) one64 100 1] os)[44]? = some f' ∧ f[0]? = f'[0]? := by
  obtain ⟨e, st, h⟩ : ∃ e st, srcCallbackNew libCfg (some 1) SRC_SINC_FASTEST (1 : ℕ) 0 = .ok (e, some st) := by
    have hn := lib_new
    unfold pullOutcome at hn
    generalize hq : srcCallbackNew libCfg (some 1) SRC_SINC_FASTEST (1 : ℕ) 0 = q at hn
    rcases q with f | ⟨e, _ | st⟩
    · cases hn
    · cases hn
    · exact ⟨e, st, rfl⟩
  have hS : Supplies 1 1000 4 (streamCb endlessQuarter 1 (fun _ => 4)) := fun _ _ _ =>
    ⟨by simp [streamCb], by simp only [streamCb]; decide, 1000, rfl, le_rfl, by simp only [streamCb]; decide⟩
  obtain ⟨N, ⟨n, m', s', k⟩, hd, hN⟩ := C59_sinc libCfg libCfg_tables 1 SRC_SINC_FASTEST e (Or.inr (Or.inr rfl)) 1 0 st st (by norm_num) h 1000 4 (by norm_num) (fun _ => 4)
    [] [] 0 (fun _ h => by simp at h) rfl (.nil _) (streamCb endlessQuarter 1 (fun _ => 4)) (fun _ _ _ => rfl) 1 (fun _ => zero32) one64 100 1
    ⟨hS, ⟨1, one64_val, by norm_num, by norm_num⟩, by norm_num, by decide, by norm_num, Or.inl (by decide)⟩
  obtain ⟨hn, s1, hs, he⟩ := hd
  have hN := hN N le_rfl
  dsimp only at hn hs he
  subst hn hs
  have hrun : run [.read (streamCb endlessQuarter 1 (fun _ => 4)) 1 N 0 (fun _ => zero32) one64 100 1] st =
      .ok ([⟨100, some m', none, k, srcError (some s1), srcGetChannels (some s1)⟩], s1) := by
    simp only [run, Op.run, hN]; rfl
  have hP : Pulls endlessQuarter 1 (fun _ => 4) (fun _ => 1000) 0 [.read (streamCb endlessQuarter 1 (fun _ => 4)) 1 N 0 (fun _ => zero32) one64 100 1]
      [⟨100, some m', none, k, srcError (some s1), srcGetChannels (some s1)⟩] :=
    .read 0 _ _ _ _ _ _ _ _ _ _ (streamCb_hands _ _) (streamCb_spares _ _ (by norm_num)) (by simp) he (.nil _)
  have hO : ∀ op ∈ [Op.read (streamCb endlessQuarter 1 (fun _ => 4)) 1 N 0 (fun _ => zero32) one64 100 1], SizedRead 1 (2 ^ 50) op ∧ ReadsAt 1 op := by
    intro op hop
    rw [List.mem_singleton.1 hop]
    refine ⟨⟨fun h => ?_, by decide⟩, one64_val⟩
    have := congrArg Fl.val h
    rw [one64_val] at this
    cases this
  obtain ⟨t, hT, key⟩ := C88_callback_sinc libCfg libCfg_tables (some 1) e _ (Or.inr (Or.inr rfl)) 1 0 (by norm_num) st s1 h endlessQuarter (fun _ => 4) (fun _ => 1000) (fun _ => by decide) none
    (fun i hi => by simp at hi) (fun n hn => by cases hn) 1 ⟨0, by norm_num, by norm_num⟩ _ _ hO hrun hP
  obtain rfl : Fastest.table = t := by
    simpa [Config.table, libCfg, SRC_SINC_FASTEST, SRC_SINC_MEDIUM_QUALITY, SRC_SINC_BEST_QUALITY] using hT
  have hR : filterReach Fastest.table 1 = 81 / 4 := by
    unfold filterReach
    rw [show Fastest.table.count = 2464 from rfl, show Fastest.table.increment = 128 from rfl]
    norm_num
  have a : ∀ i < 100, ∃ f, (pulled 1 [.read (streamCb endlessQuarter 1 (fun _ => 4)) 1 N 0 (fun _ => zero32) one64 100 1]
      [⟨100, some m', none, k, srcError (some s1), srcGetChannels (some s1)⟩])[i]? = some f := fun i hi =>
    ⟨_, List.getElem?_eq_getElem (by simpa [pulled, pulledBy] using hi)⟩
  obtain ⟨f, hf⟩ := a 40 (by norm_num)
  obtain ⟨f', hf'⟩ := a 44 (by norm_num)
  exact ⟨e, st, N, _, s1, h, hrun, hP, f, f', hf, hf', key 0 4 100 (endlessQuarter_repeats 0) 40 44 f f' (by norm_num) hf hf' (by rw [hR]; norm_num) (by rw [hR]; norm_num)⟩

end Verif
