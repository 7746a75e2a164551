import Verif.Proof.Callback
import Verif.Proof.CallbackStream
import Verif.Props.Sinc

/-!
# C90: how a recording is cut hardly changes the number of frames that come out
-/

namespace Verif
open Spec

/-- A new handle `st` has converted the `N` frames of `x` at the ratio `r`, in any number of calls of any sizes of which the last was told
the end of the input and had room for more output than it generated, and has given `G` frames in all. -/
def Finishes (ch : ℕ) (st : SrcState) (x : ℕ → ℕ → F32) (N : ℕ) (r : ℚ) (G : ℤ) : Prop :=
  ∃ (ops : List Op) (os : List Obs) (U : ℕ) (st1 st2 : SrcState) (m : Mem) (d d' : SrcData) (o : Obs),
    (∀ op ∈ ops, SizedOp ch op ∧ AtRatio r op) ∧ run ops st = .ok (os, st1) ∧ FedTo x ch (some N) 0 ops os U ∧
    SincSized ch d ∧ AtRatio r (.process m (some d)) ∧ Presents x ch U m d ∧ d.endOfInput ≠ 0 ∧ N = U + d.inputFrames.toNat ∧ d.dataIn ≠ 0 ∧
    (Op.process m (some d)).run st1 = .ok (o, st2) ∧ o.ret = 0 ∧ o.data = some d' ∧ d'.outputFramesGen < d.outputFrames ∧
    G = (outputs ch os).length + d'.outputFramesGen

theorem fed_snoc {x : ℕ → ℕ → F32} {ch W U : ℕ} {len : Option ℕ} {ops : List Op} {os : List Obs} (hF : FedTo x ch len W ops os U) {m : Mem}
    {d d' : SrcData} {o : Obs} (hP : Presents x ch U m d) (hE : d.endOfInput ≠ 0 → len = some (U + d.inputFrames.toNat)) (hret : o.ret = 0)
    (hdata : o.data = some d') : FedTo x ch len W (ops ++ [.process m (some d)]) (os ++ [o]) (U + d'.inputFramesUsed.toNat) := by
  induction hF with
  | nil U => exact .call _ _ _ _ d' _ _ _ hP hE hret hdata (.nil _)
  | call U V m d d' o ops os a1 a2 a3 a4 _ ih => exact .call _ _ _ _ _ _ _ _ a1 a2 a3 a4 (ih hP hE)
  | setRatio U V q o ops os _ ih => exact .setRatio _ _ _ _ _ _ (ih hP hE)

/-- Where a finished conversion stopped. -/
theorem finishes_at {cfg : Config} (hL : LibraryTables cfg) {type e : ℤ} {ch : ℕ} {st : SrcState} (ht : SincType type)
    (h : srcNew cfg type ch = .ok (e, some st)) {x : ℕ → ℕ → F32} {N : ℕ} (hx : EndsAt x (some N)) {r : ℚ} (hr : 1 / 180 ≤ r) {G : ℤ}
    (hG : Finishes ch st x N r G) : ∃ n : ℕ, G = n ∧ 1 ≤ ch ∧ ValidRatio r ∧
      ((ch * ((N : ℤ) - (posAt ⟨0, 0⟩ (fun _ => r) n).k) : ℤ) : ℚ) ≤ (posAt ⟨0, 0⟩ (fun _ => r) n).i + 1 / r + 1 / 1000000 ∧
      ∀ j < n, 1 + 1 / r + 1 / 1000000 < ((N : ℤ) - (posAt ⟨0, 0⟩ (fun _ => r) j).k : ℤ) ∨
        (posAt ⟨0, 0⟩ (fun _ => r) j).i + 1 / r - 1 / 1000000 ≤ ((ch * ((N : ℤ) - (posAt ⟨0, 0⟩ (fun _ => r) j).k) : ℤ) : ℚ) := by
  obtain ⟨ops, os, U, st1, st2, m, d, d', o, hO, hrun0, hF, hd, hA, hP, hend, hN, hin, hrun, hret, hdata, hroom, hG⟩ := hG
  obtain ⟨t, B, u, g, hT, Ge, hch1, hB, vr, e1, e2, e3, e4, e5⟩ := sinc_last hL ht h hx (by linarith) hO hrun0 hF hd hA hP (fun _ => by rw [hN]) hrun hret hdata
  have hfl := Ge.reach_floor hB hr
  have hch : (1 : ℤ) ≤ ch := by exact_mod_cast hch1
  have hs := e5 (by omega)
  have hlow := Ge.reach_lower (r := r) vr.1
  obtain ⟨q1, -⟩ := Ge.q_bounds
  set H := sincReach (t.count - 2) t.increment r
  have hrp : 0 < r := by linarith
  rcases hs with ⟨_, hs⟩ | ⟨hs1, hs2⟩
  · exfalso
    rcases hs with hs | ⟨hs1, hs2⟩
    · exact hin hs
    · have h6 := Ge.reach_ge (r := r) vr.1
      exact hs2 hend (hs1 trivial (Or.inr (by omega)))
  have hNu : N = U + u := by simpa using hs1
  have hs2 := hs2 trivial (by
    have : (ch : ℤ) * (4 * H + 4) ≤ ch * B := mul_le_mul_of_nonneg_left hfl (by omega)
    nlinarith)
  rw [← hNu] at hs2
  refine ⟨(outputs ch os).length + g, by rw [hG, e2]; push_cast; ring, hch1, vr, hs2, ?_⟩
  -- the whole history, for the frames generated
  have hF' := fed_snoc hF hP (fun _ => by rw [hN]) hret hdata
  have hrun' : run (ops ++ [.process m (some d)]) st = .ok (os ++ [o], st2) := run_append_ok hrun0 (run_one hrun)
  have hO' : ∀ op ∈ ops ++ [.process m (some d)], SizedOp ch op ∧ AtRatio r op := by
    intro op hop
    rcases List.mem_append.1 hop with h | h
    · exact hO op h
    · rw [List.mem_singleton.1 h]; exact ⟨hd, hA⟩
  obtain ⟨t', B', ρ, Ds, hT', -, -, -, -, a2, a3, -, -, -, -, a6, -⟩ :=
    sinc_stream_new hL ht h hx hF' (u := .freely) (lo := 0) (tl := []) (Or.inl rfl) (fun op h => (hO' op h).1) (fun h => absurd rfl h) hrun'
  rw [hT] at hT'
  cases hT'
  have hlen : (outputs ch (os ++ [o])).length = (outputs ch os).length + g := by
    obtain ⟨⟨e, m', s', x'⟩, hp, ho⟩ := bind_ok hrun
    have ho := ok_inj ho
    simp only [Prod.mk.injEq] at ho
    rw [outputs_append, List.length_append]
    simp only [outputs, List.flatMap_cons, List.flatMap_nil, List.append_nil, Nat.add_left_cancel_iff]
    unfold outOf
    rw [hdata, ← ho.1]
    simp [e2]
  rw [hlen] at a3 a6
  have hm : 1 / r ≤ ((t.count - 2 + 2 : ℤ) : ℚ) / t.increment / min r 1 - 5 := by
    generalize ((t.count - 2 + 2 : ℤ) : ℚ) / t.increment = c at *
    rcases le_total r 1 with h | h
    · rw [min_eq_left h, div_eq_mul_one_div c r]
      have : 1 ≤ 1 / r := by rw [le_div_iff₀ hrp]; linarith
      nlinarith
    · rw [min_eq_right h]
      have : 1 / r ≤ 1 := by rw [div_le_iff₀ hrp]; linarith
      linarith
  intro j hj
  have c := a6 r r hrp (fun op h => atRatio_in (hO' op h).2) j hj
  rw [posAt_congr (ρ := ρ) (ρ' := fun _ => r) (fun i hi => a3 r (fun op h => (hO' op h).2) i (by omega))] at c
  rw [e1, Int.toNat_natCast, ← hNu] at c
  rcases c with c | ⟨n', -, c, c'⟩
  · left
    have c' : ((H + 1 : ℤ) : ℚ) ≤ ((N : ℤ) - (posAt ⟨0, 0⟩ (fun _ => r) j).k : ℤ) := by
      exact_mod_cast (by omega : H + 1 ≤ (N : ℤ) - (posAt ⟨0, 0⟩ (fun _ => r) j).k)
    push_cast at c' hlow hm ⊢
    linarith
  · right
    cases c
    exact c'

/-- C90 for the sinc converters: two conversions of the same recording at the same ratio `r ≥ 1/180`, by any sinc converters, each told the end of the input and given
room enough in the end, give the same number of frames or numbers that differ by one, however the recording is cut into calls. -/
theorem C90_sinc (cfg : Config) (hL : LibraryTables cfg) (type type' : ℤ) (ht : SincType type) (ht' : SincType type') (ch : ℕ) (e e' : ℤ)
    (st st' : SrcState) (h : srcNew cfg type ch = .ok (e, some st)) (h' : srcNew cfg type' ch = .ok (e', some st')) (x : ℕ → ℕ → F32) (N : ℕ)
    (hx : EndsAt x (some N)) (r : ℚ) (hr : 1 / 180 ≤ r) (G G' : ℤ) (hG : Finishes ch st x N r G) (hG' : Finishes ch st' x N r G') :
    |G - G'| ≤ 1 := by
  obtain ⟨n, rfl, h1, hv, a, b⟩ := finishes_at hL ht h hx hr hG
  obtain ⟨n', rfl, -, -, a', b'⟩ := finishes_at hL ht' h' hx hr hG'
  clear hG hG' h h'
  -- a conversion that stopped at frame `n` leaves at most one frame more
  have key : ∀ n n' : ℕ, ((ch * ((N : ℤ) - (posAt ⟨0, 0⟩ (fun _ => r) n).k) : ℤ) : ℚ) ≤ (posAt ⟨0, 0⟩ (fun _ => r) n).i + 1 / r + 1 / 1000000 →
      (∀ j < n', 1 + 1 / r + 1 / 1000000 < ((N : ℤ) - (posAt ⟨0, 0⟩ (fun _ => r) j).k : ℤ) ∨
        (posAt ⟨0, 0⟩ (fun _ => r) j).i + 1 / r - 1 / 1000000 ≤ ((ch * ((N : ℤ) - (posAt ⟨0, 0⟩ (fun _ => r) j).k) : ℤ) : ℚ)) → n' ≤ n + 1 := by
    intro n n' a b
    by_contra hlt
    have b := b (n + 1) (by omega)
    have ft := (time_gap (ρ := fun _ => r) (j := n) hv).1
    unfold timeAt at ft
    have f0 := posAt_frac0 (fun _ => r) n
    have f1 := posAt_frac0 (fun _ => r) (n + 1)
    generalize posAt ⟨0, 0⟩ (fun _ => r) n = p at *
    generalize posAt ⟨0, 0⟩ (fun _ => r) (n + 1) = q at *
    have hc : (1 : ℚ) ≤ ch := by exact_mod_cast h1
    have hkk : p.k ≤ q.k := by
      by_contra hk
      have : (q.k : ℚ) + 1 ≤ p.k := by exact_mod_cast (by omega : q.k + 1 ≤ p.k)
      linarith [f0.1, f1.2]
    have hk : (p.k : ℚ) ≤ q.k := by exact_mod_cast hkk
    push_cast at a b
    have hm : (q.k - p.k : ℚ) ≤ ch * (q.k - p.k) := by nlinarith
    have hrp : 0 < 1 / r := by apply one_div_pos.2; linarith
    rcases b with b | b
    · have : (N - p.k : ℚ) ≤ ch * (N - p.k) := by nlinarith
      linarith [f0.2]
    · nlinarith
  rw [abs_le]
  have k1 := key n n' a b'
  have k2 := key n' n a' b
  constructor <;> omega

/-- A call of the example: `n` frames of silence. -/
def silentCall (n e : ℤ) : SrcData := { sincCall with inputFrames := n, endOfInput := e }

theorem silentCall_sized {n e : ℤ} (h0 : 0 ≤ n) (h1 : n ≤ 100) : SincSized (2 : ℕ) (silentCall n e) := by
  obtain ⟨h, he⟩ := Fl.eq_fin_of_val one64_val
  refine ⟨by simp [silentCall, sincCall, he], ?_, by norm_num [silentCall, sincCall, samples]⟩
  simp only [silentCall, sincCall, samples]
  rw [max_eq_left h0]
  push_cast
  linarith

theorem silentCall_runs {co : ℤ → F32} {N inc B : ℤ} {st : SrcState} (S : SHist co N inc B 2 .live st) {n e : ℤ} (h0 : 0 ≤ n) (h1 : n ≤ 100) :
    ∃ (o : Obs) (st1 : SrcState) (d' : SrcData), (Op.process (fun _ => zero32) (some (silentCall n e))).run st = .ok (o, st1) ∧ o.ret = 0 ∧ o.data = some d' ∧
      0 ≤ d'.inputFramesUsed ∧ d'.inputFramesUsed ≤ n ∧ (e = 0 → SHist co N inc B 2 .live st1) := by
  have hlow : Phase.live.Allows 2 (silentCall n e).srcRatio (silentCall n e).endOfInput := by
    intro v hv _ _
    have h1 : one64.val = some 1 := one64_val
    rw [show (silentCall n e).srcRatio = one64 from rfl, h1] at hv
    cases hv
    norm_num
  obtain ⟨c, m', st', x', hp, hS, hcase⟩ := sinc_process_total (d := silentCall n e) S (silentCall_sized h0 h1) hlow (fun _ => zero32)
  obtain ⟨P, l, y, f, D, k, R, i, hh, V, -⟩ := S.view
  rcases hcase with ⟨ha, -, -⟩ | ⟨rfl, d', rfl, hAc, -⟩
  · exfalso
    have hf := (C02 _ _ _ _ _ _ _ hp (by rcases ha with h | h | h | h | h <;> simp [h])).1
    obtain ⟨h, he⟩ := Fl.eq_fin_of_val one64_val
    cases hf with
    | state hh => simp at hh
    | mode s a b => cases a; exact b S.mode
    | data s a b c => cases c
    | buffer s y a b c d => cases c; simp [MissingBuffer, silentCall, sincCall] at d
    | ratio s y a b c d e => cases c; simp only [silentCall, sincCall, he, BadRatio] at e; norm_num at e
    | overlap s y a b c d e f =>
      cases a; cases c; rw [V.hch] at f
      simp [Clash, silentCall, sincCall, samples] at f
      omega
  · have u0 := hAc.used0
    have u1 := hAc.used1
    simp only [silentCall] at u1
    rw [max_eq_left h0] at u1
    refine ⟨_, st', d', by simp only [Op.run, hp]; rfl, rfl, rfl, u0, u1, ?_⟩
    rintro rfl
    exact hS

/-- After any calls that took in `U` frames of the silence, a last call with the rest finishes it. -/
theorem silence_finishes {e : ℤ} {st st1 : SrcState} (hst : srcNew fastCfg SRC_SINC_FASTEST (2 : ℕ) = .ok (e, some st)) {ops : List Op} {os : List Obs} {U : ℕ}
    (hO : ∀ op ∈ ops, SizedOp (2 : ℕ) op ∧ AtRatio 1 op) (hr : run ops st = .ok (os, st1)) (hF : FedTo (fun _ _ => zero32) 2 (some 100) 0 ops os U) (hU : U ≤ 100)
    {co : ℤ → F32} {N inc B : ℤ} (S : SHist co N inc B 2 .live st1) : ∃ G, Finishes 2 st (fun _ _ => zero32) 100 1 G := by
  have ht : SincType SRC_SINC_FASTEST := Or.inr (Or.inr rfl)
  have hsz := silentCall_sized (n := ((100 - U : ℕ) : ℤ)) (e := 1) (by omega) (by omega)
  obtain ⟨o, st2, d', r1, hret, hd', -, -, -⟩ := silentCall_runs S (n := ((100 - U : ℕ) : ℤ)) (e := 1) (by omega) (by omega)
  have hx : EndsAt (fun _ _ => zero32) (some 100) := fun _ _ _ _ _ => rfl
  have hP : Presents (fun _ _ => zero32) 2 U (fun _ => zero32) (silentCall ((100 - U : ℕ) : ℤ) 1) := fun k c _ _ => rfl
  have hN : 100 = U + (silentCall ((100 - U : ℕ) : ℤ) 1).inputFrames.toNat := by simp only [silentCall]; omega
  refine ⟨_, ops, os, U, st1, st2, fun _ => zero32, _, d', o, hO, hr, hF, hsz, one64_val, hP, by simp [silentCall], hN, by simp [silentCall, sincCall], r1, hret, hd', ?_, rfl⟩
  obtain ⟨t, B, u, g, hT, Ge, hch1, hB, vr, e1, e2, e3, e4, e5⟩ := sinc_last fastCfg_tables ht hst (r := 1) (len := some 100) hx (by norm_num)
    hO hr hF hsz one64_val hP (fun _ => by rw [← hN]) r1 hret hd'
  rw [e2]
  by_contra hc
  have hc : 1000 ≤ g := by simp only [silentCall, sincCall] at hc; omega
  have := (e4 999 (by omega)).1
  rw [posAt_one] at this
  dsimp only at this
  omega

/-- Non-vacuity of C90: a hundred frames of silence converted at the ratio 1 in one call, and in two calls of which the first presents forty. -/
example : ∃ (st : SrcState) (G G' : ℤ), srcNew fastCfg SRC_SINC_FASTEST (2 : ℕ) = .ok (0, some st) ∧
    Finishes 2 st (fun _ _ => zero32) 100 1 G ∧ Finishes 2 st (fun _ _ => zero32) 100 1 G' ∧ |G - G'| ≤ 1 := by
  have ht : SincType SRC_SINC_FASTEST := Or.inr (Or.inr rfl)
  obtain ⟨st, hst⟩ := sinc_new_ok fastCfg_tables ht (t := ⟨128, 2464, fun _ => Fl.ofInt f32 1⟩)
    (by simp [Config.table, fastCfg, SRC_SINC_FASTEST, SRC_SINC_MEDIUM_QUALITY, SRC_SINC_BEST_QUALITY]) (ch := 2) (by norm_num) (by norm_num)
  obtain ⟨t, B, -, S⟩ := sinc_new_hist fastCfg_tables ht hst (p := .live) (Or.inr (Or.inl rfl))
  obtain ⟨G, hG⟩ := silence_finishes hst (ops := []) (os := []) (by simp) rfl (.nil _) (by norm_num) S
  obtain ⟨o, st1, d', r1, r2, r3, r4, r5, r6⟩ := silentCall_runs S (n := 40) (e := 0) (by norm_num) (by norm_num)
  obtain ⟨G', hG'⟩ := silence_finishes hst (ops := [.process (fun _ => zero32) (some (silentCall 40 0))]) (os := [o]) (by
      intro op hop
      rw [List.mem_singleton.1 hop]
      exact ⟨silentCall_sized (by norm_num) (by norm_num), one64_val⟩) (run_one r1)
    (.call 0 _ _ _ d' _ _ _ (fun k c _ _ => rfl) (fun h => absurd rfl h) r2 r3 (.nil _)) (by omega) (r6 rfl)
  exact ⟨st, G, G', hst, hG, hG', C90_sinc _ fastCfg_tables _ _ ht ht 2 _ _ st st hst hst _ 100 (fun _ _ _ _ _ => rfl) 1 (by norm_num) G G' hG hG'⟩

end Verif
