import Verif.Proof.SincHistory
import Verif.Proof.Stream

/-! Streams through the sinc converters. -/

namespace Verif
open Spec

/-- All ratios between `a` and `b` give the filter the same reach. -/
def SameReach (N inc : ℤ) (a b : ℚ) : Prop := 0 < a ∧ sincReach N inc a = sincReach N inc b

theorem sameReach_one {N inc : ℤ} {b : ℚ} (hb : 1 ≤ b) : SameReach N inc 1 b := by
  refine ⟨by norm_num, ?_⟩
  unfold sincReach
  dsimp only
  rw [if_neg (by norm_num), if_neg (by linarith)]

theorem SameReach.between {N inc B : ℤ} {a b r : ℚ} (G : Geom N inc B) (h : SameReach N inc a b) (h1 : a ≤ r) (h2 : r ≤ b) : sincReach N inc r = sincReach N inc a := by
  have e1 := G.reach_anti h.1 h1
  have e2 := G.reach_anti (lt_of_lt_of_le h.1 h1) h2
  have := h.2
  omega

/-- The handle has consumed `U` frames of the stream `x`, and the next output frame is at the position `P` of the stream.
`Q a b`: all ratios used so far were between `a` and `b`. -/
structure STrack (co : ℤ → F32) (N inc B : ℤ) (x : ℕ → ℕ → F32) (ch : ℕ) (len : Option ℕ) (Q : ℚ → ℚ → Prop) (U : ℕ) (P : Pos) (l : ℚ) (h : ℤ)
    (st : SrcState) : Prop where
  mode : st.mode = .process
  view : ∃ f D, SView none co N inc B st ch l (signal x) f D P.k U P.i h ∧ (0 ≤ f.bRealEnd → len = some U) ∧
    (∀ a b, Q a b → l = 0 ∨ (a ≤ l ∧ l ≤ b)) ∧ (∀ a b, Q a b → SameReach N inc a b → f.bRealEnd < 0 → Roomy (sincReach N inc a) D P.k U) ∧
    (∀ a b, Q a b → SameReach N inc a b → 4 * (ch * sincReach N inc a) + 5 ≤ ch * B + 1 → 0 ≤ f.bRealEnd → f.bRealEnd + ch * sincReach N inc a + 5 ≤ f.bEnd)

/-- Output frame at position `P` and ratio `ρ` with `D` frames of history. -/
def sincFrame (co : ℤ → F32) (N inc : ℤ) (x : ℕ → ℕ → F32) (D : ℤ) (ρ : ℚ) (P : Pos) (c : ℕ) : F32 :=
  sincAt co N inc ρ P.i D (fun z => signal x (P.k + z) c)

/-- Why a call that had room for more output stopped at position `P`, with `u` of `n` frames taken.  `C`: the reach of the filter
has not changed since the start of the stream. -/
def Stopped (B : ℤ) (ch : ℕ) (d : SrcData) (len : Option ℕ) (C : Prop) (L : ℚ) (n U u : ℕ) (H : ℤ) (P : Pos) : Prop :=
  (((U + u : ℕ) : ℤ) - P.k ≤ H ∧ (d.dataIn = 0 ∨ ((C → ch = 1 ∨ 3 * H + 1 ≤ B → u = n) ∧ (d.endOfInput ≠ 0 → u ≠ n)))) ∨
  (len = some (U + u) ∧ (C → 4 * (ch * H) + 5 ≤ ch * B + 1 →
    ((ch * (((U + u : ℕ) : ℤ) - P.k) : ℤ) : ℚ) ≤ P.i + 1 / L + 1 / 1000000))

/-- The converter knows the end of its input. -/
def SEnded (st : SrcState) : Prop := ∃ f, st.priv = .sinc f ∧ 0 ≤ f.bRealEnd

theorem sized_out {ch : ℕ} {d : SrcData} (hsz : SincSized ch d) : ch * d.outputFrames.toNat ≤ 2 ^ 50 := by
  have := hsz.outSize
  unfold samples at this
  rw [show max d.outputFrames 0 = (d.outputFrames.toNat : ℤ) by omega] at this
  have h2 : ((ch * d.outputFrames.toNat : ℕ) : ℤ) ≤ 2 ^ 50 := by push_cast; linarith
  exact_mod_cast h2

section
variable {co : ℤ → F32} {N inc B : ℤ} {x : ℕ → ℕ → F32} {ch U : ℕ} {len : Option ℕ} {Q : ℚ → ℚ → Prop} {P : Pos} {l : ℚ} {h : ℤ} {st : SrcState}

/-- One call of a stream. -/
theorem strack_call (T : STrack co N inc B x ch len Q U P l h st) (hx : ∀ n, len = some n → ∀ k, n ≤ k → ∀ c, x k c = zero32)
    {m : Mem} {d : SrcData} (hO : SincSized ch d) (hP : ¬ SEnded st → Presents x ch U m d)
    (hE : ¬ SEnded st → d.endOfInput ≠ 0 → len = some (U + d.inputFrames.toNat))
    {o : Obs} {st' : SrcState} (hr : (Op.process m (some d)).run st = .ok (o, st')) : (o.ret ≠ 0 ∧ st' = st) ∨ (o.ret = 0 ∧
    ∃ (d' : SrcData) (Ds : ℕ → ℤ) (g u : ℕ) (t : ℚ), o.data = some d' ∧ d'.inputFramesUsed = u ∧ u ≤ d.inputFrames.toNat ∧
      d'.outputFramesGen = g ∧ g ≤ d.outputFrames.toNat ∧ d.srcRatio.val = some t ∧ ValidRatio t ∧
      ValidRatio (startRatio l t) ∧ Rep0 f64 (startRatio l t) ∧
      (∀ j < g, 0 ≤ Ds j ∧ min h (sincReach N inc (min (startRatio l t) t)) ≤ Ds j) ∧
      outOf ch o = (List.range g).map (fun j => frameOf ch (sincFrame co N inc x (Ds j) (sincRatioAt (startRatio l t) t ch d.outputFrames.toNat j)
        (posAt P (sincRatioAt (startRatio l t) t ch d.outputFrames.toNat) j))) ∧
      (∀ j < g, ((posAt P (sincRatioAt (startRatio l t) t ch d.outputFrames.toNat) j).k : ℤ) + sincReach N inc (min (startRatio l t) t) + 1 ≤ ((U + u : ℕ) : ℤ) ∨
        (len = some (U + u) ∧ (posAt P (sincRatioAt (startRatio l t) t ch d.outputFrames.toNat) j).i + 1 / startRatio l t - 1 / 1000000 ≤
          ((ch * (((U + u : ℕ) : ℤ) - (posAt P (sincRatioAt (startRatio l t) t ch d.outputFrames.toNat) j).k) : ℤ) : ℚ))) ∧
      (g < d.outputFrames.toNat → Stopped B ch d len (∃ a b, Q a b ∧ SameReach N inc a b ∧ a ≤ t ∧ t ≤ b) (startRatio l t) d.inputFrames.toNat U u (sincReach N inc (min (startRatio l t) t))
        (posAt P (sincRatioAt (startRatio l t) t ch d.outputFrames.toNat) g)) ∧
      (SEnded st → u = 0 ∧ SEnded st') ∧ (g < d.outputFrames.toNat → d.dataIn ≠ 0 → d.endOfInput ≠ 0 → u = d.inputFrames.toNat → SEnded st') ∧
      STrack co N inc B x ch len (fun a b => Q a b ∧ a ≤ t ∧ t ≤ b) (U + u) (posAt P (sincRatioAt (startRatio l t) t ch d.outputFrames.toNat) g)
        (if g = 0 then startRatio l t else sincRatioAt (startRatio l t) t ch d.outputFrames.toNat (g - 1)) (min h (sincReach N inc (min (startRatio l t) t))) st') := by
  obtain ⟨f, D, V, hen, hQl, hroom, htail⟩ := T.view
  have hmode := T.mode
  rcases ordinary_cases V.hch hmode (sincSized_ordinary hO) with ⟨e, hf⟩ | ⟨_, _, _, t, g⟩
  · left
    obtain ⟨d', hd'⟩ := process_rejects (m := m) hf (by
        rintro s y h1 h2; cases h1; cases h2
        have b1 := hO.inSize
        have b2 := hO.outSize
        rw [V.hch]
        exact ⟨by positivity, by omega, by omega⟩)
    have ha := firstFailing_arg hf
    simp only [Op.run, hd'] at hr
    have hr := ok_inj hr
    simp only [Prod.mk.injEq, Option.getD_some] at hr
    rw [← hr.1, ← hr.2]
    refine ⟨?_, rfl⟩
    dsimp only
    unfold ArgError at ha
    omega
  right
  have s1 : samples ch d.inputFrames = ((ch * d.inputFrames.toNat : ℕ) : ℤ) := by
    unfold samples
    rw [show max d.inputFrames 0 = (d.inputFrames.toNat : ℤ) by omega]; push_cast; ring
  have b1 := hO.inSize
  rw [s1] at b1
  have b1 : ch * d.inputFrames.toNat < 2147483648 := by exact_mod_cast b1
  have hne : f.bRealEnd < 0 → ¬ SEnded st := by
    rintro he ⟨f0, h1, h2⟩
    rw [V.hpriv] at h1
    cases h1
    omega
  have hPn : f.bRealEnd < 0 → ∀ k c : ℕ, k < d.inputFrames.toNat → c < ch → m (d.dataIn + ((ch * k + c : ℕ) : ℤ)) = x (U + k) c :=
    fun he k c hk hc => hP (hne he) k c (by omega) hc
  generalize hnn : d.inputFrames.toNat = n at *
  have hob2 := sized_out hO
  generalize hoo : d.outputFrames.toNat = oo at *
  have hok : ∃ r, srcProcess m (some st) (some d) = .ok r := by
    simp only [Op.run] at hr
    cases hp : srcProcess m (some st) (some d) with
    | error e => rw [hp] at hr; cases hr
    | ok a => exact ⟨a, rfl⟩
  have vs := startRatio_valid V.vl g.vt
  have hrepL : Rep0 f64 (startRatio l t) := by
    unfold startRatio; split_ifs
    · exact rep64_val g.ht
    · exact rep64_val V.hl
  have hsig : ∀ z : ℕ, ∀ c, signal x (z : ℤ) c = x z c := by
    intro z c
    unfold signal
    rw [if_neg (by omega), Int.toNat_natCast]
  obtain ⟨s, u, gen, D', w1, I, hstop, W⟩ := sinc_call (m := m) V hmode g b1 (H := sincReach N inc (min (startRatio l t) t)) rfl
    (fun he j c hj hc => by rw [hsig]; exact hPn he j c hj hc)
    (fun he hz => by
      have hl := hE (hne he) hz
      refine ⟨fun _ h => absurd h (by simp), fun z hz c => ?_⟩
      obtain ⟨w, rfl⟩ : ∃ w : ℕ, z = w := ⟨z.toNat, by omega⟩
      rw [hsig]
      exact hx _ hl w (by omega) c)
    (fun _ _ h => absurd h (by simp)) (Or.inr (Tame.ok hok))
  simp only [Op.run, w1] at hr
  have hr := ok_inj hr
  simp only [Prod.mk.injEq, Option.getD_some] at hr
  obtain ⟨rfl, rfl⟩ := hr
  obtain ⟨Ds, F, hDs, hF, hmem⟩ := I.mem
  rw [hF trivial] at hmem
  have hend : 0 ≤ s.f.bRealEnd → len = some (U + u) := by
    intro he
    rcases (I.ended he).2 with h1 | ⟨h1, h2⟩
    · rw [I.enu h1, Nat.add_zero]; exact hen h1
    · by_cases h3 : 0 ≤ f.bRealEnd
      · rw [I.enu h3, Nat.add_zero]; exact hen h3
      · rw [h1]; exact hE (hne (by omega)) h2
  have hPeta : (⟨P.k, P.i⟩ : Pos) = P := rfl
  rw [hPeta] at I hstop W hmem
  generalize hL : startRatio l t = L at *
  generalize hH : sincReach N inc (min L t) = H at *
  have hLab : ∀ a b, Q a b → a ≤ t → t ≤ b → a ≤ L ∧ L ≤ b := by
    intro a b hq h1 h2
    rw [← hL]; unfold startRatio
    split_ifs with h0
    · exact ⟨h1, h2⟩
    · exact (hQl a b hq).resolve_left h0
  have hconst : ∀ a b, Q a b → SameReach N inc a b → a ≤ t → t ≤ b → H = sincReach N inc a := by
    intro a b hq hs h1 h2
    obtain ⟨h3, h4⟩ := hLab a b hq h1 h2
    rw [← hH]
    exact hs.between V.geo (le_min h3 h1) ((min_le_right _ _).trans h2)
  have hroomy : ∀ a b, Q a b → SameReach N inc a b → a ≤ t → t ≤ b → s.f.bRealEnd < 0 → Roomy H D P.k U := by
    intro a b hq hs h1 h2 he
    have h3 := I.noten he
    rw [hconst a b hq hs h1 h2]
    exact hroom a b hq hs (by omega)
  have htl : ∀ a b, Q a b → SameReach N inc a b → a ≤ t → t ≤ b → 4 * (ch * H) + 5 ≤ ch * B + 1 → 0 ≤ s.f.bRealEnd → s.f.bRealEnd + ch * H + 5 ≤ s.f.bEnd := by
    intro a b hq hs h1 h2 h4 he
    refine I.tail h4 (fun h1' => ?_) he
    have e := hconst a b hq hs h1 h2
    rw [e] at h4 ⊢
    exact htail a b hq hs h4 h1'
  refine ⟨rfl, callData d u gen, Ds, gen, u, t, ?_⟩
  rw [hL, hH]
  refine ⟨rfl, rfl, I.hu, rfl, I.hg, g.ht, g.vt, vs, hrepL, hDs, ?_, ?_, ?_, ?_, ?_, ⟨hmode, ?_⟩⟩
  · unfold outOf
    dsimp only [callData, clampFrames]
    rw [Int.toNat_natCast]
    refine List.map_congr_left (fun j hj => frameOf_congr (fun c hc => ?_))
    have hj := List.mem_range.1 hj
    have hlt : ch * j + c < ch * gen := by
      have : ch * (j + 1) ≤ ch * gen := Nat.mul_le_mul_left _ hj
      have e : ch * (j + 1) = ch * j + ch := by ring
      omega
    rw [hmem, Mem.setRange_in hlt, sincSamples_frame hc]
    rfl
  · intro j hj
    rcases I.look j hj with h1 | ⟨h1, h2⟩
    · exact Or.inl h1
    · exact Or.inr ⟨hend h1, h2⟩
  · intro hg
    rcases hstop hg with ⟨h1, h2, h3⟩ | ⟨h1, h2⟩
    · refine Or.inl ⟨h2, h3.imp_right fun h3 => ⟨fun hq => by
        obtain ⟨a, b, hq, hs, q1, q2⟩ := hq
        exact h3.1 (hroomy a b hq hs q1 q2 h1), h3.2.1⟩⟩
    · refine Or.inr ⟨hend h1, fun ⟨a, b, hq, hs, q1, q2⟩ h4 => ?_⟩
      rcases h2 with h2 | h2
      · have h5 := htl a b hq hs q1 q2 h4 h1
        have hb := W.buf.hend
        have hc := W.buf.hcur
        rcases hb with ⟨hb, _⟩ | ⟨_, hb, _⟩
        · omega
        generalize (posAt P (sincRatioAt L t ch oo) gen) = p at *
        have e1 : (ch : ℤ) * (((U + u : ℕ) : ℤ) - p.k) ≤ 0 := by
          have : s.f.bRealEnd - s.f.bCurrent = ch * (((U + u : ℕ) : ℤ) - p.k) := by rw [hb, hc]; ring
          omega
        have e2 : ((ch * (((U + u : ℕ) : ℤ) - p.k) : ℤ) : ℚ) ≤ 0 := by exact_mod_cast e1
        have e3 : 0 < 1 / L := by
          have := vs.1
          exact one_div_pos.2 (by linarith)
        have e4 := W.hi.1
        linarith
      · exact h2
  · rintro ⟨f0, h1, h2⟩
    rw [V.hpriv] at h1
    cases h1
    exact ⟨I.enu h2, s.f, rfl, by
      by_contra hc
      have := I.noten (by omega)
      omega⟩
  · intro hg hin heoi hun
    rcases hstop hg with ⟨h1, h2, h3⟩ | ⟨h1, h2⟩
    · rcases h3 with h3 | h3
      · exact absurd h3 hin
      · exact absurd hun (h3.2.1 heoi)
    · exact ⟨s.f, rfl, h1⟩
  · refine ⟨s.f, D', W, hend, ?_, ?_, ?_⟩
    · rintro a b ⟨hq, q1, q2⟩
      right
      obtain ⟨q3, q4⟩ := hLab a b hq q1 q2
      split_ifs with hg0
      · exact ⟨q3, q4⟩
      · have hgo := I.hg
        obtain ⟨b1, b2⟩ := sincRatioAt_between hrepL (rep64_val g.ht) vs g.vt V.hch1 (show gen - 1 < oo by omega) hob2
        exact ⟨(le_min q3 q1).trans b1, b2.trans (max_le q4 q2)⟩
    · rintro a b ⟨hq, q1, q2⟩ hs he
      rw [← hconst a b hq hs q1 q2]
      exact I.roomy he (hroomy a b hq hs q1 q2 he)
    · rintro a b ⟨hq, q1, q2⟩ hs h4 he
      rw [← hconst a b hq hs q1 q2] at h4 ⊢
      exact htl a b hq hs q1 q2 h4 he

theorem signal_nat (x : ℕ → ℕ → F32) (z : ℕ) : signal x (z : ℤ) = x z := by
  funext c
  unfold signal
  rw [if_neg (by omega), Int.toNat_natCast]

/-- Output depends on no frame beyond the reach of the filter. -/
theorem sincFrame_congr (G : Geom N inc B) {x x' : ℕ → ℕ → F32} {D H : ℤ} {r ρ : ℚ} {P : Pos} (hr : 1 / 256 ≤ r) (hρ : (1 - p2 (-36)) * r ≤ ρ)
    (hρ' : 1 / 256 ≤ ρ) (hP : 0 ≤ P.i ∧ P.i < 1) (hD : 0 ≤ D) (hH : H = sincReach N inc r) (hx : ∀ k : ℕ, (k : ℤ) ≤ P.k + H → x k = x' k) :
    sincFrame co N inc x D ρ P = sincFrame co N inc x' D ρ P := by
  obtain ⟨a1, a2⟩ := G.incr_bounds hρ'
  obtain ⟨b1, b2⟩ := G.start_bounds hρ' hP.1 hP.2
  have c1 := G.incr_reach hr hρ hρ'
  have hi1 := G.inc1
  have hn := G.n1
  have h6 := G.reach_ge hr
  rw [← hH] at c1 h6
  have hsig : ∀ z : ℤ, z ≤ P.k + H → signal x z = signal x' z := by
    intro z hz
    by_cases h0 : z < 0
    · funext c; unfold signal; rw [if_pos h0, if_pos h0]
    · obtain ⟨w, rfl⟩ : ∃ w : ℕ, z = w := ⟨z.toNat, by omega⟩
      rw [signal_nat, signal_nat]
      exact hx w (by omega)
  funext c
  unfold sincFrame sincAt sincOut
  dsimp only
  generalize rne (sincInc inc ρ * 4096) = incr at *
  generalize rne (r64 (P.i * sincInc inc ρ) * 4096) = start at *
  have hN : incr ≤ 4096 * N := by omega
  have e1 : sincLeft co N incr start D (fun k => Fl.conv f64 (signal x (P.k + k) c)) = sincLeft co N incr start D (fun k => Fl.conv f64 (signal x' (P.k + k) c)) := by
    refine sincLeft_congr (by omega) b1 b2 hD (by omega) (fun z _ hz => ?_)
    rw [hsig _ (by omega)]
  have e2 : sincRight co N incr start (fun k => Fl.conv f64 (signal x (P.k + k) c)) = sincRight co N incr start (fun k => Fl.conv f64 (signal x' (P.k + k) c)) := by
    refine sincRight_congr (by omega) b1 b2 hN (fun z hz0 hz => ?_)
    have : (4096 * N - (incr - start)) / incr < H := Int.ediv_lt_of_lt_mul (by omega) (by nlinarith)
    rw [hsig _ (by omega)]
  rw [e1, e2]

/-- Enough history is as good as unlimited history. -/
theorem sincFrame_hist (G : Geom N inc B) {D D' : ℤ} {r ρ : ℚ} {P : Pos} (hr : 1 / 256 ≤ r) (hρ : (1 - p2 (-36)) * r ≤ ρ)
    (hρ' : 1 / 256 ≤ ρ) (hP : 0 ≤ P.i ∧ P.i < 1) (hD : sincReach N inc r ≤ D) (hD' : 4096 * N ≤ D') :
    sincFrame co N inc x D ρ P = sincFrame co N inc x D' ρ P := by
  obtain ⟨a1, a2⟩ := G.incr_bounds hρ'
  obtain ⟨b1, b2⟩ := G.start_bounds hρ' hP.1 hP.2
  have c1 := G.incr_reach hr hρ hρ'
  have hi1 := G.inc1
  have hn := G.n1
  funext c
  unfold sincFrame sincAt sincOut
  dsimp only
  generalize rne (sincInc inc ρ * 4096) = incr at *
  generalize rne (r64 (P.i * sincInc inc ρ) * 4096) = start at *
  rw [sincLeft_hist (D := D) (D' := D')]
  · have : (4096 * N - start) / incr < sincReach N inc r := Int.ediv_lt_of_lt_mul (by omega) (by nlinarith)
    omega
  · have : (4096 * N - start) / incr ≤ 4096 * N - start := Int.ediv_le_self _ (by omega)
    omega

theorem strack_setRatio (T : STrack co N inc B x ch len Q U P l h st) {r : F64} (hr : r ≠ .nan) {o : Obs} {st' : SrcState}
    (hrun : (Op.setRatio r).run st = .ok (o, st')) : outOf ch o = [] ∧ (SEnded st → SEnded st') ∧
      ∃ l', STrack co N inc B x ch len (fun a b => Q a b ∧ ∀ q, r.val = some q → a ≤ q ∧ q ≤ b) U P l' h st' ∧ ((l' = l ∧ ∀ q, r.val = some q → ¬ ValidRatio q) ∨ (r.val = some l' ∧ ValidRatio l')) ∧ l' = if o.ret = 0 then r.val.getD l else l := by
  obtain ⟨f, D, V, hen, hQl, hroom, htail⟩ := T.view
  have hm := T.mode
  simp only [Op.run] at hrun
  unfold srcSetRatio at hrun
  dsimp only at hrun
  by_cases hb : isBadSrcRatio r = true
  · rw [if_pos hb] at hrun
    have hrun := ok_inj hrun
    simp only [Prod.mk.injEq, Option.getD_some] at hrun
    obtain ⟨rfl, rfl⟩ := hrun
    refine ⟨rfl, id, l, ⟨hm, f, D, V, hen, fun a b h => hQl a b h.1, fun a b h => hroom a b h.1, fun a b h => htail a b h.1⟩, Or.inl ⟨rfl, ?_⟩, rfl⟩
    intro q hq vq
    rw [(isBad_false_iff hq).2 vq] at hb
    cases hb
  · rw [if_neg hb] at hrun
    have hrun := ok_inj hrun
    simp only [Prod.mk.injEq, Option.getD_some] at hrun
    obtain ⟨rfl, rfl⟩ := hrun
    rw [isBad_iff] at hb
    cases hr' : r with
    | nan => exact absurd hr' hr
    | inf s => rw [hr'] at hb; exact absurd trivial hb
    | fin q hq =>
      rw [hr'] at hb
      simp only [BadRatio, not_or, not_lt] at hb
      refine ⟨rfl, id, q, ⟨hm, f, D, ⟨V.geo, V.hvt, V.hch, V.hch1, V.hchM, V.hpriv, V.buf, V.hpos, V.hi, rfl, Or.inr ⟨hb.1, hb.2⟩⟩, hen, ?_,
        fun a b h => hroom a b h.1, fun a b h => htail a b h.1⟩, Or.inr ⟨rfl, hb.1, hb.2⟩, rfl⟩
      rintro a b ⟨_, h2⟩
      exact Or.inr (h2 q rfl)

/-- What is known of the remembered ratio and the history kept. -/
def SReg (N inc B : ℤ) (lo l : ℚ) (h : ℤ) : Use → Prop
  | .freely => True
  | .rising q => (l = 0 ∨ l ≤ q) ∧ floorReach B N inc l ≤ h ∧ (l = 0 ∨ lo ≤ l)

theorem rise_call {lo q l t : ℚ} {h : ℤ} {r : F64} (G : Geom N inc B) (hS : SReg N inc B lo l h (.rising q)) (hn : NotBelow lo q r) (hr : r.val = some t)
    (vt : ValidRatio t) (vl : l = 0 ∨ ValidRatio l) : startRatio l t ≤ t ∧ sincReach N inc (startRatio l t) ≤ h ∧ lo ≤ startRatio l t := by
  obtain ⟨a, b, c⟩ := hS
  obtain ⟨h2, h3⟩ := hn t hr vt.1 vt.2
  refine ⟨?_, floorReach_start G b vl vt, ?_⟩
  · unfold startRatio
    split_ifs with hl0
    · exact le_refl _
    · rcases a with a | a
      · exact absurd a hl0
      · exact a.trans h3
  · unfold startRatio
    split_ifs with hl0
    · exact h2
    · rcases c with c | c
      · exact absurd c hl0
      · exact c

theorem reg_call {lo q l t : ℚ} {h : ℤ} {r : F64} {ch o g : ℕ} (G : Geom N inc B)
    (hS : SReg N inc B lo l h (.rising q)) (hn : NotBelow lo q r) (ht : r.val = some t)
    (vt : ValidRatio t) (vl : l = 0 ∨ ValidRatio l) (vs : ValidRatio (startRatio l t)) (hrep : Rep0 f64 (startRatio l t)) (hg : g ≤ o) (hch1 : 1 ≤ ch)
    (hb2 : ch * o ≤ 2 ^ 50) :
    SReg N inc B lo (if g = 0 then startRatio l t else sincRatioAt (startRatio l t) t ch o (g - 1)) (min h (sincReach N inc (min (startRatio l t) t))) (.rising t) := by
  obtain ⟨r1, r2, r3⟩ := rise_call G hS hn ht vt vl
  generalize startRatio l t = L at *
  have hbt : L ≤ (if g = 0 then L else sincRatioAt L t ch o (g - 1)) ∧ (if g = 0 then L else sincRatioAt L t ch o (g - 1)) ≤ t := by
    split_ifs with hg0
    · exact ⟨le_refl _, r1⟩
    · exact sincRatio_between hrep (rep64_val ht) vs vt r1 (by omega) hch1 hb2
  generalize (if g = 0 then L else sincRatioAt L t ch o (g - 1)) = l' at *
  have hs0 : 0 < L := lt_of_lt_of_le (by norm_num) vs.1
  refine ⟨Or.inr hbt.2, ?_, Or.inr (r3.trans hbt.1)⟩
  unfold floorReach
  rw [if_neg (by linarith), min_eq_left r1, min_eq_right r2]
  exact G.reach_anti hs0 hbt.1

theorem reg_setRatio {lo p l l1 : ℚ} {h : ℤ} {q : F64} (G : Geom N inc B)
    (hS : SReg N inc B lo l h (.rising p)) (hn : NotBelow lo p q) (vl : l = 0 ∨ ValidRatio l)
    (e2 : (l1 = l ∧ ∀ v, q.val = some v → ¬ ValidRatio v) ∨ (q.val = some l1 ∧ ValidRatio l1)) : SReg N inc B lo l1 h (.rising (riseTo p q)) := by
  obtain ⟨a, b, c⟩ := hS
  rcases e2 with ⟨rfl, h2⟩ | ⟨h1, h2⟩
  · have : riseTo p q = p := by
      unfold riseTo
      cases hv : q.val with
      | none => rfl
      | some v =>
        dsimp only
        rw [if_neg (fun hc => h2 v hv ⟨hc.1, hc.2⟩)]
    rw [this]
    exact ⟨a, b, c⟩
  · obtain ⟨h3, h4⟩ := hn l1 h1 h2.1 h2.2
    rw [riseTo_valid h1 h2]
    refine ⟨Or.inr (le_refl _), ?_, Or.inr h3⟩
    have hq0 : l1 ≠ 0 := by have := h2.1; intro hc; rw [hc] at this; norm_num at this
    have e := floorReach_start G b vl h2
    unfold floorReach
    rw [if_neg hq0]
    unfold startRatio at e
    split_ifs at e with hl0
    · exact e
    · rcases a with a | a
      · exact absurd a hl0
      · have : 0 < l := by
          rcases vl with h | h
          · exact absurd h hl0
          · exact lt_of_lt_of_le (by norm_num) h.1
        exact (G.reach_anti this (a.trans h4)).trans e

end

theorem Geom.reach_one_le {N inc B : ℤ} (G : Geom N inc B) : sincReach N inc 1 ≤ 4096 * (N + 2) := by
  obtain ⟨n1, n2⟩ := G.n_bounds
  have h1 : (1 : ℚ) ≤ inc := by exact_mod_cast G.inc1
  have h : r64 (((N + 2 : ℤ) : ℚ) / inc) ≤ ((N + 2 : ℤ) : ℚ) := by
    refine rq_le (rep64_int (n := N + 2) (by rw [abs_of_nonneg (by omega)]; omega)) ?_
    have : (0 : ℚ) ≤ ((N + 2 : ℤ) : ℚ) := by exact_mod_cast (by omega : 0 ≤ N + 2)
    rw [div_le_iff₀ (by linarith)]
    nlinarith
  have := rne_mono h
  rw [rne_intCast] at this
  unfold sincReach
  dsimp only
  rw [if_neg (by norm_num)]
  omega

/-- Streams through a sinc converter. -/
theorem sinc_stream {co : ℤ → F32} {N inc B : ℤ} {x : ℕ → ℕ → F32} {ch : ℕ} {len : Option ℕ} {lo : ℚ}
    (hx : ∀ n, len = some n → ∀ k, n ≤ k → ∀ c, x k c = zero32) :
    ∀ {U V : ℕ} {ops : List Op} {os : List Obs}, FedTo x ch len U ops os V →
    ∀ {Q : ℚ → ℚ → Prop} {P : Pos} {l : ℚ} {h : ℤ} {st st' : SrcState} {u : Use} {tl : List Op}, STrack co N inc B x ch len Q U P l h st →
    (∀ op ∈ ops, SizedOp ch op) → (u ≠ .freely → SincUse lo ch u (ops ++ tl)) → SReg N inc B lo l h u → sincReach N inc 1 ≤ h → run ops st = .ok (os, st') →
    ∃ (ρ : ℕ → ℚ) (Ds : ℕ → ℤ), (∀ j < (outputs ch os).length, ValidRatio (ρ j) ∧ sincReach N inc 1 ≤ Ds j ∧ (∀ q, u = .rising q → Ds j = 4096 * (N + 2))) ∧
      outputs ch os = (List.range (outputs ch os).length).map (fun j => frameOf ch (sincFrame co N inc x (Ds j) (ρ j) (posAt P ρ j))) ∧
      (∀ a b, (l = 0 ∨ (a ≤ l ∧ l ≤ b)) → (∀ op ∈ ops, RatioIn a b op) → ∀ j < (outputs ch os).length, a ≤ ρ j ∧ ρ j ≤ b) ∧
      ratiosFrom sincRatioAt ch l ops os = (List.range (outputs ch os).length).map ρ ∧
      U ≤ V ∧ (SEnded st → V = U ∧ SEnded st') ∧
      (∀ j < (outputs ch os).length, (posAt P ρ j).k < V ∧ ((∃ n ≤ V, len = some n) ∨ ∀ x' : ℕ → ℕ → F32, (∀ k < V, x k = x' k) →
        sincFrame co N inc x (Ds j) (ρ j) (posAt P ρ j) = sincFrame co N inc x' (Ds j) (ρ j) (posAt P ρ j))) ∧
      (∀ a b, 0 < a → (l = 0 ∨ (a ≤ l ∧ l ≤ b)) → (∀ op ∈ ops, RatioIn a b op) → ∀ j < (outputs ch os).length, ((posAt P ρ j).k : ℤ) + sincReach N inc b + 1 ≤ V ∨
        ∃ n ≤ V, len = some n ∧ (posAt P ρ j).i + 1 / b - 1 / 1000000 ≤ ((ch * ((n : ℤ) - (posAt P ρ j).k) : ℤ) : ℚ)) ∧
      ∃ (Q' : ℚ → ℚ → Prop) (l' : ℚ) (h' : ℤ) (u' : Use), STrack co N inc B x ch len Q' V (posAt P ρ (outputs ch os).length) l' h' st' ∧
        SReg N inc B lo l' h' u' ∧ (u' ≠ .freely → SincUse lo ch u' tl) ∧ (u' = .freely ↔ u = .freely) ∧ (∀ a b, Q a b → (∀ op ∈ ops, RatioIn a b op) → Q' a b) ∧ sincReach N inc 1 ≤ h' := by
  intro U V ops os hF
  induction hF with
  | nil U =>
    intro Q P l h st st' u tl T hZ hU hS hh1 hr
    have hr := ok_inj hr
    simp only [Prod.mk.injEq, true_and] at hr
    subst hr
    exact ⟨fun _ => 1, fun _ => 0, fun j hj => by simp [outputs] at hj, by simp [outputs],
      fun _ _ _ _ j hj => by simp [outputs] at hj, by simp [outputs, ratiosFrom], le_refl _, fun h => ⟨rfl, h⟩, fun j hj => by simp [outputs] at hj, fun _ _ _ _ _ j hj => by simp [outputs] at hj, Q, l, h, u, T, hS, hU, Iff.rfl, fun _ _ h _ => h, hh1⟩
  | call U V m d d' o ops os hP hE h0 hd hF ih =>
    intro Q P l h st st' u tl T hZ hU hS hh1 hr
    rw [List.cons_append] at hU
    have hZ' : ∀ op ∈ ops, SizedOp ch op := fun op h => hZ op (List.mem_cons_of_mem _ h)
    unfold run at hr
    obtain ⟨⟨o1, st1⟩, hr1, hr⟩ := bind_ok hr
    obtain ⟨⟨os2, st2⟩, hr2, hr⟩ := bind_ok hr
    have hr := ok_inj hr
    simp only [Prod.mk.injEq, List.cons.injEq] at hr
    obtain ⟨⟨rfl, rfl⟩, rfl⟩ := hr
    have hsz : SincSized ch d := hZ _ (List.mem_cons_self ..)
    have hb2 : ch * d.outputFrames.toNat ≤ 2 ^ 50 := by
      have := hsz.outSize
      unfold samples at this
      rw [show max d.outputFrames 0 = (d.outputFrames.toNat : ℤ) by omega] at this
      have h2 : ((ch * d.outputFrames.toNat : ℕ) : ℤ) ≤ 2 ^ 50 := by push_cast; linarith
      exact_mod_cast h2
    obtain ⟨f, D, W, -⟩ := T.view
    have hG := W.geo
    have hvl := W.vl
    have hch1 := W.hch1
    have hfr : 0 ≤ P.i ∧ P.i < 1 := W.hi
    have hrise : ∀ q, u = .rising q → NotBelow lo q d.srcRatio := by
      rintro q rfl; cases hU (by simp); assumption
    have hdec : u = .freely ∨ ∃ q, u = .rising q := by
      cases u with
      | freely => exact Or.inl rfl
      | rising q => exact Or.inr ⟨q, rfl⟩
    obtain ⟨d1, Ds1, g, n1, t, e1, e2, e3, e4, e5, e6, e7, e8, e9, e10, e11, e12, e13, eE, eS, T1⟩ := (Or.resolve_left (strack_call T hx hsz (fun _ => hP) (fun _ => hE) hr1) (fun h => h.1 h0)).2
    rw [hd] at e1
    simp only [Option.some.injEq] at e1
    subst e1
    rw [e2, Int.toNat_natCast] at ih
    generalize hoo : d.outputFrames.toNat = oo at *
    set L := startRatio l t with hL
    have vt := e7
    have hval : ∀ j < g, ValidRatio (sincRatioAt L t ch oo j) ∧ (1 - p2 (-36)) * min L t ≤ sincRatioAt L t ch oo j := by
      intro j hj
      have : ∃ z : F64, z.val = some L := by
        rw [hL]; unfold startRatio; split_ifs
        · exact ⟨_, e6⟩
        · exact ⟨_, W.hl⟩
      obtain ⟨z, hz⟩ := this
      exact (sincRatio_val (cur := z) hz e6 e8 e7 hch1 (by omega : j < oo) (hb2.trans (by norm_num)) (fun _ => hz)).2
    have vm : 1 / 256 ≤ min L t := le_min e8.1 e7.1
    have hu2 : ∃ u2, (u2 ≠ .freely → SincUse lo ch u2 (ops ++ tl)) ∧ (u2 = .freely ↔ u = .freely) ∧
        SReg N inc B lo (if g = 0 then L else sincRatioAt L t ch oo (g - 1)) (min h (sincReach N inc (min L t))) u2 := by
      rcases hdec with rfl | ⟨q, rfl⟩
      · exact ⟨.freely, fun h => absurd rfl h, Iff.rfl, trivial⟩
      · refine ⟨.rising t, fun _ => ?_, by simp, ?_⟩
        · cases hU (by simp) with
          | riseCall _ _ _ _ _ _ hh => rw [riseTo_valid e6 e7] at hh; exact hh
        · exact reg_call hG hS (hrise q rfl) e6 e7 hvl e8 e9 (by omega) hch1 hb2
    obtain ⟨u2, hU2, hu2, hS2⟩ := hu2
    have hh2 : sincReach N inc 1 ≤ min h (sincReach N inc (min L t)) := le_min hh1 (hG.reach_one (lt_of_lt_of_le (by norm_num) vm))
    obtain ⟨ρ2, Ds2, f1, f2, fI, fR, fU, fE, f4, f5, Q', l', h', u', T2, S2, hU', hu', f6, f7⟩ := ih T1 hZ' hU2 hS2 hh2 hr2
    have hlen1 : (outOf ch o1).length = g := by rw [e11]; simp
    have hlen : (outputs ch (o1 :: os2)).length = g + (outputs ch os2).length := by
      simp only [outputs, List.flatMap_cons, List.length_append]; rw [hlen1]
    -- history of this call's frames
    set full : Prop := ∃ q, u = .rising q with hfull
    classical
    have hDs : ∀ j < g, sincFrame co N inc x (if full then 4096 * (N + 2) else Ds1 j) (sincRatioAt L t ch oo j) (posAt P (sincRatioAt L t ch oo) j) =
        sincFrame co N inc x (Ds1 j) (sincRatioAt L t ch oo j) (posAt P (sincRatioAt L t ch oo) j) := by
      intro j hj
      split_ifs with hq
      · obtain ⟨q, rfl⟩ := hq
        obtain ⟨r1, r2, r3⟩ := rise_call hG hS (hrise q rfl) e6 e7 hvl
        symm
        refine sincFrame_hist hG vm (hval j hj).2 (hval j hj).1.1 (posAt_frac hfr j) ?_ (by omega)
        have := (e10 j hj).2
        rw [min_eq_right (by rw [min_eq_left r1]; exact r2)] at this
        exact this
      · rfl
    have hpl : ∀ j < g, posAt P (joinAt g (sincRatioAt L t ch oo) ρ2) j = posAt P (sincRatioAt L t ch oo) j := fun j hj =>
      posAt_congr (fun i hi => by simp [joinAt, show i < g by omega])
    have hLb : ∀ a b, (l = 0 ∨ (a ≤ l ∧ l ≤ b)) → (∀ op ∈ (Op.process m (some d) :: ops), RatioIn a b op) → (a ≤ t ∧ t ≤ b) ∧ (a ≤ L ∧ L ≤ b) := by
      intro a b hlab hA
      have htab : a ≤ t ∧ t ≤ b := hA _ (List.mem_cons_self ..) t e6
      refine ⟨htab, ?_⟩
      rw [hL]; unfold startRatio
      split_ifs with h
      · exact htab
      · exact hlab.resolve_left h
    have hrepL : Rep0 f64 L := by
      rw [hL]; unfold startRatio; split_ifs
      · exact rep64_val e6
      · exact rep64_val W.hl
    have hinab : ∀ a b, (a ≤ t ∧ t ≤ b) → (a ≤ L ∧ L ≤ b) → ∀ j < g, a ≤ sincRatioAt L t ch oo j ∧ sincRatioAt L t ch oo j ≤ b := by
      intro a b htab hLab j hj
      obtain ⟨b1, b2⟩ := sincRatioAt_between hrepL (rep64_val e6) e8 e7 hch1 (show j < oo by omega) hb2
      exact ⟨(le_min hLab.1 htab.1).trans b1, b2.trans (max_le hLab.2 htab.2)⟩
    have hnext : ∀ a b, (a ≤ t ∧ t ≤ b) → (a ≤ L ∧ L ≤ b) → a ≤ (if g = 0 then L else sincRatioAt L t ch oo (g - 1)) ∧ (if g = 0 then L else sincRatioAt L t ch oo (g - 1)) ≤ b := by
      intro a b htab hLab
      split_ifs with hg0
      · exact hLab
      · exact hinab a b htab hLab _ (by omega)
    refine ⟨joinAt g (sincRatioAt L t ch oo) ρ2, fun j => if j < g then (if full then 4096 * (N + 2) else Ds1 j) else Ds2 (j - g), ?_, ?_, ?_, ?_, by omega, fun h => ⟨by rw [(fE (eE h).2).1, (eE h).1]; rfl, (fE (eE h).2).2⟩, ?_, ?_,
      Q', l', h', u', ?_, S2, hU', hu'.trans hu2, ?_, f7⟩
    · intro j hj
      dsimp only
      unfold joinAt
      split_ifs with h1 h2
      · exact ⟨(hval j h1).1, hG.reach_one_le, fun _ _ => rfl⟩
      · exact ⟨(hval j h1).1, hh2.trans (e10 j h1).2, fun q hq => absurd ⟨q, hq⟩ h2⟩
      · obtain ⟨a, b, c⟩ := f1 (j - g) (by omega)
        refine ⟨a, b, fun q hq => ?_⟩
        cases u2 with
        | freely => rw [hu2.1 rfl] at hq; cases hq
        | rising q' => exact c q' rfl
    · rw [hlen]
      have : outputs ch (o1 :: os2) = outOf ch o1 ++ outputs ch os2 := by simp [outputs]
      rw [this, List.range_add, List.map_append, e11]
      congr 1
      · refine List.map_congr_left (fun j hj => ?_)
        have hj := List.mem_range.1 hj
        rw [hpl j hj]
        simp only [joinAt, if_pos hj]
        rw [hDs j hj]
      · rw [f2, List.map_map]
        simp only [List.length_map, List.length_range]
        refine List.map_congr_left (fun j hj => ?_)
        simp only [Function.comp_apply]
        rw [posAt_join]
        simp [joinAt]
    · intro a b hlab hA j hj
      obtain ⟨htab, hLab⟩ := hLb a b hlab hA
      unfold joinAt
      split_ifs with h1
      · exact hinab a b htab hLab j h1
      · exact fI a b (Or.inr (hnext a b htab hLab)) (fun op h => hA op (List.mem_cons_of_mem _ h)) _ (by omega)
    · rw [hlen, ratiosFrom_call e6 hd h0, e4, Int.toNat_natCast, hoo, range_join]
      exact congrArg _ fR
    · intro j hj
      by_cases h1 : j < g
      · rw [hpl j h1]
        simp only [joinAt, if_pos h1]
        have h6 := hG.reach_ge vm
        rcases e12 j h1 with h2 | ⟨h2, h3⟩
        · refine ⟨by omega, Or.inr fun x' hx' => ?_⟩
          rw [hDs j h1]
          have hD0 : 0 ≤ (if full then 4096 * (N + 2) else Ds1 j) := by
            split_ifs
            · have := hG.n_bounds; omega
            · exact (e10 j h1).1
          rw [← hDs j h1]
          exact sincFrame_congr hG vm (hval j h1).2 (hval j h1).1.1 (posAt_frac hfr j) hD0 rfl (fun k hk => hx' k (by omega))
        · refine ⟨?_, Or.inl ⟨_, fU, h2⟩⟩
          · have e3' : 0 < 1 / L - 1 / 1000000 := by
              have : 1 / 256 ≤ 1 / L := one_div_le_one_div_of_le (lt_of_lt_of_le (by norm_num) e8.1) e8.2
              linarith
            have hi := (posAt_frac (ρ := sincRatioAt L t ch oo) hfr j).1
            have hp : (0 : ℚ) < ((ch * (((U + n1 : ℕ) : ℤ) - (posAt P (sincRatioAt L t ch oo) j).k) : ℤ) : ℚ) := by linarith
            have hp' : 0 < (ch : ℤ) * (((U + n1 : ℕ) : ℤ) - (posAt P (sincRatioAt L t ch oo) j).k) := by exact_mod_cast hp
            have := pos_of_mul_pos_right hp' (by positivity)
            omega
      · obtain ⟨i, rfl⟩ : ∃ i, j = g + i := ⟨j - g, by omega⟩
        rw [posAt_join]
        have := f4 i (by omega)
        simpa [joinAt] using this
    · intro a b ha hlab hA j hj
      obtain ⟨htab, hLab⟩ := hLb a b hlab hA
      by_cases h1 : j < g
      · rw [hpl j h1]
        rcases e12 j h1 with h2 | ⟨h2, h3⟩
        · left
          have := hG.reach_anti (r := min L t) (r' := b) (lt_of_lt_of_le (by norm_num) vm) ((min_le_right _ _).trans htab.2)
          omega
        · refine Or.inr ⟨_, fU, h2, le_trans ?_ h3⟩
          have : 1 / b ≤ 1 / L := one_div_le_one_div_of_le (lt_of_lt_of_le (by norm_num) e8.1) hLab.2
          linarith
      · obtain ⟨i, rfl⟩ : ∃ i, j = g + i := ⟨j - g, by omega⟩
        rw [posAt_join]
        exact f5 a b ha (Or.inr (hnext a b htab hLab)) (fun op h => hA op (List.mem_cons_of_mem _ h)) i (by omega)
    · rw [hlen, posAt_join]; exact T2
    · intro a b hq hA
      obtain ⟨_, _, _, _, hQl, _⟩ := T.view
      obtain ⟨htab, hLab⟩ := hLb a b (hQl a b hq) hA
      exact f6 a b ⟨hq, htab⟩ (fun op h => hA op (List.mem_cons_of_mem _ h))
  | setRatio U V q o ops os hF ih =>
    intro Q P l h st st' u tl T hZ hU hS hh1 hr
    rw [List.cons_append] at hU
    have hZ' : ∀ op ∈ ops, SizedOp ch op := fun op h => hZ op (List.mem_cons_of_mem _ h)
    unfold run at hr
    obtain ⟨⟨o1, st1⟩, hr1, hr⟩ := bind_ok hr
    obtain ⟨⟨os2, st2⟩, hr2, hr⟩ := bind_ok hr
    have hr := ok_inj hr
    simp only [Prod.mk.injEq, List.cons.injEq] at hr
    obtain ⟨⟨rfl, rfl⟩, rfl⟩ := hr
    have hq : q ≠ .nan := hZ _ (List.mem_cons_self ..)
    obtain ⟨f, D, W, -⟩ := T.view
    obtain ⟨e1, e3, l1, T1, e2, e4⟩ := strack_setRatio T hq hr1
    have hout : outputs ch (o1 :: os2) = outputs ch os2 := by simp [outputs, e1]
    rw [hout]
    have hu2 : ∃ u2, (u2 ≠ .freely → SincUse lo ch u2 (ops ++ tl)) ∧ (u2 = .freely ↔ u = .freely) ∧ (∀ q, u = .rising q → ∃ q', u2 = .rising q') ∧ SReg N inc B lo l1 h u2 := by
      cases u with
      | freely => exact ⟨.freely, fun h => absurd rfl h, Iff.rfl, (fun q h => by cases h), trivial⟩
      | rising p =>
      cases hU (by simp) with
      | riseRatio _ _ _ _ hn hh =>
        refine ⟨_, fun _ => hh, by simp, fun _ _ => ⟨_, rfl⟩, ?_⟩
        exact reg_setRatio W.geo hS hn W.vl e2
    obtain ⟨u2, hU2, hu2, hu3, hS2⟩ := hu2
    obtain ⟨ρ2, Ds2, f1, f2, fI, fR, fU, fE, f4, f5, Q', l', h', u', T2, S2, hU', hu', f6, f7⟩ := ih T1 hZ' hU2 hS2 hh1 hr2
    refine ⟨ρ2, Ds2, ?_, f2, ?_, by rw [← fR, e4]; rfl, fU, fun h => fE (e3 h), f4, ?_, Q', l', h', u', T2, S2, hU', hu'.trans hu2, ?_, f7⟩
    · intro j hj
      obtain ⟨a, b, c⟩ := f1 j hj
      refine ⟨a, b, fun q hq => ?_⟩
      obtain ⟨q', hq'⟩ := hu3 q hq
      exact c q' hq'
    · intro a b hl hA
      refine fI a b ?_ (fun op h => hA op (List.mem_cons_of_mem _ h))
      rcases e2 with ⟨h, -⟩ | ⟨h, -⟩
      · rw [h]; exact hl
      · exact Or.inr (hA _ (List.mem_cons_self ..) _ h)
    · intro a b ha hl hA
      refine f5 a b ha ?_ (fun op h => hA op (List.mem_cons_of_mem _ h))
      rcases e2 with ⟨h, -⟩ | ⟨h, -⟩
      · rw [h]; exact hl
      · exact Or.inr (hA _ (List.mem_cons_self ..) _ h)
    · intro a b hq hA
      exact f6 a b ⟨hq, hA _ (List.mem_cons_self ..)⟩ (fun op h => hA op (List.mem_cons_of_mem _ h))

/-- After the end of input: nothing more is consumed, and the position stays before the end. -/
theorem ended_run {co : ℤ → F32} {N inc B : ℤ} {x : ℕ → ℕ → F32} {ch U : ℕ}
    (hx : EndsAt x (some U)) :
    ∀ {ops : List Op}, (∀ op ∈ ops, SizedOp ch op ∧ op ≠ .reset) → ∀ {os : List Obs} {Q : ℚ → ℚ → Prop} {P : Pos} {l : ℚ} {h : ℤ} {st st' : SrcState},
    STrack co N inc B x ch (some U) Q U P l h st → SEnded st → run ops st = .ok (os, st') →
    (∀ o ∈ os, o.ret = 0 → ∀ d, o.data = some d → d.inputFramesUsed = 0) ∧
      ∃ ρ : ℕ → ℚ, ∀ j < generated os, ValidRatio (ρ j) ∧ (posAt P ρ j).k < U := by
  intro ops
  induction ops with
  | nil =>
    intro _ os Q P l h st st' T E hr
    have hr := ok_inj hr
    simp only [Prod.mk.injEq] at hr
    rw [← hr.1]
    exact ⟨by simp, fun _ => 1, fun j hj => by simp [generated] at hj⟩
  | cons op ops ih =>
  intro hnr os Q P l h st st' T E hr
  have hnr' : ∀ op ∈ ops, SizedOp ch op ∧ op ≠ .reset := fun op h => hnr op (List.mem_cons_of_mem _ h)
  obtain ⟨hsz, hres⟩ := hnr _ (List.mem_cons_self ..)
  unfold run at hr
  obtain ⟨⟨o1, st1⟩, hr1, hr⟩ := bind_ok hr
  obtain ⟨⟨os2, st2⟩, hr2, hr⟩ := bind_ok hr
  have hr := ok_inj hr
  simp only [Prod.mk.injEq, List.cons.injEq] at hr
  obtain ⟨rfl, rfl⟩ := hr
  rcases op with ⟨m, _ | d⟩ | _ | r | _
  rotate_left 2
  · exact hsz.elim
  rotate_left 1
  · exact absurd rfl hres
  · obtain ⟨d', hd'⟩ := process_rejects (m := m) (FirstFailing.data st rfl T.mode rfl) (by rintro _ _ _ ⟨⟩)
    simp only [Op.run, hd'] at hr1
    have hr1 := ok_inj hr1
    simp only [Prod.mk.injEq, Option.getD_some] at hr1
    have hz : o1.ret ≠ 0 := by rw [← hr1.1]; dsimp only; decide
    rw [← hr1.2] at hr2
    obtain ⟨a1, ρ, a2⟩ := ih hnr' T E hr2
    refine ⟨?_, ρ, ?_⟩
    · intro o ho h0 d hd
      rcases List.mem_cons.1 ho with rfl | ho
      · exact absurd h0 hz
      · exact a1 o ho h0 d hd
    · simp only [generated, if_neg hz, Nat.zero_add]; exact a2
  · obtain ⟨f, D, W, -⟩ := T.view
    have hG := W.geo
    have hvl := W.vl
    have hch1 := W.hch1
    rcases strack_call T hx hsz (fun h => absurd E h) (fun h => absurd E h) hr1 with
      ⟨hz, rfl⟩ | ⟨h0, d1, Ds1, g, n1, t, e1, e2, e3, e4, e5, e6, e7, e8, e9, e10, e11, e12, e13, eE, eS, T1⟩
    · obtain ⟨a1, ρ, a2⟩ := ih hnr' T E hr2
      refine ⟨?_, ρ, ?_⟩
      · intro o ho h0 d hd
        rcases List.mem_cons.1 ho with rfl | ho
        · exact absurd h0 hz
        · exact a1 o ho h0 d hd
      · simp only [generated, if_neg hz, Nat.zero_add]; exact a2
    · have hb2 := sized_out hsz
      obtain ⟨n0, E1⟩ := eE E
      subst n0
      obtain ⟨a1, ρ, a2⟩ := ih hnr' T1 E1 hr2
      have hval : ∀ j < g, ValidRatio (sincRatioAt (startRatio l t) t ch d.outputFrames.toNat j) := by
        intro j hj
        have : ∃ z : F64, z.val = some (startRatio l t) := by
          unfold startRatio; split_ifs
          · exact ⟨_, e6⟩
          · exact ⟨_, W.hl⟩
        obtain ⟨z, hz⟩ := this
        exact (sincRatio_val (cur := z) hz e6 e8 e7 hch1 (by omega : j < d.outputFrames.toNat) (hb2.trans (by norm_num)) (fun _ => hz)).2.1
      have hgen : generated (o1 :: os2) = g + generated os2 := by
        simp only [generated, if_pos h0, e1, e4, Int.toNat_natCast]
      have hfr : 0 ≤ P.i ∧ P.i < 1 := W.hi
      refine ⟨?_, joinAt g (sincRatioAt (startRatio l t) t ch d.outputFrames.toNat) ρ, ?_⟩
      · intro o ho h0 d' hd
        rcases List.mem_cons.1 ho with rfl | ho
        · rw [e1] at hd; cases hd; rw [e2]; rfl
        · exact a1 o ho h0 d' hd
      · rw [hgen]
        intro j hj
        by_cases h1 : j < g
        · rw [posAt_congr (ρ' := sincRatioAt (startRatio l t) t ch d.outputFrames.toNat) (fun i hi => by simp [joinAt, show i < g by omega])]
          simp only [joinAt, if_pos h1]
          refine ⟨hval j h1, ?_⟩
          have vm : 1 / 256 ≤ min (startRatio l t) t := le_min e8.1 e7.1
          have h6 := hG.reach_ge vm
          rcases e12 j h1 with h2 | ⟨h2, h3⟩
          · omega
          · have e3' : 0 < 1 / startRatio l t - 1 / 1000000 := by
              have : 1 / 256 ≤ 1 / startRatio l t := one_div_le_one_div_of_le (lt_of_lt_of_le (by norm_num) e8.1) e8.2
              linarith
            have hi := (posAt_frac (ρ := sincRatioAt (startRatio l t) t ch d.outputFrames.toNat) hfr j).1
            generalize posAt P (sincRatioAt (startRatio l t) t ch d.outputFrames.toNat) j = p at *
            have hp : (0 : ℚ) < ((ch * (((U + 0 : ℕ) : ℤ) - p.k) : ℤ) : ℚ) := by linarith
            have hp' : 0 < (ch : ℤ) * (((U + 0 : ℕ) : ℤ) - p.k) := by exact_mod_cast hp
            have := pos_of_mul_pos_right hp' (by positivity)
            omega
        · obtain ⟨i, rfl⟩ : ∃ i, j = g + i := ⟨j - g, by omega⟩
          rw [posAt_join]
          have := a2 i (by omega)
          simpa [joinAt] using this
  · obtain ⟨f, D, W, -⟩ := T.view
    obtain ⟨e1, e3, l1, T1, e2, e4⟩ := strack_setRatio T hsz hr1
    have hd : o1.data = none := by
      simp only [Op.run] at hr1
      have hr1 := ok_inj hr1
      simp only [Prod.mk.injEq] at hr1
      rw [← hr1.1]
    obtain ⟨a1, ρ, a2⟩ := ih hnr' T1 (e3 E) hr2
    refine ⟨?_, ρ, ?_⟩
    · intro o ho h0 d hd'
      rcases List.mem_cons.1 ho with rfl | ho
      · rw [hd] at hd'; cases hd'
      · exact a1 o ho h0 d hd'
    · have : generated (o1 :: os2) = generated os2 := by simp [generated, hd]
      rw [this]; exact a2

end Verif
