import Verif.Props.Stream
import Verif.Proof.Neg

/-! C87: rising input gives rising output (zero order hold and linear). -/

namespace Verif

open Spec

/-- `b` is not below `a` (finite samples). -/
def NotBelow (a b : F32) : Prop := ∃ p q, a.val = some p ∧ b.val = some q ∧ p ≤ q

theorem NotBelow.trans {a b c : F32} (h1 : NotBelow a b) (h2 : NotBelow b c) : NotBelow a c := by
  obtain ⟨p, q, hp, hq, h⟩ := h1
  obtain ⟨q', r, hq', hr, h'⟩ := h2
  rw [hq] at hq'
  cases hq'
  exact ⟨p, r, hp, hr, h.trans h'⟩

theorem rising_le {y : ℕ → F32} (h : ∀ k, NotBelow (y k) (y (k + 1))) {k l : ℕ} (hkl : k ≤ l) : NotBelow (y k) (y l) := by
  induction hkl with
  | refl => obtain ⟨p, _, hp, _, _⟩ := h k; exact ⟨p, p, hp, hp, le_refl _⟩
  | step _ ih => exact ih.trans (h _)

theorem NotBelow.neg {a b : F32} (h : NotBelow a b) : NotBelow (Fl.neg b) (Fl.neg a) := by
  obtain ⟨p, q, hp, hq, h⟩ := h
  exact ⟨-q, -p, Fl.val_neg hq, Fl.val_neg hp, by linarith⟩

/-- Within one pair of neighbours the interpolation rises with the position. -/
theorem linearSample_mono {a b : F32} {i i' : F64} {s s' : ℚ} (h : NotBelow a b) (hi : i.val = some s) (hi' : i'.val = some s')
    (h0 : 0 ≤ s) (hs : s ≤ s') (h1 : s' < 1) : NotBelow (Spec.between a b i) (Spec.between a b i') := by
  obtain ⟨p, q, hp, hq, hpq⟩ := h
  refine ⟨_, _, (linearSample_val hp hq hi h0 (by linarith)).1, (linearSample_val hp hq hi' (by linarith) h1).1, ?_⟩
  have hd : 0 ≤ r64 (q - p) := rq_nonneg (by linarith)
  refine rq_mono (rq_mono ?_)
  have : r64 (s * r64 (q - p)) ≤ r64 (s' * r64 (q - p)) := rq_mono (mul_le_mul_of_nonneg_right hs hd)
  linarith

theorem linearSample_in {a b : F32} {i : F64} {s : ℚ} (h : NotBelow a b) (hi : i.val = some s) (h0 : 0 ≤ s) (h1 : s < 1) :
    NotBelow a (Spec.between a b i) ∧ NotBelow (Spec.between a b i) b := by
  obtain ⟨p, q, hp, hq, hpq⟩ := h
  obtain ⟨a1, a2, a3⟩ := linearSample_val hp hq hi h0 h1
  rw [min_eq_left hpq] at a2
  rw [max_eq_right hpq] at a3
  exact ⟨⟨_, _, hp, a1, a2⟩, ⟨_, _, a1, hq, a3⟩⟩

theorem time_le {ρ : ℕ → ℚ} {n : ℕ} (h : ∀ j < n, ValidRatio (ρ j)) {i j : ℕ} (hij : i ≤ j) (hj : j < n) : timeAt ρ i ≤ timeAt ρ j := by
  induction hij with
  | refl => exact le_refl _
  | @step m _ ih => exact (ih (by omega)).trans (by linarith [(time_gap (h m (by omega))).1])

theorem position_val {ρ : ℕ → ℚ} {n : ℕ} (h : ∀ j < n, ValidRatio (ρ j)) {j : ℕ} (hj : j < n) :
    (Fl.round f64 (posAt ⟨0, 0⟩ ρ j).i).val = some (posAt ⟨0, 0⟩ ρ j).i := by
  have hfr := posAt_frac0 ρ j
  exact Fl.val_round_of_rep ⟨posAt_rep0 ρ h j hj.le, by rw [abs_of_nonneg hfr.1]; exact hfr.2.trans one_lt_emax⟩

/-- The ideal output rises if the input does. -/
theorem ideal_rises {K : Kind} {x : ℕ → ℕ → F32} {ρ : ℕ → ℚ} {n c : ℕ} (h : ∀ j < n, ValidRatio (ρ j))
    (hx : ∀ k, NotBelow (x k c) (x (k + 1) c)) {i j : ℕ} (hij : i ≤ j) (hj : j < n) :
    NotBelow (K.out (x 0) x (posAt ⟨0, 0⟩ ρ i) c) (K.out (x 0) x (posAt ⟨0, 0⟩ ρ j) c) := by
  have hup := fun {k l : ℕ} (a : k ≤ l) => rising_le (y := fun k => x k c) hx a
  have ht := time_le h hij hj
  have fi := posAt_frac0 ρ i
  have fj := posAt_frac0 ρ j
  have hk : (posAt ⟨0, 0⟩ ρ i).k ≤ (posAt ⟨0, 0⟩ ρ j).k := by
    rw [← floor_time, ← floor_time]; exact Nat.floor_le_floor ht
  cases K with
  | zoh =>
    simp only [Kind.out, zohOut, prevFrame_sub]
    exact hup (by omega)
  | linear =>
    simp only [Kind.out, linearOut, prevFrame_sub]
    have vi := position_val h (show i < n by omega)
    have vj := position_val h hj
    have nb := fun k => hup (show k - 1 ≤ k by omega)
    rcases Nat.eq_or_lt_of_le hk with he | hlt
    · have hle : (posAt ⟨0, 0⟩ ρ i).i ≤ (posAt ⟨0, 0⟩ ρ j).i := by
        unfold timeAt at ht
        rw [he] at ht
        linarith
      rw [he]
      exact linearSample_mono (nb _) vi vj fi.1 hle fj.2
    · exact ((linearSample_in (nb _) vi fi.1 fi.2).2.trans (hup (by omega))).trans (linearSample_in (nb _) vj fj.1 fj.2).1

/-- C87: if no sample of channel `c` of the stream is below the one before it, then no output sample of that channel is below an earlier
one, however the stream is cut into calls and whatever ratios are asked for. -/
theorem C87 (cfg : Config) (type : ℤ) (ht : type = SRC_ZERO_ORDER_HOLD ∨ type = SRC_LINEAR) (ch : ℕ)
    (hc : ch ≤ 8355967) (e : ℤ) (st st1 : SrcState)
    (h : srcNew cfg type ch = .ok (e, some st)) (x : ℕ → ℕ → F32) (ops : List Op) (os : List Obs) (V : ℕ)
    (hO : ∀ op ∈ ops, OrdinaryOp 1 ch op) (hr : run ops st = .ok (os, st1)) (hF : Fed x ch 0 ops os V)
    (c : ℕ) (hx : ∀ k, NotBelow (x k c) (x (k + 1) c)) :
    ∀ (i j : ℕ) (f g : List F32) (v w : F32), i ≤ j → (outputs ch os)[i]? = some f → (outputs ch os)[j]? = some g → f[c]? = some v → g[c]? = some w →
      NotBelow v w := by
  obtain ⟨K, rfl⟩ := kind_of ht
  obtain ⟨ρ, h1, h2, -⟩ := stream_new h hc hO hF hr
  intro i j f g v w hij hf hg hv hw
  obtain ⟨-, rfl⟩ := getElem?_of_map h2 hf
  obtain ⟨hj, rfl⟩ := getElem?_of_map h2 hg
  obtain ⟨-, rfl⟩ := getElem?_of_map (n := ch) rfl hv
  obtain ⟨-, rfl⟩ := getElem?_of_map (n := ch) rfl hw
  exact ideal_rises h1 hx hij hj

/-- C87 for falling input: the output falls. -/
theorem C87_falling (cfg : Config) (type : ℤ) (ht : type = SRC_ZERO_ORDER_HOLD ∨ type = SRC_LINEAR) (ch : ℕ)
    (hc : ch ≤ 8355967) (e : ℤ) (st st1 : SrcState)
    (h : srcNew cfg type ch = .ok (e, some st)) (x : ℕ → ℕ → F32) (ops : List Op) (os : List Obs) (V : ℕ)
    (hO : ∀ op ∈ ops, OrdinaryOp 1 ch op) (hr : run ops st = .ok (os, st1)) (hF : Fed x ch 0 ops os V)
    (c : ℕ) (hx : ∀ k, NotBelow (x (k + 1) c) (x k c)) :
    ∀ (i j : ℕ) (f g : List F32) (v w : F32), i ≤ j → (outputs ch os)[i]? = some f → (outputs ch os)[j]? = some g → f[c]? = some v → g[c]? = some w →
      NotBelow w v := by
  obtain ⟨K, rfl⟩ := kind_of ht
  obtain ⟨ρ, h1, h2, -⟩ := stream_new h hc hO hF hr
  intro i j f g v w hij hf hg hv hw
  obtain ⟨-, rfl⟩ := getElem?_of_map h2 hf
  obtain ⟨hj, rfl⟩ := getElem?_of_map h2 hg
  obtain ⟨-, rfl⟩ := getElem?_of_map (n := ch) rfl hv
  obtain ⟨-, rfl⟩ := getElem?_of_map (n := ch) rfl hw
  have := (ideal_rises (K := K) (x := fun k c => Fl.neg (x k c)) h1 (fun k => (hx k).neg) hij hj).neg
  have hn : ∀ P : Pos, K.out ((fun k c => Fl.neg (x k c)) 0) (fun k c => Fl.neg (x k c)) P c = Fl.neg (K.out (x 0) x P c) := by
    intro P
    cases K <;> simp only [Kind.out, zohOut, linearOut, prevFrame_sub, ← linearSample_neg]
    · exact congrFun (prevFrame_sub (fun k c => Fl.neg (x k c)) P.k) c
    · rw [show prevFrame (fun c => Fl.neg (x 0 c)) (fun k c => Fl.neg (x k c)) P.k c = Fl.neg (x (P.k - 1) c) from
        congrFun (prevFrame_sub (fun k c => Fl.neg (x k c)) P.k) c]
  rwa [hn, hn, Fl.neg_neg', Fl.neg_neg'] at this

/-- A rising stream: 0, then 1 for ever. -/
def stepStream (k _ : ℕ) : F32 := if k = 0 then zero32 else Fl.ofInt f32 1

/-- Its first frames in memory at address 1, for two channels. -/
def stepMem (a : ℤ) : F32 := if a < 3 then zero32 else Fl.ofInt f32 1

/-- Non-vacuity of C87: a call that presents the rising stream succeeds. -/
example (K : Kind) (e : ℤ) (st : SrcState) (h : srcNew ⟨none, none, none⟩ K.type (2 : ℕ) = .ok (e, some st)) :
    (∀ k, NotBelow (stepStream k 0) (stepStream (k + 1) 0)) ∧
    ∃ os V st1, run [.process stepMem (some smallCall)] st = .ok (os, st1) ∧ Fed stepStream 2 0 [.process stepMem (some smallCall)] os V ∧
      OrdinaryOp 1 (2 : ℕ) (.process stepMem (some smallCall)) := by
  have v0 : (zero32 : F32).val = some 0 := by simpa [zero32, Fl.ofInt] using Fl.val_ofInt (f := f32) (n := 0) (by norm_num)
  have v1 : (Fl.ofInt f32 1 : F32).val = some 1 := by simpa using Fl.val_ofInt (f := f32) (n := 1) (by norm_num [f32])
  refine ⟨fun k => ?_, ?_⟩
  · cases k with
    | zero => exact ⟨0, 1, by simpa [stepStream] using v0, by simpa [stepStream] using v1, by norm_num⟩
    | succ k => exact ⟨1, 1, by simpa [stepStream] using v1, by simpa [stepStream] using v1, le_refl _⟩
  · obtain ⟨a, b, c, d⟩ := smallCall_ok K
    have T := new_track stepStream h (by norm_num)
    have P : Presents stepStream 2 0 stepMem smallCall := by
      intro k c hk hc
      have hd : smallCall.dataIn = 1 := rfl
      rw [hd, Nat.zero_add]
      unfold stepStream stepMem
      by_cases h0 : k = 0
      · rw [if_pos (by omega), if_pos h0]
      · rw [if_neg (by omega), if_neg h0]
    obtain ⟨o1, s1, r1, z1⟩ := call_succeeds T a b c d stepMem
    obtain ⟨d1, ρ1, g, u, t, e1, -⟩ := track_call T a.one P r1 z1
    refine ⟨[o1], _, s1, ?_, .call _ _ _ _ d1 _ _ _ P z1 e1 (.nil _), .process _ _ (by rintro _ ⟨⟩; exact a.one)⟩
    simp only [run, r1, bind, Except.bind]; rfl

end Verif
