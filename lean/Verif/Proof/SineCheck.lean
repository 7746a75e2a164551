import Mathlib.Algebra.BigOperators.Field
import Verif.Proof.SineDouble

/-! What the evaluation by the kernel says about the filter. -/

namespace Verif.Sine

/-! ### what the kernel evaluates -/

/-- At one frequency: the digits of `R`, `I` are the powers of the point for one table entry, `ws` those for one frame. -/
def checkAt (s : Scale) (P : Packed) (K B κ R I : ℕ) (ws : List (ℕ × ℕ)) : Bool :=
  digitsOk s.w s.c B P.ones (value s P K κ Prod.fst Prod.fst R ws) &&
  digitsOk s.w s.c B P.ones (value s P K κ (fun a => Nat.sub (Nat.mul 2 s.O) a.2) Prod.snd I ws)

/-- At as many frequencies as there are factors for the expected values, from the point `a`, `b` on, up to the point `a'`, `b'`. -/
def checkAll (s : Scale) (P : Packed) (L inc K B c d a' b' : ℕ) : List ℕ → ℕ → ℕ → Bool
  | [], a, b => Nat.beq a a' && Nat.beq b b'
  | κ :: ks, a, b => force a fun a => force b fun b =>
    (Nat.ble κ s.A && double (Nat.sub (Nat.pow 2 (Nat.sub s.w 60)) 1) L (Nat.pow 2 s.w) 1 3458764513820540928 2305843009213693952 a b fun R I =>
    force (Nat.mod R (Nat.pow (Nat.pow 2 s.w) (Nat.succ inc))) fun R => force (Nat.mod I (Nat.pow (Nat.pow 2 s.w) (Nat.succ inc))) fun I =>
    force (Nat.div R (Nat.pow (Nat.pow 2 s.w) inc)) fun x => force (Nat.div I (Nat.pow (Nat.pow 2 s.w) inc)) fun y =>
    checkAt s P K B κ R I (pows x y (K + 1) 3458764513820540928 2305843009213693952)) &&
    checkAll s P L inc K B c d a' b' ks (reMul a b c d) (imMul a b c d)

/-! ### what it means -/

/-- The filter with the table `h` (`inc` entries per frame) at table phase `p` applied to `cos (ω k)`, minus `κ` times the value at the position of this phase; `α` is the
angle per table entry. -/
noncomputable def errCos (h : ℕ → ℝ) (inc K : ℕ) (κ α : ℝ) (p : ℕ) : ℝ :=
  ∑ m ∈ Finset.range K, (Real.cos (m * (inc * α)) * h (p + m * inc) + Real.cos ((m + 1) * (inc * α)) * h (inc - p + m * inc)) - κ * Real.cos (p * α)

/-- The same for `sin`. -/
noncomputable def errSin (h : ℕ → ℝ) (inc K : ℕ) (κ α : ℝ) (p : ℕ) : ℝ :=
  ∑ m ∈ Finset.range K, (-Real.sin (m * (inc * α)) * h (p + m * inc) + Real.sin ((m + 1) * (inc * α)) * h (inc - p + m * inc)) - κ * Real.sin (p * α)

theorem phase_le {q : ℕ → ℤ} {A κ : ℕ} (hκ : κ ≤ A) (hq : ∀ i, |q i| ≤ (A : ℤ)) (inc K : ℕ) {F G Z : ℕ → ℤ} {O : ℕ} {p : ℕ} (hF : ∀ m < K, |F m| ≤ (O : ℤ)) (hG : ∀ m < K, |G m| ≤ (O : ℤ)) (hZ : |Z p| ≤ (O : ℤ)) :
    |phaseSum q κ inc K F G Z p| ≤ (2 * K + 1) * O * A := by
  unfold phaseSum
  have h1 : |∑ m ∈ Finset.range K, (F m * q (p + m * inc) + G m * q (inc - p + m * inc))| ≤ ∑ m ∈ Finset.range K, (2 * O * A : ℤ) := by
    refine (Finset.abs_sum_le_sum_abs _ _).trans (Finset.sum_le_sum (fun m hm => ?_))
    have hm := Finset.mem_range.1 hm
    refine (abs_add_le _ _).trans ?_
    rw [abs_mul, abs_mul]
    have a := mul_le_mul (hF m hm) (hq (p + m * inc)) (abs_nonneg _) (by positivity)
    have b := mul_le_mul (hG m hm) (hq (inc - p + m * inc)) (abs_nonneg _) (by positivity)
    linarith
  rw [Finset.sum_const, Finset.card_range, nsmul_eq_mul] at h1
  have h2 : |(κ : ℤ) * Z p| ≤ A * O := by
    rw [abs_mul, abs_of_nonneg (by positivity : (0 : ℤ) ≤ (κ : ℤ))]
    exact mul_le_mul (by exact_mod_cast hκ) hZ (abs_nonneg _) (by positivity)
  have := abs_sub (∑ m ∈ Finset.range K, (F m * q (p + m * inc) + G m * q (inc - p + m * inc))) ((κ : ℤ) * Z p)
  nlinarith

theorem phase_close {q : ℕ → ℤ} {A κ : ℕ} (hA : 0 < A) (hκ : κ ≤ A) (hq : ∀ i, |q i| ≤ (A : ℤ)) (inc K : ℕ) {F G Z : ℕ → ℤ} {B p : ℕ} (hB : |phaseSum q κ inc K F G Z p| ≤ (B : ℤ))
    {u v : ℕ → ℝ} {w e S : ℝ} (hS : 0 < S) (hu : ∀ m < K, |(F m : ℝ) / S - u m| ≤ e) (hv : ∀ m < K, |(G m : ℝ) / S - v m| ≤ e) (hw : |(Z p : ℝ) / S - w| ≤ e) :
    |∑ m ∈ Finset.range K, (u m * ((q (p + m * inc) : ℝ) / A) + v m * ((q (inc - p + m * inc) : ℝ) / A)) - κ / A * w| ≤ B / (A * S) + (2 * K + 1) * e := by
  have rA : (0 : ℝ) < A := by exact_mod_cast hA
  have hq' : ∀ i, |(q i : ℝ) / A| ≤ 1 := fun i => by
    rw [abs_div, abs_of_pos rA, div_le_one rA]
    exact_mod_cast hq i
  have e0 : 0 ≤ e := (abs_nonneg _).trans hw
  have k0 : (0 : ℝ) ≤ κ / A := by positivity
  have k1 : (κ : ℝ) / A ≤ 1 := by
    rw [div_le_one rA]
    exact_mod_cast hκ
  have hw' : |κ / A * ((Z p : ℝ) / S) - κ / A * w| ≤ e := by
    rw [← mul_sub, abs_mul, abs_of_nonneg k0]
    nlinarith [abs_nonneg ((Z p : ℝ) / S - w)]
  have h1 : (phaseSum q κ inc K F G Z p : ℝ) / (A * S) =
      ∑ m ∈ Finset.range K, ((F m : ℝ) / S * ((q (p + m * inc) : ℝ) / A) + (G m : ℝ) / S * ((q (inc - p + m * inc) : ℝ) / A)) - κ / A * (Z p / S) := by
    unfold phaseSum
    push_cast
    rw [sub_div, Finset.sum_div]
    congr 1
    · exact Finset.sum_congr rfl (fun m _ => by field_simp)
    · field_simp
  have h2 : |(phaseSum q κ inc K F G Z p : ℝ) / (A * S)| ≤ B / (A * S) := by
    rw [abs_div, abs_of_pos (mul_pos rA hS)]
    gcongr
    exact_mod_cast hB
  have h3 : |∑ m ∈ Finset.range K, ((F m : ℝ) / S * ((q (p + m * inc) : ℝ) / A) + (G m : ℝ) / S * ((q (inc - p + m * inc) : ℝ) / A)) -
      ∑ m ∈ Finset.range K, (u m * ((q (p + m * inc) : ℝ) / A) + v m * ((q (inc - p + m * inc) : ℝ) / A))| ≤ ∑ m ∈ Finset.range K, 2 * e := by
    rw [← Finset.sum_sub_distrib]
    refine (Finset.abs_sum_le_sum_abs _ _).trans (Finset.sum_le_sum (fun m hm => ?_))
    have hm := Finset.mem_range.1 hm
    rw [show ∀ a b c d x y : ℝ, a * x + b * y - (c * x + d * y) = (a - c) * x + (b - d) * y by intros; ring]
    refine (abs_add_le _ _).trans ?_
    rw [abs_mul, abs_mul]
    have a := mul_le_mul (hu m hm) (hq' (p + m * inc)) (abs_nonneg _) e0
    have b := mul_le_mul (hv m hm) (hq' (inc - p + m * inc)) (abs_nonneg _) e0
    linarith
  rw [Finset.sum_const, Finset.card_range, nsmul_eq_mul] at h3
  rw [h1] at h2
  rw [abs_le] at *
  constructor <;> linarith

section
variable {l : List ℤ} {A : ℕ} (hA : ∀ i, |l.getD i 0| ≤ (A : ℤ)) (hA0 : 0 < A) {T inc K O w c B : ℕ} (hO : (O : ℝ) = 2 ^ 61) (hT : 2 ^ w = T) (hc : c + 1 ≤ w) (hB : B < 2 ^ c)
  (hH : (2 * K + 1) * O * A + 2 ^ c < 2 ^ (w - 1))
include hA hA0 hO hT hc hB hH

theorem checkAt_sound {κ : ℕ} (hκ : κ ≤ A) {zs ws : List (ℕ × ℕ)} {R I : ℕ} {α e : ℝ} (hR : R = pack T (zs.map Prod.fst)) (hI : I = pack T (zs.map Prod.snd)) (hz : zs.length = inc + 1) (hw : ws.length = K + 1) (he : e ≤ 1)
    (nz : ∀ p ≤ inc, Near e (p * α) (zs.getD p (0, 0)).1 (zs.getD p (0, 0)).2) (nw : ∀ m ≤ K, Near e (m * (inc * α)) (ws.getD m (0, 0)).1 (ws.getD m (0, 0)).2)
    (h : checkAt ⟨A, O, w, c⟩ (packed A T inc K l) K B κ R I ws = true) (p : ℕ) (hp : p ≤ inc) :
    |errCos (fun i => (l.getD i 0 : ℝ) / A) inc K (κ / A) α p| ≤ B / (A * 2 ^ 60) + (2 * K + 1) * e ∧
    |errSin (fun i => (l.getD i 0 : ℝ) / A) inc K (κ / A) α p| ≤ B / (A * 2 ^ 60) + (2 * K + 1) * e := by
  unfold checkAt at h
  rw [Bool.and_eq_true] at h
  obtain ⟨h1, h2⟩ := h
  have hHz : ((2 * K + 1) * O * A : ℤ) ≤ (((2 * K + 1) * O * A : ℕ) : ℤ) := by push_cast; exact le_rfl
  have az := fun p hp => near_abs (nz p hp) he
  have aw := fun m hm => near_abs (nw m hm) he
  have v1 := value_sound hA T inc K hT hR hz hw hc hB hH (fun p hp => (phase_le hκ hA inc K (O := O) (fun m hm => (coord_abs hO (aw m (by omega)).1).1)
    (fun m hm => (coord_abs hO (aw (m + 1) (by omega)).1).1) (coord_abs hO (az p hp).1).1).trans hHz) h1 p hp
  have v2 := value_sound hA T inc K hT hI hz hw hc hB hH (f := fun a => Nat.sub (Nat.mul 2 O) a.2) (fun p hp => (phase_le hκ hA inc K (O := O) (fun m hm => by
      obtain ⟨c1, c2⟩ := coord_abs hO (aw m (by omega)).2
      show |((2 * O - (ws.getD m (0, 0)).2 : ℕ) : ℤ) - (O : ℤ)| ≤ _
      rw [abs_le] at c1 ⊢
      omega)
    (fun m hm => (coord_abs hO (aw (m + 1) (by omega)).2).1) (coord_abs hO (az p hp).2).1).trans hHz) h2 p hp
  have p60 : (0 : ℝ) < 2 ^ 60 := by positivity
  constructor
  · refine phase_close hA0 hκ hA inc K v1 p60 (u := fun m => Real.cos (m * (inc * α))) (v := fun m => Real.cos ((m + 1) * (inc * α))) (fun m hm => ?_) (fun m hm => ?_) ?_
    · rw [coord_int hO]; exact (nw m (by omega)).re
    · rw [coord_int hO]
      have := (nw (m + 1) (by omega)).re
      push_cast at this
      exact this
    · rw [coord_int hO]; exact (nz p hp).re
  · refine phase_close hA0 hκ hA inc K v2 p60 (u := fun m => -Real.sin (m * (inc * α))) (v := fun m => Real.sin ((m + 1) * (inc * α))) (fun m hm => ?_) (fun m hm => ?_) ?_
    · have := coord_neg hO (coord_abs hO (aw m (by omega)).2).2
      rw [show Nat.sub (Nat.mul 2 O) (ws.getD m (0, 0)).2 = 2 * O - (ws.getD m (0, 0)).2 from rfl, this]
      rw [show ∀ a b : ℝ, -a - -b = -(a - b) by intros; ring, abs_neg]
      exact (nw m (by omega)).im
    · rw [coord_int hO]
      have := (nw (m + 1) (by omega)).im
      push_cast at this
      exact this
    · rw [coord_int hO]; exact (nz p hp).im

/-- All frequencies of a run of the check. -/
theorem checkAll_sound {L x y a' b' : ℕ} (hw60 : 126 ≤ w) (hL : inc + 1 ≤ 2 ^ L) {f φ E e : ℝ} (hy : Near f φ x y) (hf : f ≤ 1 / 8) (hE : 0 ≤ E)
    (he1 : (17 / 8) ^ L * (E + 2 / 2 ^ 60) ≤ e / ((K + 1) * 3)) (hge : 2 / 2 ^ 60 * ((K + 1) * 3) ≤ e) (he : e ≤ 1 / 8) :
    ∀ (ks : List ℕ) (a b : ℕ) (ε θ : ℝ), Near ε θ a b → ε + ks.length * (2 * f + 2 / 2 ^ 60) ≤ E →
    checkAll ⟨A, O, w, c⟩ (packed A T inc K l) L inc K B x y a' b' ks a b = true →
    Near (ε + ks.length * (2 * f + 2 / 2 ^ 60)) (θ + ks.length * φ) a' b' ∧ ∀ j < ks.length, ks.getD j 0 ≤ A ∧ ∀ p ≤ inc,
      |errCos (fun i => (l.getD i 0 : ℝ) / A) inc K (((ks.getD j 0 : ℕ) : ℝ) / A) (θ + j * φ) p| ≤ B / (A * 2 ^ 60) + (2 * K + 1) * e ∧
      |errSin (fun i => (l.getD i 0 : ℝ) / A) inc K (((ks.getD j 0 : ℕ) : ℝ) / A) (θ + j * φ) p| ≤ B / (A * 2 ^ 60) + (2 * K + 1) * e := by
  have f0 : 0 ≤ f := (norm_nonneg _).trans hy
  have k0 : (0 : ℝ) ≤ K := Nat.cast_nonneg _
  have e0 : 0 ≤ e := le_trans (by positivity) hge
  have hk3 : e / ((K + 1) * 3) ≤ e / 3 := by
    apply div_le_div_of_nonneg_left e0 (by norm_num)
    nlinarith
  have one : (1 : ℝ) ≤ (17 / 8) ^ L := one_le_pow₀ (by norm_num)
  have hE8 : E ≤ 1 / 8 := by
    have : (0 : ℝ) ≤ 2 / 2 ^ 60 := by positivity
    nlinarith
  intro ks
  induction ks with
  | nil =>
    intro a b ε θ hn _ h
    simp only [checkAll, Bool.and_eq_true] at h
    have h1 : a = a' := Nat.eq_of_beq_eq_true h.1
    have h2 : b = b' := Nat.eq_of_beq_eq_true h.2
    subst h1; subst h2
    refine ⟨by simpa using hn, fun j hj => by simp at hj⟩
  | cons κ ks ih =>
    intro a b ε θ hn hεE h
    rw [List.length_cons] at hεE ⊢
    obtain ⟨n, hln⟩ : ∃ n, n = ks.length := ⟨_, rfl⟩
    rw [← hln] at hεE ih ⊢
    have ε0 : 0 ≤ ε := (norm_nonneg _).trans hn
    have g0 : 0 ≤ 2 * f + 2 / 2 ^ 60 := by positivity
    push_cast at hεE
    have hεE' : ε ≤ E := by nlinarith [(Nat.cast_nonneg n : (0 : ℝ) ≤ n)]
    have hsm : (17 / 8) ^ L * (ε + 2 / 2 ^ 60) ≤ e / ((K + 1) * 3) := by
      refine le_trans ?_ he1
      exact mul_le_mul_of_nonneg_left (by linarith) (by positivity)
    obtain ⟨Rw, hRw⟩ : ∃ r, r = 2 ^ (w - 60) := ⟨_, rfl⟩
    have hTR : 1152921504606846976 * Rw = T := by
      rw [hRw, ← hT, show 2 ^ w = 2 ^ 60 * 2 ^ (w - 60) by rw [← pow_add]; congr 1; omega]
      norm_num
    rw [checkAll, force_eq, force_eq, Bool.and_eq_true, Bool.and_eq_true] at h
    obtain ⟨⟨hκ, h1⟩, h2⟩ := h
    have hκ : κ ≤ A := Nat.le_of_ble_eq_true hκ
    obtain ⟨r1, r2⟩ := ih _ _ _ _ (hn.mul hy (hεE'.trans hE8) hf) (by nlinarith) h2
    refine ⟨by
      have : ε + 2 * f + 2 / 2 ^ 60 + n * (2 * f + 2 / 2 ^ 60) = ε + ((n + 1 : ℕ) : ℝ) * (2 * f + 2 / 2 ^ 60) := by push_cast; ring
      rw [this, show θ + φ + n * φ = θ + ((n + 1 : ℕ) : ℝ) * φ by push_cast; ring] at r1
      exact r1, fun j hj => ?_⟩
    cases j with
    | succ j =>
      have := r2 j (by omega)
      rw [List.getD_cons_succ]
      rw [show θ + φ + j * φ = θ + ((j + 1 : ℕ) : ℝ) * φ by push_cast; ring] at this
      exact this
    | zero =>
    rw [Nat.cast_zero, zero_mul, add_zero, List.getD_cons_zero]
    refine ⟨hκ, ?_⟩
    obtain ⟨zs, z1, z2, z3⟩ := double_sound hRw (by omega) (φ := θ) (fun R I =>
      force (Nat.mod R (Nat.pow (Nat.pow 2 w) (Nat.succ inc))) fun R => force (Nat.mod I (Nat.pow (Nat.pow 2 w) (Nat.succ inc))) fun I =>
      force (Nat.div R (Nat.pow (Nat.pow 2 w) inc)) fun x => force (Nat.div I (Nat.pow (Nat.pow 2 w) inc)) fun y =>
      checkAt ⟨A, O, w, c⟩ (packed A T inc K l) K B κ R I (pows x y (K + 1) 3458764513820540928 2305843009213693952)) L
      [(3458764513820540928, 2305843009213693952)] a b ε (by
        intro p hp
        have : p = 0 := by simpa using hp
        subst this
        have := near_one
        rw [Nat.cast_zero, zero_mul]
        exact le_trans this ε0) (by simpa using hn) ε0 (by linarith)
    have q0 : ∀ v : ℕ, pack (1152921504606846976 * Rw) [v] = v := fun v => by
      rw [pack_cons]
      show v + _ * 0 = v
      simp
    have z5 := z3
    simp only [List.map_cons, List.map_nil, q0, List.length_cons, List.length_nil, Nat.zero_add, pow_one] at z5
    rw [hTR] at z5
    have em : Nat.sub (Nat.pow 2 (Nat.sub w 60)) 1 = Rw - 1 := by rw [hRw]; rfl
    have eT : Nat.pow 2 w = T := hT
    dsimp only at h1
    rw [eT, em] at h1
    rw [eT] at z5
    rw [z5] at h1
    have z6 := h1
    clear z3 z5 h1 h2 r1 r2 ih
    simp only [force_eq] at z6
    have zlen : inc + 1 ≤ zs.length := by
      rw [z1]
      simpa using hL
    obtain ⟨zt, hzt⟩ : ∃ t, t = zs.take (inc + 1) := ⟨_, rfl⟩
    have ztl : zt.length = inc + 1 := by rw [hzt, List.length_take]; omega
    have hTO : 2 * O < T := by
      have hO' : O = 2 ^ 61 := by exact_mod_cast hO
      rw [hO', ← hT, ← pow_succ']
      exact Nat.pow_lt_pow_right (by norm_num) (by omega)
    have small : ∀ z ∈ zs, z.1 < T ∧ z.2 < T := by
      intro z hz
      obtain ⟨t, ht⟩ := z2.all z hz
      obtain ⟨a1, a2⟩ := near_abs ht (by linarith)
      exact ⟨lt_of_le_of_lt (coord_abs hO a1).2 hTO, lt_of_le_of_lt (coord_abs hO a2).2 hTO⟩
    have s1 : ∀ z ∈ zs.map Prod.fst, z < T := fun z hz => by
      obtain ⟨u, hu, e⟩ := List.mem_map.1 hz
      rw [← e]; exact (small u hu).1
    have s2 : ∀ z ∈ zs.map Prod.snd, z < T := fun z hz => by
      obtain ⟨u, hu, e⟩ := List.mem_map.1 hz
      rw [← e]; exact (small u hu).2
    have m1 : Nat.mod (pack T (zs.map Prod.fst)) (Nat.pow T (Nat.succ inc)) = pack T (zt.map Prod.fst) := by
      have := pack_take T _ s1 (n := inc + 1) (by rw [List.length_map]; exact zlen)
      rw [← List.map_take, ← hzt] at this
      exact this
    have m2 : Nat.mod (pack T (zs.map Prod.snd)) (Nat.pow T (Nat.succ inc)) = pack T (zt.map Prod.snd) := by
      have := pack_take T _ s2 (n := inc + 1) (by rw [List.length_map]; exact zlen)
      rw [← List.map_take, ← hzt] at this
      exact this
    rw [m1, m2] at z6
    have g : ∀ k : ℕ × ℕ → ℕ, (∀ z ∈ zs.map k, z < T) → k (0, 0) = 0 → Nat.div (pack T (zt.map k)) (Nat.pow T inc) = k (zt.getD inc (0, 0)) := by
      intro k hk h0
      have := pack_last T (zt.map k) (fun z hz => hk z (by
        obtain ⟨u, hu, e⟩ := List.mem_map.1 hz
        rw [hzt] at hu
        exact List.mem_map.2 ⟨u, List.mem_of_mem_take hu, e⟩)) (n := inc) (by rw [List.length_map, ztl])
      rw [← h0, List.getD_map] at this
      exact this
    rw [g Prod.fst s1 rfl, g Prod.snd s2 rfl] at z6
    have nz : ∀ p ≤ inc, Near (e / ((K + 1) * 3)) (p * θ) (zt.getD p (0, 0)).1 (zt.getD p (0, 0)).2 := by
      intro p hp
      have := z2 p (by omega)
      have e2 : zt.getD p (0, 0) = zs.getD p (0, 0) := by
        rw [hzt, List.getD_eq_getElem?_getD, List.getElem?_take_of_lt (by omega), List.getD_eq_getElem?_getD]
      rw [e2]
      exact le_trans this hsm
    have hw := nz inc le_rfl
    generalize zt.getD inc (0, 0) = wp at z6 hw
    obtain ⟨w1, w2⟩ := wp
    dsimp only at z6 hw
    have hK3 : (K + 1 : ℝ) * (2 * (e / ((K + 1) * 3)) + 2 / 2 ^ 60) ≤ e := by
      have : (K + 1 : ℝ) * (2 * (e / ((K + 1) * 3))) = 2 / 3 * e := by field_simp
      rw [mul_add, this]
      nlinarith
    have nw0 := fun m hm => pows_near hw (by linarith) (K + 1) near_one (by push_cast; linarith) m hm
    have nw : ∀ m ≤ K, Near e (m * (inc * θ)) ((pows w1 w2 (K + 1) 3458764513820540928 2305843009213693952).getD m (0, 0)).1
        ((pows w1 w2 (K + 1) 3458764513820540928 2305843009213693952).getD m (0, 0)).2 := by
      intro m hm
      have h := nw0 m (by omega)
      rw [zero_add ((m : ℝ) * (inc * θ))] at h
      refine le_trans h (le_trans ?_ hK3)
      rw [zero_add]
      apply mul_le_mul_of_nonneg_right _ (by positivity)
      have : (m : ℝ) ≤ K := by exact_mod_cast hm
      linarith
    exact checkAt_sound hA hA0 hO hT hc hB hH hκ rfl rfl ztl (pows_length _ _ _ _ _) (by linarith) (fun p hp => le_trans (nz p hp) (by linarith)) nw z6


end

end Verif.Sine
