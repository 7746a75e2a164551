import Verif.Proof.TableAt

/-! The computed output sample against the filter in exact arithmetic, for bounds that are not powers of two. -/

namespace Verif
open Spec

theorem exists_pow {u : ℚ} (h0 : 0 ≤ u) (h1 : u ≤ 2 ^ 63) : ∃ e : ℤ, -900 ≤ e ∧ e ≤ 64 ∧ u ≤ p2 e ∧ p2 e ≤ 2 * u + p2 (-900) := by
  rcases lt_or_ge u (p2 (-900)) with h | h
  · exact ⟨-900, le_rfl, by norm_num, h.le, by linarith⟩
  · have hu : 0 < u := lt_of_lt_of_le (p2_pos _) h
    have a := Int.zpow_log_le_self (b := 2) (by norm_num) hu
    have b := Int.lt_zpow_succ_log_self (b := 2) (by norm_num) u
    have hp : ∀ k : ℤ, ((2 : ℕ) : ℚ) ^ k = p2 k := fun k => by unfold p2; norm_num
    rw [hp] at a b
    have l1 : Int.log 2 u ≤ 63 := by
      by_contra hc
      have := p2_le (a := 64) (b := Int.log 2 u) (by omega)
      have e64 : p2 64 = 2 ^ 64 := by norm_num [p2]
      rw [e64] at this
      norm_num at this h1
      linarith
    have l2 : -901 ≤ Int.log 2 u := by
      by_contra hc
      have := p2_le (a := Int.log 2 u + 1) (b := -900) (by omega)
      linarith
    refine ⟨Int.log 2 u + 1, by omega, by omega, b.le, ?_⟩
    rw [p2_add, show p2 1 = 2 by norm_num [p2]]
    have := p2_pos (-900)
    linarith

/-- Rounding to float: relative error `2^-24`, or absolute error `2^-150` below the normal range. -/
theorem rq32_err (z : ℚ) : |rq f32 z - z| ≤ |z| / 16777216 + p2 (-150) := by
  rcases eq_or_ne z 0 with rfl | hz
  · have := p2_pos (-150); simp [this.le]
  have hz' : 0 < |z| := abs_pos.2 hz
  have a := Int.zpow_log_le_self (b := 2) (by norm_num) hz'
  have b := Int.lt_zpow_succ_log_self (b := 2) (by norm_num) |z|
  have hp : ∀ k : ℤ, ((2 : ℕ) : ℚ) ^ k = p2 k := fun k => by unfold p2; norm_num
  rw [hp] at a b
  have h0 := p2_pos (-150)
  rcases le_or_gt (-126) (Int.log 2 |z|) with hl | hl
  · have := abs_rq_sub_le_of_lt (f := f32) (k := Int.log 2 |z| + 1) b (by show (-149 + 24 : ℤ) ≤ _; omega)
    refine this.trans ?_
    rw [show Int.log 2 |z| + 1 - (f32.prec : ℤ) - 1 = Int.log 2 |z| + (-24) by show _ + 1 - 24 - 1 = _; ring, p2_add, show p2 (-24) = 1 / 16777216 by norm_num [p2]]
    linarith
  · have hb : |z| < p2 (-125) := lt_of_lt_of_le b (p2_le (by omega))
    have := abs_rq_sub_le_of_lt (f := f32) (k := -125) hb (by decide)
    refine this.trans ?_
    rw [show (-125 : ℤ) - (f32.prec : ℤ) - 1 = -150 by decide]
    have := abs_nonneg z
    linarith

theorem tapSum_coeff_congr {h h' x : ℕ → F64} : ∀ n : ℕ, (∀ j < n, h j = h' j) → tapSum n h x = tapSum n h' x
  | 0, _ => rfl
  | n + 1, H => by
    unfold tapSum
    rw [tapSum_coeff_congr n (fun j hj => H j (by omega)), H n (by omega)]

theorem sincCoeff_congr {co co' : ℤ → F32} {N p : ℤ} (H : ∀ i, 0 ≤ i → i ≤ N + 1 → co i = co' i) (p0 : 0 ≤ p) (p1 : p ≤ 4096 * N) :
    sincCoeff co p = sincCoeff co' p := by
  unfold sincCoeff
  rw [H _ (by omega) (by omega), H _ (by omega) (by omega)]

section
variable {N incr start D : ℤ} (W : Window N incr start D)
include W

theorem Window.left_congr {co co' : ℤ → F32} (H : ∀ i, 0 ≤ i → i ≤ N + 1 → co i = co' i) (x : ℤ → F64) :
    sincLeft co N incr start D x = sincLeft co' N incr start D x := by
  unfold sincLeft
  simp only
  obtain ⟨a0, -, -⟩ := W.a_bounds
  have i1 := W.i1; have s0 := W.s0
  have ha : min ((4096 * N - start) / incr) D ≤ (4096 * N - start) / incr := min_le_left _ _
  have hm := Int.ediv_mul_le (4096 * N - start) (b := incr) (by omega)
  generalize min ((4096 * N - start) / incr) D = a at *
  apply tapSum_coeff_congr
  intro j hj
  apply sincCoeff_congr H
  · have h1 := Int.ediv_mul_le (start + a * incr) (b := incr) (by omega)
    have h2 : (j : ℤ) ≤ (start + a * incr) / incr := by omega
    nlinarith
  · nlinarith

theorem Window.right_congr {co co' : ℤ → F32} (H : ∀ i, 0 ≤ i → i ≤ N + 1 → co i = co' i) (x : ℤ → F64) :
    sincRight co N incr start x = sincRight co' N incr start x := by
  unfold sincRight
  simp only
  obtain ⟨-, b0, -⟩ := W.a_bounds
  have i1 := W.i1; have s1 := W.s1
  have hm := Int.ediv_mul_le (4096 * N - (incr - start)) (b := incr) (by omega)
  generalize (4096 * N - (incr - start)) / incr = a at *
  apply tapSum_coeff_congr
  intro j hj
  apply sincCoeff_congr H
  · rcases Nat.eq_zero_or_pos j with rfl | hj0
    · simp; nlinarith
    · have h1 := Int.ediv_mul_le (incr - start + a * incr + incr - 1) (b := incr) (by omega)
      have h2 : (j : ℤ) + 1 ≤ (incr - start + a * incr + incr - 1) / incr := by omega
      nlinarith
  · have : 0 ≤ (j : ℤ) * incr := by positivity
    nlinarith

theorem Window.exact_congr {q q' : ℤ → ℚ} (H : ∀ i, 0 ≤ i → i ≤ N + 1 → q i = q' i) (ξ : ℤ → ℚ) :
    exactSum q N incr start D ξ = exactSum q' N incr start D ξ := by
  unfold exactSum
  refine Finset.sum_congr rfl (fun k _ => ?_)
  split_ifs with h
  · have h0 := abs_nonneg (k * incr - start)
    unfold response
    rw [H _ (by omega) (by omega), H _ (by omega) (by omega)]
  · rfl

end

section
variable {N inc B : ℤ} (G : Geom N inc B)
include G

theorem Geom.at_congr {co co' : ℤ → F32} (H : ∀ i, 0 ≤ i → i ≤ N + 1 → co i = co' i) {ρ i : ℚ} {D : ℤ} (hρ : 1 / 256 ≤ ρ) (i0 : 0 ≤ i) (i1 : i < 1) (hD : 0 ≤ D)
    (x : ℤ → F32) : sincAt co N inc ρ i D x = sincAt co' N inc ρ i D x := by
  have W := G.window hρ i0 i1 hD
  unfold sincAt sincOut
  simp only
  rw [W.left_congr H, W.right_congr H]

theorem Geom.exact_congr {q q' : ℤ → ℚ} (H : ∀ i, 0 ≤ i → i ≤ N + 1 → q i = q' i) {ρ i : ℚ} {D : ℤ} (hρ : 1 / 256 ≤ ρ) (i0 : 0 ≤ i) (i1 : i < 1) (hD : 0 ≤ D)
    (ξ : ℤ → ℚ) : exactAt q N inc ρ i D ξ = exactAt q' N inc ρ i D ξ := by
  unfold exactAt
  rw [(G.window hρ i0 i1 hD).exact_congr H]

/-- The computed sample against the exact one; `g` is a gain bound. -/
theorem Geom.near (hN : N ≤ 143 * inc) {co : ℤ → F32} {q : ℤ → ℚ} {ε : ℚ} (ε0 : 0 ≤ ε) (ε1 : ε ≤ 1 / 1000) (h1 : ∀ j, |q j| ≤ 1)
    (hc : ∀ fi, ∃ h, (sincCoeff co fi).val = some h ∧ |h - response q fi| ≤ ε) {ρ i : ℚ} {D : ℤ} (hρ : 1 / 256 ≤ ρ) (i0 : 0 ≤ i) (i1 : i < 1)
    (hD : 0 ≤ D) {x : ℤ → F32} {ξ : ℤ → ℚ} {u : ℚ} (u0 : 0 ≤ u) (u1 : u ≤ 2 ^ 63)
    (hx : ∀ k, UnderFilter N inc ρ i D k → (x k).val = some (ξ k) ∧ |ξ k| ≤ u) :
    ∃ y, (sincAt co N inc ρ i D x).val = some y ∧ |y - exactAt q N inc ρ i D ξ| ≤ 601 * (ε + p2 (-33)) * u + |exactAt q N inc ρ i D ξ| / 16777216 + p2 (-149) ∧
      |exactAt q N inc ρ i D ξ| ≤ 600 * u + p2 (-200) := by
  obtain ⟨e, e0, e1, e2, e3⟩ := exists_pow u0 u1
  obtain ⟨z, hz, h2, h3⟩ := G.sincAt_val hN ε0 ε1 h1 hc hρ i0 i1 hD e0 e1 (fun k hk => ⟨(hx k hk).1, (hx k hk).2.trans e2⟩)
  refine ⟨_, hz, ?_, ?_⟩
  · have hr := rq32_err z
    generalize exactAt q N inc ρ i D ξ = E at *
    generalize rq f32 z = y at *
    generalize p2 e = w at *
    have t1 : p2 (-900) ≤ p2 (-150) / 1000 := by
      have : p2 (-900) ≤ p2 (-160) := p2_le (by norm_num)
      have e : p2 (-160) = p2 (-150) * p2 (-10) := by rw [← p2_add]; norm_num
      have h := p2_pos (-150)
      rw [e, show p2 (-10) = 1 / 1024 by norm_num [p2]] at this
      linarith
    have t2 : p2 (-149) = 2 * p2 (-150) := by
      rw [show (-149 : ℤ) = -150 + 1 by norm_num, p2_add, show p2 1 = 2 by norm_num [p2]]; ring
    have t3 := p2_pos (-900)
    have e33 : p2 (-33) = 1 / 8589934592 := by norm_num [p2]
    have A0 : 0 ≤ ε + p2 (-33) := by rw [e33]; linarith
    have A1 : ε + p2 (-33) ≤ 1 / 500 := by rw [e33]; linarith
    generalize ε + p2 (-33) = A at *
    generalize p2 (-150) = T at *
    generalize p2 (-900) = s at *
    rw [t2]
    have k1 : 300 * A * w ≤ 600 * (A * u) + 300 * (A * s) := by nlinarith
    have k2 : A * s ≤ s / 500 := by nlinarith
    have k3 : 0 ≤ A * u := mul_nonneg A0 u0
    have k4 : |z| ≤ |E| + (600 * (A * u) + s) := by
      have := abs_sub_abs_le_abs_sub z E
      linarith
    have k5 : |y - E| ≤ |y - z| + |z - E| := abs_sub_le _ _ _
    linarith
  · refine h3.trans ?_
    have t1 : p2 (-900) ≤ p2 (-200) / 1000 := by
      have : p2 (-900) ≤ p2 (-210) := p2_le (by norm_num)
      have e : p2 (-210) = p2 (-200) * p2 (-10) := by rw [← p2_add]; norm_num
      have h := p2_pos (-200)
      rw [e, show p2 (-10) = 1 / 1024 by norm_num [p2]] at this
      linarith
    have t2 := p2_pos (-200)
    clear h3 h2
    generalize p2 (-900) = s at *
    generalize p2 (-200) = s' at *
    generalize p2 e = w at *
    linarith

end

end Verif
