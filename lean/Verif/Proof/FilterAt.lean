import Verif.Proof.FilterSum

/-! One output sample of a sinc converter against exact arithmetic. -/

namespace Verif
open Spec

section
variable {N inc B : ℤ} (G : Geom N inc B)
include G

theorem Geom.window {ρ i : ℚ} {D : ℤ} (hρ : 1 / 256 ≤ ρ) (i0 : 0 ≤ i) (i1 : i < 1) (hD : 0 ≤ D) :
    Window N (rne (sincInc inc ρ * 4096)) (rne (r64 (i * sincInc inc ρ) * 4096)) D := by
  obtain ⟨a1, a2⟩ := G.incr_bounds hρ
  obtain ⟨b1, b2⟩ := G.start_bounds hρ i0 i1
  have := G.inc1; have := G.n1
  exact ⟨by omega, by omega, b1, b2, hD⟩

/-- The number of taps times the scale. -/
theorem Geom.taps_scale (hN : N ≤ 143 * inc) {ρ : ℚ} (hρ : 1 / 256 ≤ ρ) :
    ((4096 * N / rne (sincInc inc ρ * 4096) + 2 : ℤ) : ℚ) * (sincInc inc ρ / inc) ≤ 150 ∧
      0 ≤ 4096 * N / rne (sincInc inc ρ * 4096) ∧ 4096 * N / rne (sincInc inc ρ * 4096) + 2 ≤ 2 ^ 16 := by
  obtain ⟨a1, a2⟩ := G.incr_bounds hρ
  obtain ⟨f1, f2⟩ := G.sincInc_bounds hρ
  have hx := abs_rne_sub_le (sincInc inc ρ * 4096)
  rw [abs_le] at hx
  have h1 := G.inc1; have h2 := G.n1
  have q1 : (1 : ℚ) ≤ inc := by exact_mod_cast h1
  have hNq : (N : ℚ) ≤ 143 * inc := by exact_mod_cast hN
  have hN0 : (0 : ℚ) ≤ N := by exact_mod_cast (by omega : 0 ≤ N)
  have a1q : 16 * (inc : ℚ) ≤ (rne (sincInc inc ρ * 4096) : ℚ) := by exact_mod_cast a1
  generalize sincInc inc ρ = fi at *
  generalize rne (fi * 4096) = c at *
  have hc : 0 < c := by omega
  have cq : (0 : ℚ) < c := by exact_mod_cast hc
  have hdiv : ((4096 * N / c : ℤ) : ℚ) ≤ 4096 * N / c := by
    rw [le_div_iff₀ cq]
    exact_mod_cast Int.ediv_mul_le _ (by omega)
  refine ⟨?_, Int.ediv_nonneg (by omega) (by omega), ?_⟩
  · push_cast
    have hfi0 : 0 ≤ fi / inc := by apply div_nonneg <;> linarith
    have hfi1 : fi / inc ≤ 1 := by rw [div_le_one (by linarith)]; exact f2
    have hfc : fi / inc ≤ 33 / 32 * c / (4096 * inc) := by
      rw [div_le_div_iff₀ (by linarith) (by linarith)]
      nlinarith
    have : 4096 * (N : ℚ) / c * (fi / inc) ≤ 148 := by
      calc 4096 * (N : ℚ) / c * (fi / inc) ≤ 4096 * (N : ℚ) / c * (33 / 32 * c / (4096 * inc)) :=
            mul_le_mul_of_nonneg_left hfc (by positivity)
        _ = 33 / 32 * (N / inc) := by field_simp
        _ ≤ 33 / 32 * 143 := by
            apply mul_le_mul_of_nonneg_left _ (by norm_num)
            rw [div_le_iff₀ (by linarith)]; exact hNq
        _ ≤ 148 := by norm_num
    have : ((4096 * N / c : ℤ) : ℚ) * (fi / inc) ≤ 148 := (mul_le_mul_of_nonneg_right hdiv hfi0).trans this
    linarith
  · have : 4096 * N / c ≤ 36608 := by
      have := Int.ediv_lt_of_lt_mul hc (a := 4096 * N) (b := 36609) (by nlinarith)
      omega
    omega

/-- Output sample against the exact one: before the final rounding to float they differ by no more than `300 * (ε + 2^-33)` times the
magnitude of the input. -/
theorem Geom.sincAt_val (hN : N ≤ 143 * inc) {co : ℤ → F32} {q : ℤ → ℚ} {ε : ℚ} (ε0 : 0 ≤ ε) (ε1 : ε ≤ 1 / 1000) (h1 : ∀ j, |q j| ≤ 1)
    (hc : ∀ fi, ∃ h, (sincCoeff co fi).val = some h ∧ |h - response q fi| ≤ ε) {ρ i : ℚ} {D : ℤ} (hρ : 1 / 256 ≤ ρ) (i0 : 0 ≤ i) (i1 : i < 1)
    (hD : 0 ≤ D) {x : ℤ → F32} {ξ : ℤ → ℚ} {e : ℤ} (he : -900 ≤ e) (he' : e ≤ 64)
    (hx : ∀ k, UnderFilter N inc ρ i D k → (x k).val = some (ξ k) ∧ |ξ k| ≤ p2 e) :
    ∃ z, (sincAt co N inc ρ i D x).val = some (rq f32 z) ∧ |z - exactAt q N inc ρ i D ξ| ≤ 300 * (ε + p2 (-33)) * p2 e ∧
      |exactAt q N inc ρ i D ξ| ≤ 300 * p2 e := by
  have W := G.window hρ i0 i1 hD
  obtain ⟨t1, t2, t3⟩ := G.taps_scale hN hρ
  obtain ⟨f1, f2⟩ := G.sincInc_bounds hρ
  obtain ⟨l, r, el, er, d1, d2, d3, d4⟩ := W.halves (n := (4096 * N / rne (sincInc inc ρ * 4096) + 2).toNat) ε0 (by linarith) h1 hc he he'
    (fun k k1 k2 => hx k ⟨k1, k2⟩) (by omega) (by omega)
  have hnq : (((4096 * N / rne (sincInc inc ρ * 4096) + 2).toNat : ℕ) : ℚ) = ((4096 * N / rne (sincInc inc ρ * 4096) + 2 : ℤ) : ℚ) := by
    rw [← Int.cast_natCast, Int.toNat_of_nonneg (by omega)]
  rw [hnq] at d1 d2 d3 d4
  unfold sincAt sincOut exactAt
  simp only
  have hn16 : ((4096 * N / rne (sincInc inc ρ * 4096) + 2 : ℤ) : ℚ) ≤ 65536 := by exact_mod_cast t3
  have hn0 : (0 : ℚ) ≤ ((4096 * N / rne (sincInc inc ρ * 4096) + 2 : ℤ) : ℚ) := by exact_mod_cast (by omega : 0 ≤ 4096 * N / rne (sincInc inc ρ * 4096) + 2)
  generalize ((4096 * N / rne (sincInc inc ρ * 4096) + 2 : ℤ) : ℚ) = n at *
  generalize exactSum q N (rne (sincInc inc ρ * 4096)) (rne (r64 (i * sincInc inc ρ) * 4096)) D ξ = E at *
  generalize sincLeft co N (rne (sincInc inc ρ * 4096)) (rne (r64 (i * sincInc inc ρ) * 4096)) D (fun k => Fl.conv f64 (x k)) = L at *
  generalize sincRight co N (rne (sincInc inc ρ * 4096)) (rne (r64 (i * sincInc inc ρ) * 4096)) (fun k => Fl.conv f64 (x k)) = R at *
  have q1 : (1 : ℚ) ≤ inc := by exact_mod_cast G.inc1
  have φ0 : 0 ≤ sincInc inc ρ / inc := by apply div_nonneg <;> linarith
  have φ1 : sincInc inc ρ / inc ≤ 1 := by rw [div_le_one (by linarith)]; exact f2
  generalize sincInc inc ρ / inc = φ at *
  have hV := p2_pos e
  have hV64 : p2 e ≤ 2 ^ 64 := (p2_le he').trans (by norm_num [p2])
  have e33 : p2 (-33) = 1 / 8589934592 := by norm_num [p2]
  have e34 : p2 (-34) = 1 / 17179869184 := by norm_num [p2]
  have e35 : p2 (-35) = 1 / 34359738368 := by norm_num [p2]
  have e44 : p2 (-44) = 1 / 17592186044416 := by norm_num [p2]
  generalize hVd : p2 e = V at *
  have hnV : n * V ≤ 65536 * V := mul_le_mul_of_nonneg_right hn16 hV.le
  -- scale
  have hσ : (Fl.round f64 φ).val = some (r64 φ) := Fl.val_round (fin64 (by rw [abs_of_nonneg φ0]; linarith))
  have hσe := abs_rq_sub_le_of_lt (f := f64) (q := φ) (k := 1) (by rw [abs_of_nonneg φ0]; norm_num [p2]; linarith) (by decide)
  have hσe' : |r64 φ - φ| ≤ 1 / 9007199254740992 := hσe.trans (by norm_num [p2, f64])
  -- sum
  have hs : |l + r| ≤ 400000 * V := by rw [abs_le] at *; constructor <;> linarith
  have hadd := add64 el er (hs.trans (by linarith))
  have hse := abs_rq_sub_le_of_lt (f := f64) (k := e + 19) (lt_of_le_of_lt hs (by rw [p2_add, hVd]; norm_num [p2]; linarith)) (by show (-1074 + 53 : ℤ) ≤ _; omega)
  have eA : p2 (e + 19 - (f64.prec : ℤ) - 1) = V * p2 (-35) := by
    rw [show e + 19 - (f64.prec : ℤ) - 1 = e + (-35) by show e + 19 - 53 - 1 = _; ring, p2_add, hVd]
  rw [eA, e35] at hse
  generalize r64 (l + r) = s at *
  -- exact value
  have hφE : |φ * E| ≤ 300 * V := by
    rw [abs_mul, abs_of_nonneg φ0]
    calc φ * |E| ≤ φ * (2 * n * V) := mul_le_mul_of_nonneg_left d4 φ0
      _ = 2 * (n * φ) * V := by ring
      _ ≤ 2 * 150 * V := by apply mul_le_mul_of_nonneg_right _ hV.le; linarith
      _ = 300 * V := by ring
  have hφd : |φ * (l + r) - φ * E| ≤ 300 * ((ε + p2 (-34)) * V) := by
    rw [← mul_sub, abs_mul, abs_of_nonneg φ0]
    have : 0 ≤ (ε + p2 (-34)) * V := by rw [e34]; positivity
    calc φ * |l + r - E| ≤ φ * (2 * n * ((ε + p2 (-34)) * V)) := mul_le_mul_of_nonneg_left d1 φ0
      _ = 2 * (n * φ) * ((ε + p2 (-34)) * V) := by ring
      _ ≤ 2 * 150 * ((ε + p2 (-34)) * V) := by apply mul_le_mul_of_nonneg_right _ this; linarith
      _ = _ := by ring
  have hφs : |φ * s - φ * (l + r)| ≤ V * (1 / 34359738368) := by
    rw [← mul_sub, abs_mul, abs_of_nonneg φ0]
    calc φ * |s - (l + r)| ≤ 1 * (V * (1 / 34359738368)) := mul_le_mul φ1 hse (abs_nonneg _) (by norm_num)
      _ = _ := one_mul _
  have hs' : |s| ≤ 500000 * V := by rw [abs_le] at *; constructor <;> linarith
  have hσs : |r64 φ * s - φ * s| ≤ V * (1 / 17179869184) := by
    rw [← sub_mul, abs_mul]
    calc |r64 φ - φ| * |s| ≤ 1 / 9007199254740992 * (500000 * V) := mul_le_mul hσe' hs' (abs_nonneg _) (by norm_num)
      _ ≤ _ := by linarith
  have hεV : ε * V ≤ V / 1000 := by nlinarith
  rw [e34] at hφd
  have hprod : |r64 φ * s| ≤ 500 * V := by rw [abs_le] at *; constructor <;> linarith
  have hmul := mul64 hσ hadd (hprod.trans (by linarith))
  have hme := abs_rq_sub_le_of_lt (f := f64) (k := e + 10) (lt_of_le_of_lt hprod (by rw [p2_add, hVd]; norm_num [p2]; linarith)) (by show (-1074 + 53 : ℤ) ≤ _; omega)
  have eM : p2 (e + 10 - (f64.prec : ℤ) - 1) = V * p2 (-44) := by
    rw [show e + 10 - (f64.prec : ℤ) - 1 = e + (-44) by show e + 10 - 53 - 1 = _; ring, p2_add, hVd]
  rw [eM, e44] at hme
  generalize hz : r64 (r64 φ * s) = z at *
  have hzb : |z| ≤ 1000 * V := by rw [abs_le] at *; constructor <;> linarith
  refine ⟨z, Fl.val_conv hmul ?_, ?_, hφE⟩
  · refine Fl.abs_rq_lt_emax (f := f32) (k := 100) (by decide) (by decide) (hzb.trans ?_)
    calc 1000 * V ≤ 1000 * 2 ^ 64 := by linarith
      _ ≤ p2 100 := by norm_num [p2]
  · rw [e33]
    rw [abs_le] at *
    constructor <;> linarith

end

end Verif
