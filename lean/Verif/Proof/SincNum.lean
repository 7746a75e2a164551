import Verif.Proof.Ratio
import Verif.Spec.Sinc
import Verif.Spec.Position
import Verif.Model.Sinc

/-! Numeric facts behind the sinc converters: reach of the filter, fixed point steps, ratio interpolation. -/

namespace Verif
open Spec

/-- What the proofs need to know about a coefficient table (`N` = `coeff_half_len`, `inc` = `index_inc`) and the buffer length
`B` in frames.  `Proof/SincTables` shows it for the tables of the library. -/
structure Geom (N inc B : ℤ) : Prop where
  inc1 : 1 ≤ inc
  incM : inc ≤ 4096
  n1 : 6 * inc ≤ N + 2
  nM : 4096 * N ≤ 1500000000
  key : 128 * (N + 2) ≤ inc * (8000 + 7 * inc)
  room : 3 * sincReach N inc (1 / 256) ≤ B
  bM : B ≤ 1000000

section
variable {N inc B : ℤ} (G : Geom N inc B)
include G

/-- (N+2)/inc as a rational -/
theorem Geom.q_bounds : (6 : ℚ) ≤ ((N + 2 : ℤ) : ℚ) / inc ∧ ((N + 2 : ℤ) : ℚ) / inc ≤ 366213 := by
  have h1 : (1 : ℚ) ≤ inc := by exact_mod_cast G.inc1
  have h2 : (6 : ℚ) * inc ≤ ((N + 2 : ℤ) : ℚ) := by exact_mod_cast G.n1
  have h3 : ((N + 2 : ℤ) : ℚ) ≤ 366213 := by
    have := G.nM
    have : N + 2 ≤ 366213 := by omega
    exact_mod_cast this
  constructor
  · rw [le_div_iff₀ (by linarith)]; exact h2
  · rw [div_le_iff₀ (by linarith)]; nlinarith

theorem Geom.n_bounds : 4 ≤ N ∧ N ≤ 366211 := by
  have := G.nM; have := G.n1; have := G.inc1; omega

theorem Geom.c0_bounds : (6 : ℚ) ≤ r64 (((N + 2 : ℤ) : ℚ) / inc) ∧ r64 (((N + 2 : ℤ) : ℚ) / inc) ≤ 366213 ∧
    |r64 (((N + 2 : ℤ) : ℚ) / inc) - ((N + 2 : ℤ) : ℚ) / inc| ≤ p2 (-34) := by
  obtain ⟨h1, h2⟩ := G.q_bounds
  refine ⟨le_rq (by simpa using rep64_nat (n := 6) (by norm_num)) h1,
    rq_le (by simpa using rep64_nat (n := 366213) (by norm_num)) h2, ?_⟩
  have := abs_rq_sub_le_of_lt (f := f64) (q := ((N + 2 : ℤ) : ℚ) / inc) (k := 20)
    (by rw [abs_of_nonneg (by linarith)]; norm_num [p2]; push_cast at h2; linarith) (by decide)
  simpa [f64] using this

theorem Geom.reach_anti {r r' : ℚ} (h0 : 0 < r) (h : r ≤ r') : sincReach N inc r' ≤ sincReach N inc r := by
  obtain ⟨c1, c2, -⟩ := G.c0_bounds
  have hrep : Rep0 f64 (r64 (((N + 2 : ℤ) : ℚ) / inc)) := rep0_rq _ _
  unfold sincReach
  simp only
  generalize r64 (((N + 2 : ℤ) : ℚ) / inc) = c at *
  have : rne (if r' < 1 then r64 (c / r') else c) ≤ rne (if r < 1 then r64 (c / r) else c) := by
    by_cases h1 : r < 1
    · by_cases h2 : r' < 1
      · rw [if_pos h1, if_pos h2]
        apply rne_mono
        apply rq_mono
        exact div_le_div_of_nonneg_left (by linarith) h0 h
      · rw [if_pos h1, if_neg h2]
        apply rne_mono
        apply le_rq hrep
        rw [le_div_iff₀ h0]
        nlinarith
    · rw [if_neg h1, if_neg (by linarith)]
  omega

theorem Geom.reach_le {r : ℚ} (h : 1 / 256 ≤ r) : 3 * sincReach N inc r ≤ B := by
  have := G.reach_anti (r := 1 / 256) (by norm_num) h
  have := G.room
  omega

/-- lower bound of the reach -/
theorem Geom.reach_lower {r : ℚ} (h : 1 / 256 ≤ r) :
    ((N + 2 : ℤ) : ℚ) / inc / min r 1 + 1 / 2 - 1 / 1000000 ≤ sincReach N inc r := by
  obtain ⟨c1, c2, c3⟩ := G.c0_bounds
  obtain ⟨q1, q2⟩ := G.q_bounds
  unfold sincReach
  simp only
  generalize ((N + 2 : ℤ) : ℚ) / inc = q at *
  generalize r64 q = c at *
  have hp : p2 (-34) ≤ 1 / 1000000000 := by norm_num [p2]
  have c3' := abs_le.1 (c3.trans hp)
  have hr0 : (0 : ℚ) < r := by linarith
  by_cases h1 : r < 1
  · rw [if_pos h1, min_eq_left h1.le]
    have hd : c / r ≤ p2 27 := by
      rw [div_le_iff₀ hr0]; norm_num [p2]; nlinarith
    have hd0 : 0 < c / r := div_pos (by linarith) hr0
    have he := abs_rq_sub_le_of_lt (f := f64) (q := c / r) (k := 28)
      (by rw [abs_of_pos hd0]; exact hd.trans_lt (p2_lt (by norm_num))) (by decide)
    have he' : |r64 (c / r) - c / r| ≤ 1 / 10000000 := he.trans (by norm_num [f64, p2])
    have hn := abs_rne_sub_le (r64 (c / r))
    rw [abs_le] at he' hn
    have hcq : q / r ≤ c / r + 256 / 1000000000 := by
      rw [div_add' _ _ _ hr0.ne', div_le_div_iff_of_pos_right hr0]
      nlinarith
    push_cast
    linarith
  · rw [if_neg h1, min_eq_right (by linarith)]
    have hn := abs_rne_sub_le c
    rw [abs_le] at hn
    push_cast
    rw [div_one]
    linarith

theorem Geom.reach_ge {r : ℚ} (h : 1 / 256 ≤ r) : 6 ≤ sincReach N inc r := by
  have h1 := G.reach_lower h
  obtain ⟨q1, -⟩ := G.q_bounds
  have hm : min r 1 ≤ 1 := min_le_right _ _
  have hm0 : (0 : ℚ) < min r 1 := lt_min (by linarith) (by norm_num)
  have : (6 : ℚ) ≤ ((N + 2 : ℤ) : ℚ) / inc / min r 1 := by
    rw [le_div_iff₀ hm0]; nlinarith
  have : (5 : ℚ) < sincReach N inc r := by linarith
  have : 5 < sincReach N inc r := by exact_mod_cast this
  omega

/-- The read position moves by less than half the reach. -/
theorem Geom.step_lt {r ρ i : ℚ} (h : 1 / 256 ≤ r) (hr : r ≤ 256) (hρ : (1 - p2 (-36)) * r ≤ ρ) (hρ' : 1 / 256 ≤ ρ) (i0 : 0 ≤ i) (i1 : i < 1) :
    2 * ⌊r64 (i + r64 (1 / ρ))⌋ + 2 ≤ sincReach N inc r := by
  have hl := G.reach_lower h
  obtain ⟨q1, -⟩ := G.q_bounds
  have hr0 : (0 : ℚ) < r := by linarith
  have hρ0 : (0 : ℚ) < ρ := by linarith
  have hinv : 1 / ρ ≤ 256 := by rw [div_le_iff₀ hρ0]; linarith
  have hinv0 : 0 < 1 / ρ := by positivity
  have e1 := abs_rq_sub_le_of_lt (f := f64) (q := 1 / ρ) (k := 9)
    (by rw [abs_of_pos hinv0]; norm_num [p2] at hinv ⊢; linarith) (by decide)
  have e1' : |r64 (1 / ρ) - 1 / ρ| ≤ 1 / 1000000000 := e1.trans (by norm_num [f64, p2])
  rw [abs_le] at e1'
  have hs0 : 0 ≤ r64 (1 / ρ) := rq_nonneg hinv0.le
  have e2 := abs_rq_sub_le_of_lt (f := f64) (q := i + r64 (1 / ρ)) (k := 9)
    (by rw [abs_of_nonneg (by linarith)]; norm_num [p2] at hinv ⊢; norm_num at e1'; linarith) (by decide)
  have e2' : |r64 (i + r64 (1 / ρ)) - (i + r64 (1 / ρ))| ≤ 1 / 1000000000 := e2.trans (by norm_num [f64, p2])
  rw [abs_le] at e2'
  have hfl := Int.floor_le (r64 (i + r64 (1 / ρ)))
  -- 1/ρ against 1/r
  have h36 : p2 (-36) ≤ 1 / 60000000000 := by norm_num [p2]
  have h36' : 0 < p2 (-36) := p2_pos _
  have hinv2 : 1 / ρ ≤ 1 / r + 1 / 100000000 := by
    have hb : 1 / r ≤ 256 := by rw [div_le_iff₀ hr0]; linarith
    have hx : 1 = ρ * (1 / ρ) := by field_simp
    have hy : 1 = r * (1 / r) := by field_simp
    have hrρ : (1 - 1 / 60000000000) * r ≤ ρ := by
      have := mul_le_mul_of_nonneg_right h36 hr0.le
      generalize p2 (-36) = ε at *
      linarith
    have : (1 - 1 / 60000000000) * (1 / ρ) ≤ 1 / r := by
      rw [mul_one_div, div_le_div_iff₀ hρ0 hr0]; linarith
    linarith
  have hmin : 2 * (1 / r) + 4 ≤ ((N + 2 : ℤ) : ℚ) / inc / min r 1 := by
    generalize ((N + 2 : ℤ) : ℚ) / inc = q at *
    rcases le_total r 1 with h1 | h1
    · rw [min_eq_left h1]
      have : (1 : ℚ) ≤ 1 / r := by rw [le_div_iff₀ hr0]; linarith
      have : 6 * (1 / r) ≤ q / r := by
        rw [mul_one_div, div_le_div_iff_of_pos_right hr0]; exact q1
      linarith
    · rw [min_eq_right h1, div_one]
      have : 1 / r ≤ 1 := by rw [div_le_iff₀ hr0]; linarith
      linarith
  have : ((2 * ⌊r64 (i + r64 (1 / ρ))⌋ + 2 : ℤ) : ℚ) < ((sincReach N inc r + 1 : ℤ) : ℚ) := by
    push_cast
    linarith
  have : 2 * ⌊r64 (i + r64 (1 / ρ))⌋ + 2 < sincReach N inc r + 1 := by exact_mod_cast this
  omega

/-! ### fixed point steps -/

theorem Geom.sincInc_bounds {ρ : ℚ} (hρ : 1 / 256 ≤ ρ) : (inc : ℚ) / 256 ≤ sincInc inc ρ ∧ sincInc inc ρ ≤ inc := by
  have h1 : (1 : ℚ) ≤ inc := by exact_mod_cast G.inc1
  have h2 : (inc : ℚ) ≤ 4096 := by exact_mod_cast G.incM
  have hr : Rep0 f64 (inc : ℚ) := rep64_int (by have := G.inc1; have := G.incM; rw [abs_of_nonneg (by omega)]; omega)
  have hm : min ρ 1 ≤ 1 := min_le_right _ _
  have hm' : 1 / 256 ≤ min ρ 1 := le_min hρ (by norm_num)
  unfold sincInc
  constructor
  · refine le_rq ?_ (by nlinarith)
    have := rep0_of_le (f := f64) (m := inc) (e := -8) (q := (inc : ℚ) / 256) (by decide)
      (by have := G.inc1; have := G.incM; rw [abs_of_nonneg (by omega)]; norm_num [f64]; omega) (by norm_num [p2]; ring)
    exact this
  · exact rq_le hr (by nlinarith)

/-- The fixed point step per input frame. -/
theorem Geom.incr_bounds {ρ : ℚ} (hρ : 1 / 256 ≤ ρ) :
    16 * inc ≤ rne (sincInc inc ρ * 4096) ∧ rne (sincInc inc ρ * 4096) ≤ 4096 * inc := by
  obtain ⟨h1, h2⟩ := G.sincInc_bounds hρ
  constructor
  · apply le_rne_of_le; push_cast; linarith
  · apply rne_le_of_le; push_cast; linarith

theorem Geom.start_bounds {ρ i : ℚ} (hρ : 1 / 256 ≤ ρ) (i0 : 0 ≤ i) (i1 : i < 1) :
    0 ≤ rne (r64 (i * sincInc inc ρ) * 4096) ∧ rne (r64 (i * sincInc inc ρ) * 4096) ≤ rne (sincInc inc ρ * 4096) := by
  obtain ⟨h1, h2⟩ := G.sincInc_bounds hρ
  have h3 : (1 : ℚ) ≤ inc := by exact_mod_cast G.inc1
  have h0 : 0 ≤ sincInc inc ρ := by linarith
  constructor
  · exact rne_nonneg (mul_nonneg (rq_nonneg (mul_nonneg i0 h0)) (by norm_num))
  · apply rne_mono
    have : r64 (i * sincInc inc ρ) ≤ sincInc inc ρ := rq_le (rep0_rq _ _) (by nlinarith)
    linarith

/-- The filter never reaches further than `sincReach` frames. -/
theorem Geom.incr_reach {r ρ : ℚ} (h : 1 / 256 ≤ r) (hρ : (1 - p2 (-36)) * r ≤ ρ) (hρ' : 1 / 256 ≤ ρ) :
    4096 * N < rne (sincInc inc ρ * 4096) * sincReach N inc r := by
  have hl := G.reach_lower h
  have hinc1 : (1 : ℚ) ≤ inc := by exact_mod_cast G.inc1
  have hincM : (inc : ℚ) ≤ 4096 := by exact_mod_cast G.incM
  have hkey : (128 : ℚ) * ((N + 2 : ℤ) : ℚ) ≤ inc * (8000 + 7 * inc) := by exact_mod_cast G.key
  have hn1 : (6 : ℚ) * inc ≤ ((N + 2 : ℤ) : ℚ) := by exact_mod_cast G.n1
  set m := min r 1 with hm
  have hm1 : m ≤ 1 := min_le_right _ _
  have hm0 : 1 / 256 ≤ m := le_min h (by norm_num)
  set m' := min ρ 1 with hm'
  have h36 : p2 (-36) = 1 / 68719476736 := by norm_num [p2]
  rw [h36] at hρ
  have hmm : (1 - 1 / 68719476736) * m ≤ m' := by
    apply le_min
    · have : m ≤ r := min_le_left _ _
      linarith
    · linarith
  have hm'1 : m' ≤ 1 := min_le_right _ _
  -- the step
  have hfi : (inc : ℚ) * m' - 1 / 1000000000000 ≤ sincInc inc ρ := by
    have hpos : 0 ≤ (inc : ℚ) * m' := by nlinarith
    have := abs_rq_sub_le_of_lt (f := f64) (q := (inc : ℚ) * m') (k := 13)
      (by rw [abs_of_nonneg hpos]; norm_num [p2]; nlinarith) (by decide)
    have h2 : |r64 ((inc : ℚ) * m') - inc * m'| ≤ 1 / 1000000000000 := this.trans (by norm_num [f64, p2])
    rw [abs_le] at h2
    unfold sincInc
    linarith
  have hx := abs_rne_sub_le (sincInc inc ρ * 4096)
  rw [abs_le] at hx
  set u := 4096 * (inc : ℚ) * m with hu
  have hu0 : 16 * (inc : ℚ) ≤ u := by nlinarith
  have huM : u ≤ 16777216 := by nlinarith
  have hxu : u - 1 / 2 - 1 / 2048 ≤ (rne (sincInc inc ρ * 4096) : ℚ) := by
    have : (inc : ℚ) * ((1 - 1 / 68719476736) * m) ≤ inc * m' := mul_le_mul_of_nonneg_left hmm (by linarith)
    have e : (4096 : ℚ) * (inc * ((1 - 1 / 68719476736) * m)) = u - u / 68719476736 := by rw [hu]; ring
    have : u / 68719476736 ≤ 1 / 4096 := by
      rw [div_le_iff₀ (by norm_num)]; linarith
    linarith
  -- the reach
  have hupos : 0 < u := by linarith
  have hAu : ((N + 2 : ℤ) : ℚ) / inc / m = 4096 * ((N + 2 : ℤ) : ℚ) / u := by
    rw [hu]; field_simp
  rw [hAu] at hl
  set A := 4096 * ((N + 2 : ℤ) : ℚ) with hA
  set x := (rne (sincInc inc ρ * 4096) : ℚ) with hxdef
  set y := (sincReach N inc r : ℚ) with hydef
  have hAu0 : 0 < A / u := by apply div_pos _ hupos; linarith
  have hAu1 : A / u ≤ 16000 + 14 * inc := by
    rw [div_le_iff₀ hupos]
    have : A ≤ 32 * (inc * (8000 + 7 * inc)) := by rw [hA]; linarith
    have : (16 * (inc : ℚ)) * (16000 + 14 * inc) ≤ u * (16000 + 14 * inc) := mul_le_mul_of_nonneg_right hu0 (by linarith)
    linarith
  have hprod : (u - 1 / 2 - 1 / 2048) * (A / u + 1 / 2 - 1 / 1000000) ≤ x * y := by
    apply mul_le_mul hxu hl
    · linarith
    · linarith
  have hexp : (u - 1 / 2 - 1 / 2048) * (A / u + 1 / 2 - 1 / 1000000) =
      A + u * (1 / 2 - 1 / 1000000) - (1 / 2 + 1 / 2048) * (A / u) - (1 / 2 + 1 / 2048) * (1 / 2 - 1 / 1000000) := by
    have : u * (A / u) = A := by field_simp
    calc _ = u * (A / u) + u * (1 / 2 - 1 / 1000000) - (1 / 2 + 1 / 2048) * (A / u)
          - (1 / 2 + 1 / 2048) * (1 / 2 - 1 / 1000000) := by ring
      _ = _ := by rw [this]
  rw [hexp] at hprod
  have : ((4096 * N : ℤ) : ℚ) < x * y := by
    have hA' : A = ((4096 * N : ℤ) : ℚ) + 8192 := by rw [hA]; push_cast; ring
    generalize A / u = w at *
    linarith
  rw [hxdef, hydef] at this
  exact_mod_cast this

end

/-! ### model expressions -/

theorem dbl_ofInt_small {n : ℤ} (h0 : 0 ≤ n) (h : n ≤ 10000000000) : (dbl n).val = some (n : ℚ) :=
  dbl_val (by rw [abs_of_nonneg h0]; omega)

theorem doubleToFp_val {x : F64} {q : ℚ} (h : x.val = some q) (h0 : 0 ≤ q) (h1 : q ≤ 4096) :
    doubleToFp x = rne (q * 4096) := by
  have h4 : (dbl 4096).val = some 4096 := by simpa using dbl_ofInt_small (n := 4096) (by norm_num) (by norm_num)
  have hm := mul64 h h4 (by rw [abs_of_nonneg (by linarith)]; linarith)
  have hr : Rep0 f64 (q * 4096) := by
    obtain ⟨m, e, a1, a2, a3⟩ := rep64_val h
    refine ⟨m, e + 12, by omega, a2, ?_⟩
    rw [a3, p2_add, mul_assoc]; norm_num [p2]
  rw [rq_of_rep hr] at hm
  unfold doubleToFp
  rw [lrint_val hm (by rw [abs_of_nonneg (by linarith)]; linarith)]

section
variable {N inc B : ℤ} (G : Geom N inc B)
include G

theorem Geom.floatInc_val {ratio : F64} {ρ : ℚ} (hv : ratio.val = some ρ) (hρ : 1 / 256 ≤ ρ) :
    (Fl.mul (dbl inc) (if Fl.lt ratio one64 then ratio else one64)).val = some (sincInc inc ρ) := by
  have hi := dbl_ofInt_small (n := inc) (by have := G.inc1; omega) (by have := G.incM; omega)
  have h1 : (1 : ℚ) ≤ inc := by exact_mod_cast G.inc1
  have h2 : (inc : ℚ) ≤ 4096 := by exact_mod_cast G.incM
  rw [Fl.lt_val hv one64_val]
  unfold sincInc
  by_cases h : ρ < 1
  · rw [if_pos (by simpa using h), min_eq_left h.le]
    exact mul64 hi hv (by rw [abs_of_nonneg (by nlinarith)]; nlinarith)
  · rw [if_neg (by simpa using h), min_eq_right (by linarith)]
    exact mul64 hi one64_val (by rw [abs_of_nonneg (by linarith)]; linarith)

/-- increment, start and scale as the model computes them -/
theorem Geom.step_vals {ratio idx : F64} {ρ i : ℚ} (hv : ratio.val = some ρ) (hρ : 1 / 256 ≤ ρ) (hi : idx.val = some i)
    (i0 : 0 ≤ i) (i1 : i < 1) :
    doubleToFp (Fl.mul (dbl inc) (if Fl.lt ratio one64 then ratio else one64)) = rne (sincInc inc ρ * 4096) ∧
    doubleToFp (Fl.mul idx (Fl.mul (dbl inc) (if Fl.lt ratio one64 then ratio else one64))) =
      rne (r64 (i * sincInc inc ρ) * 4096) ∧
    Fl.div (Fl.mul (dbl inc) (if Fl.lt ratio one64 then ratio else one64)) (dbl inc) = Fl.round f64 (sincInc inc ρ / inc) := by
  have hf := G.floatInc_val hv hρ
  obtain ⟨b1, b2⟩ := G.sincInc_bounds hρ
  have h1 : (1 : ℚ) ≤ inc := by exact_mod_cast G.inc1
  have h2 : (inc : ℚ) ≤ 4096 := by exact_mod_cast G.incM
  have hd := dbl_ofInt_small (n := inc) (by have := G.inc1; omega) (by have := G.incM; omega)
  refine ⟨doubleToFp_val hf (by linarith) (by linarith), ?_, ?_⟩
  · have hm := mul64 hi hf (by rw [abs_of_nonneg (by nlinarith)]; nlinarith)
    have : r64 (i * sincInc inc ρ) ≤ sincInc inc ρ := rq_le (rep0_rq _ _) (by nlinarith)
    exact doubleToFp_val hm (rq_nonneg (by nlinarith)) (by linarith)
  · obtain ⟨r1, e1⟩ := Fl.eq_fin_of_val hf
    obtain ⟨r2, e2⟩ := Fl.eq_fin_of_val hd
    rw [e1, e2]
    simp only [Fl.div]
    rw [if_neg (by linarith)]

/-- The filter reach as the model computes it. -/
theorem Geom.half_val {f : SincFilter} (hN : f.coeffHalfLen = N) (hinc : f.indexInc = inc) {ch : ℕ} (hch : 1 ≤ ch) (hchM : ch ≤ 128)
    {last target : F64} {l t : ℚ} (hl : last.val = some l) (ht : target.val = some t) (vl : ValidRatio l) (vt : ValidRatio t) :
    halfFilterChanLen f ch last target = .ok (ch * sincReach N inc (min l t)) := by
  obtain ⟨c1, c2, -⟩ := G.c0_bounds
  obtain ⟨q1, q2⟩ := G.q_bounds
  obtain ⟨n1, n2⟩ := G.n_bounds
  have hNv := dbl_ofInt_small (n := N) (by omega) (by omega)
  have h2v : (dbl 2).val = some 2 := by simpa using dbl_ofInt_small (n := 2) (by norm_num) (by norm_num)
  have hiv := dbl_ofInt_small (n := inc) (by have := G.inc1; omega) (by have := G.incM; omega)
  have h1 : (1 : ℚ) ≤ inc := by exact_mod_cast G.inc1
  have hs : (Fl.add (dbl N) (dbl 2)).val = some ((N + 2 : ℤ) : ℚ) := by
    have hr : Rep0 f64 ((N : ℚ) + 2) := by
      have := rep64_int (n := N + 2) (by rw [abs_of_nonneg (by omega)]; omega); push_cast at this; exact this
    have hNq : (N : ℚ) ≤ 366211 := by exact_mod_cast n2
    have hNq0 : (4 : ℚ) ≤ N := by exact_mod_cast n1
    have := add64 hNv h2v (by rw [abs_of_nonneg (by linarith)]; linarith)
    rw [rq_of_rep hr] at this
    rw [this]; push_cast; rfl
  have hq := div64 hs hiv (by linarith) (by rw [abs_of_nonneg (by linarith)]; linarith)
  have hmin : (minF last target).val = some (min l t) := by
    unfold minF
    rw [Fl.lt_val hl ht]
    by_cases h : l < t
    · rw [if_pos (by simpa using h), min_eq_left h.le, hl]
    · rw [if_neg (by simpa using h), min_eq_right (by linarith), ht]
  have hm0 : 1 / 256 ≤ min l t := le_min vl.1 vt.1
  have hH := G.reach_le hm0
  have hH6 := G.reach_ge hm0
  have hB := G.bM
  have hHdef : sincReach N inc (min l t) = rne (if min l t < 1 then r64 (r64 (((N + 2 : ℤ) : ℚ) / inc) / min l t)
      else r64 (((N + 2 : ℤ) : ℚ) / inc)) + 1 := rfl
  have hcnt : ∀ x : F64, x = (if Fl.lt (minF last target) one64 = true then
      Fl.div (Fl.div (Fl.add (dbl N) (dbl 2)) (dbl inc)) (minF last target)
      else Fl.div (Fl.add (dbl N) (dbl 2)) (dbl inc)) → lrint x = sincReach N inc (min l t) - 1 := by
    intro x hx
    rw [Fl.lt_val hmin one64_val] at hx
    rw [hHdef]
    generalize r64 (((N + 2 : ℤ) : ℚ) / inc) = c at *
    by_cases h : min l t < 1
    · rw [if_pos (by simpa using h)] at hx
      rw [if_pos h]
      have hb : c / min l t ≤ 93750528 := by
        rw [div_le_iff₀ (by linarith)]; nlinarith
      have hb0 : 0 ≤ c / min l t := div_nonneg (by linarith) (by linarith)
      have hd := div64 hq hmin (by linarith) (by rw [abs_of_nonneg hb0]; linarith)
      rw [hx, lrint_val hd]
      · ring
      · refine Fl.abs_rq_le (by simpa using rep64_nat (n := 2147483647) (by norm_num)) ?_
        rw [abs_of_nonneg hb0]; linarith
    · rw [if_neg (by simpa using h)] at hx
      rw [if_neg h, hx, lrint_val hq (by rw [abs_of_nonneg (by linarith)]; linarith)]
      ring
  unfold halfFilterChanLen
  rw [hN, hinc]
  simp only
  rw [hcnt _ rfl]
  have hchz : (1 : ℤ) ≤ ch := by exact_mod_cast hch
  have hchz2 : (ch : ℤ) ≤ 128 := by exact_mod_cast hchM
  have hok : ∀ n : ℤ, -2147483648 ≤ n → n ≤ 2147483647 → chkI32 n = .ok n := by
    intro n a b; unfold chkI32; rw [if_pos ⟨a, b⟩]; rfl
  rw [show sincReach N inc (min l t) - 1 + 1 = sincReach N inc (min l t) by ring, hok _ (by omega) (by omega)]
  have hmul : (ch : ℤ) * sincReach N inc (min l t) ≤ 128 * 400000 := mul_le_mul hchz2 (by omega) (by omega) (by norm_num)
  exact hok _ (by have := mul_nonneg (show (0:ℤ) ≤ ch by omega) (show 0 ≤ sincReach N inc (min l t) by omega); omega) (by omega)

end

/-! ### ratio interpolation -/

theorem interpQ_lower {l t : ℚ} {g n : ℤ} (hl : Rep0 f64 l) (ht : Rep0 f64 t) (vl : ValidRatio l) (vt : ValidRatio t)
    (hg : 0 ≤ g) (hgn : g < n) (hn : n ≤ 2 ^ 53) : (1 - p2 (-36)) * min l t ≤ interpQ l t g n := by
  unfold interpQ
  have hp36 : 0 < p2 (-36) := p2_pos _
  rcases le_total l t with hlt | hlt
  · rw [min_eq_left hlt]
    have hd0 : 0 ≤ t - l := by linarith
    have hgq : (0 : ℚ) ≤ g := by exact_mod_cast hg
    have hnq : (0 : ℚ) < n := by exact_mod_cast (lt_of_le_of_lt hg hgn)
    have h0 : 0 ≤ r64 (r64 (g * r64 (t - l)) / n) :=
      rq_nonneg (div_nonneg (rq_nonneg (mul_nonneg hgq (rq_nonneg hd0))) hnq.le)
    have h1 : l ≤ r64 (l + r64 (r64 (g * r64 (t - l)) / n)) := le_rq hl (by linarith)
    have hlp : 0 < l := lt_of_lt_of_le (by norm_num) vl.1
    nlinarith
  · rw [min_eq_right hlt]
    rcases eq_or_ne l t with e | e
    · subst e
      simp only [sub_self, rq_zero, mul_zero, zero_div, add_zero]
      rw [rq_of_rep hl]
      have hlp : 0 < l := lt_of_lt_of_le (by norm_num) vl.1
      nlinarith
    have hd0 : 0 ≤ l - t := by linarith
    have hneg : r64 (t - l) = - r64 (l - t) := by rw [← neg_sub, rq_neg]
    have hdiff := ratio_diff hl ht vl vt e
    rw [abs_of_nonneg hd0] at hdiff
    have hd : r64 (l - t) = 0 ∨ p2 (-100) ≤ r64 (l - t) :=
      Or.inr (le_rq (rep0_p2 (by decide)) ((p2_le (by norm_num)).trans hdiff))
    have hdu : r64 (l - t) ≤ 256 := rq_le rep64_256 (by linarith [vl.2, vt.1])
    obtain ⟨h1, h2⟩ := interp_inc (rep0_rq f64 _) (rq_nonneg hd0) hd hdu hg hgn hn
    have e2 : r64 (r64 (g * r64 (t - l)) / n) = - r64 (r64 (g * r64 (l - t)) / n) := by
      rw [hneg, mul_neg, rq_neg, neg_div, rq_neg]
    rw [e2]
    have hre := rel_err (q := l - t) (by rw [abs_of_nonneg hd0]; exact (p2_le (by norm_num)).trans hdiff)
    rw [abs_of_nonneg hd0, abs_le] at hre
    have hx : t * (1 - p2 (-37)) ≤ l + -r64 (r64 (g * r64 (l - t)) / n) := by
      have e37 : p2 (-37) = 65536 * p2 (-53) := by norm_num [p2]
      rw [e37]
      have h3 := hre.2
      have hp53 : 0 < p2 (-53) := p2_pos _
      generalize p2 (-53) = ε at *
      have hb : (l - t) * ε ≤ 65536 * t * ε := by
        apply mul_le_mul_of_nonneg_right _ hp53.le
        linarith [vl.2, vt.1]
      linarith
    have hmono := rq_mono (f := f64) hx
    have ht0 : 0 < t := lt_of_lt_of_le (by norm_num) vt.1
    have hq0 : 0 < t * (1 - p2 (-37)) := mul_pos ht0 (by norm_num [p2])
    have hre2 := rel_err (q := t * (1 - p2 (-37))) (by
      rw [abs_of_pos hq0]
      have : p2 (-1022) ≤ p2 (-9) := p2_le (by norm_num)
      have h9 : p2 (-9) ≤ t * (1 - p2 (-37)) := by
        have : (1 / 2 : ℚ) ≤ 1 - p2 (-37) := by norm_num [p2]
        have e9 : p2 (-9) = 1 / 512 := by norm_num [p2]
        rw [e9]
        have := vt.1
        nlinarith
      linarith)
    rw [abs_of_pos hq0, abs_le] at hre2
    have : (1 - p2 (-36)) * t ≤ t * (1 - p2 (-37)) * (1 - p2 (-53)) := by
      have : 1 - p2 (-36) ≤ (1 - p2 (-37)) * (1 - p2 (-53)) := by norm_num [p2]
      nlinarith
    have h3 := hre2.1
    rw [mul_sub (t * _) 1, mul_one] at this
    generalize t * (1 - p2 (-37)) * p2 (-53) = aa at *
    generalize (1 - p2 (-36)) * t = bb at *
    exact (this.trans (by linarith only [h3])).trans hmono

theorem eps10_val : SINC_RATIO_EPS.val = some (r64 (1 / 10 ^ 10)) :=
  Fl.val_round (fin64 (by rw [abs_of_pos (by positivity)]; norm_num))

/-- The ratio of the sinc loops, and that it stays in range. -/
theorem sincRatio_val {last target cur : F64} {l t : ℚ} {ch o g : ℕ} (hl : last.val = some l) (ht : target.val = some t)
    (vl : ValidRatio l) (vt : ValidRatio t) (hch : 1 ≤ ch) (hg : g < o) (hn : ch * o ≤ 2 ^ 53)
    (hcur : |r64 (l - t)| ≤ r64 (1 / 10 ^ 10) → cur.val = some l) :
    (sincRatio last target ((ch * g : ℕ) : ℤ) ((ch * o : ℕ) : ℤ) cur).val = some (sincRatioAt l t ch o g) ∧
      ValidRatio (sincRatioAt l t ch o g) ∧ (1 - p2 (-36)) * min l t ≤ sincRatioAt l t ch o g := by
  have hs := sub64 hl ht (by
    have : |l - t| ≤ 256 := by
      rw [abs_le]; constructor <;> linarith [vl.1, vl.2, vt.1, vt.2]
    exact this.trans (by norm_num))
  have ha := Fl.val_abs hs
  have hgo : ch * g < ch * o := Nat.mul_lt_mul_of_pos_left hg hch
  unfold sincRatio sincRatioAt
  rw [show Fl.gt (Fl.abs (Fl.sub last target)) SINC_RATIO_EPS = Fl.lt SINC_RATIO_EPS (Fl.abs (Fl.sub last target)) from rfl,
    Fl.lt_val eps10_val ha]
  by_cases h : |r64 (l - t)| ≤ r64 (1 / 10 ^ 10)
  · rw [if_neg (by rintro ⟨-, h2⟩; exact absurd (of_decide_eq_true h2) (not_lt.2 h)), if_pos h]
    refine ⟨hcur h, vl, ?_⟩
    have hlp : 0 < l := lt_of_lt_of_le (by norm_num) vl.1
    have hm : min l t ≤ l := min_le_left _ _
    have hm0 : 0 ≤ min l t := le_min hlp.le (le_trans (by norm_num) vt.1)
    have := p2_pos (-36)
    nlinarith
  · rw [if_pos ⟨by exact_mod_cast (by omega : 0 < ch * o), by simpa using lt_of_not_ge h⟩, if_neg h]
    have hv := interp_val hl ht vl vt (g := ((ch * g : ℕ) : ℤ)) (n := ((ch * o : ℕ) : ℤ)) (by positivity)
      (by exact_mod_cast hgo) (by exact_mod_cast hn)
    have hV := interpQ_valid (rep64_val hl) (rep64_val ht) vl vt (g := ((ch * g : ℕ) : ℤ)) (n := ((ch * o : ℕ) : ℤ)) (by positivity)
      (by exact_mod_cast hgo) (by exact_mod_cast hn)
    have hL := interpQ_lower (rep64_val hl) (rep64_val ht) vl vt (g := ((ch * g : ℕ) : ℤ)) (n := ((ch * o : ℕ) : ℤ)) (by positivity)
      (by exact_mod_cast hgo) (by exact_mod_cast hn)
    have e : interpQ l t ((ch * g : ℕ) : ℤ) ((ch * o : ℕ) : ℤ) =
        r64 (l + r64 (r64 (((ch * g : ℕ) : ℚ) * r64 (t - l)) / ((ch * o : ℕ) : ℚ))) := by
      unfold interpQ
      simp only [Int.cast_natCast]
    rw [e] at hv hV hL
    exact ⟨hv, hV, hL⟩

end Verif
