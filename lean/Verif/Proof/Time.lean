import Verif.Proof.Stream

/-! Input time of output frames. -/

namespace Verif
open Spec

/-- Time of a position in input frames. -/
def Pos.time (P : Pos) : ℚ := P.k + P.i

theorem err512 {q : ℚ} (h : |q| < 512) : |r64 q - q| ≤ p2 (-45) := by
  have e : (512 : ℚ) = p2 9 := by norm_num [p2]
  rw [e] at h
  refine (abs_rq_sub_le_of_lt (f := f64) h (by decide)).trans ?_
  norm_num [p2, f64]

/-- One step moves the time by `1 / r`, up to rounding. -/
theorem advance_time {P : Pos} {r : ℚ} (h0 : 0 ≤ P.i) (h1 : P.i < 1) (hr : ValidRatio r) :
    |Pos.time (P.advance r) - (Pos.time P + 1 / r)| ≤ p2 (-44) := by
  have hrp : 0 < r := lt_of_lt_of_le (by norm_num) hr.1
  have hle : 1 / r ≤ 256 := by rw [div_le_iff₀ hrp]; linarith [hr.1]
  have hp : 0 < 1 / r := by positivity
  have b := inv_bounds hr
  have e1 := err512 (q := 1 / r) (by rw [abs_of_pos hp]; linarith)
  have e2 := err512 (q := P.i + r64 (1 / r)) (by rw [abs_of_nonneg (by linarith)]; linarith)
  have ht : 0 ≤ r64 (P.i + r64 (1 / r)) := rq_nonneg (by linarith)
  have e3 : Pos.time (P.advance r) = P.k + r64 (P.i + r64 (1 / r)) := by
    unfold Pos.time Pos.advance
    dsimp only
    have hf : 0 ≤ ⌊r64 (P.i + r64 (1 / r))⌋ := Int.floor_nonneg.2 ht
    push_cast
    rw [show ((⌊r64 (P.i + r64 (1 / r))⌋.toNat : ℕ) : ℚ) = ((⌊r64 (P.i + r64 (1 / r))⌋ : ℤ) : ℚ) by
      exact_mod_cast congrArg (fun z : ℤ => (z : ℚ)) (Int.toNat_of_nonneg hf)]
    rw [add_assoc, Int.floor_add_fract]
  rw [e3]
  unfold Pos.time
  have e4 : p2 (-44) = p2 (-45) + p2 (-45) := by norm_num [p2]
  rw [e4]
  have := abs_add_le (r64 (P.i + r64 (1 / r)) - (P.i + r64 (1 / r))) (r64 (1 / r) - 1 / r)
  refine le_trans (le_of_eq ?_) (this.trans (add_le_add e2 e1))
  congr 1; ring

theorem timeAt_eq (ρ : ℕ → ℚ) (j : ℕ) : timeAt ρ j = Pos.time (posAt ⟨0, 0⟩ ρ j) := rfl

theorem posAt_frac0 (ρ : ℕ → ℚ) (j : ℕ) : 0 ≤ (posAt ⟨0, 0⟩ ρ j).i ∧ (posAt ⟨0, 0⟩ ρ j).i < 1 :=
  posAt_frac (by norm_num) j

theorem time_step {ρ : ℕ → ℚ} {j : ℕ} (h : ValidRatio (ρ j)) : |timeAt ρ (j + 1) - (timeAt ρ j + 1 / ρ j)| ≤ p2 (-44) :=
  advance_time (posAt_frac0 ρ j).1 (posAt_frac0 ρ j).2 h

/-- Time of output frame `j` at the constant ratio `r`: `j / r` up to accumulated rounding. -/
theorem time_const {r : ℚ} (hr : ValidRatio r) : ∀ j : ℕ, |timeAt (fun _ => r) j - j / r| ≤ j * p2 (-44)
  | 0 => by simp [timeAt, posAt]
  | j + 1 => by
    have h1 := time_const hr j
    have h2 := time_step (ρ := fun _ => r) (j := j) hr
    have h3 := abs_add_le (timeAt (fun _ => r) (j + 1) - (timeAt (fun _ => r) j + 1 / r)) (timeAt (fun _ => r) j - j / r)
    have e : timeAt (fun _ => r) (j + 1) - (timeAt (fun _ => r) j + 1 / r) + (timeAt (fun _ => r) j - j / r) =
        timeAt (fun _ => r) (j + 1) - ((j + 1 : ℕ) : ℚ) / r := by push_cast; ring
    rw [e] at h3
    refine h3.trans ((add_le_add h2 h1).trans (le_of_eq ?_))
    push_cast; ring

theorem time_k (ρ : ℕ → ℚ) (j : ℕ) : ((posAt ⟨0, 0⟩ ρ j).k : ℚ) ≤ timeAt ρ j ∧ timeAt ρ j < (posAt ⟨0, 0⟩ ρ j).k + 1 := by
  have := posAt_frac0 ρ j
  unfold timeAt
  constructor <;> linarith

end Verif
