import Mathlib.Analysis.SpecialFunctions.Trigonometric.Basic
import Verif.Spec.Filter

/-! Specification: signals made of sinusoids. -/

namespace Verif.Spec

/-- The sum of `n` tones, at time `t` (in input frames): tone `k` has amplitude `A k`, angle `ω k` per frame (`π` is half the sampling rate) and phase `θ k`. -/
noncomputable def tones (n : ℕ) (A ω θ : ℕ → ℝ) (t : ℝ) : ℝ := ∑ k ∈ Finset.range n, A k * Real.cos (ω k * t + θ k)

/-- The sum of the amplitudes. -/
noncomputable def loudness (n : ℕ) (A : ℕ → ℝ) : ℝ := ∑ k ∈ Finset.range n, A k

/-- Amplitudes are not negative, and the tones are not above the angle `Ω` per frame. -/
def ToneLimits (n : ℕ) (A ω : ℕ → ℝ) (Ω : ℝ) : Prop := ∀ k < n, 0 ≤ A k ∧ 0 ≤ ω k ∧ ω k ≤ Ω

/-- The samples of channel `c` less than `R` frames from the time `τ` are finite and differ from `s` by at most `η`. -/
def SampledFrom (x : ℕ → ℕ → F32) (c : ℕ) (τ R : ℚ) (s : ℝ → ℝ) (η : ℝ) : Prop :=
  ∀ k : ℕ, |(k : ℚ) - τ| < R → ∃ q : ℚ, (x k c).val = some q ∧ |(q : ℝ) - s k| ≤ η

/-- Amplitudes are not negative, the tones are not above half the sampling rate, and none is between the angles `lo` and `hi`. -/
def ToneBands (n : ℕ) (A ω : ℕ → ℝ) (lo hi : ℝ) : Prop := ∀ k < n, 0 ≤ A k ∧ 0 ≤ ω k ∧ ω k ≤ Real.pi ∧ (ω k ≤ lo ∨ hi ≤ ω k)

/-- The sum of those of `n` tones that are not above the angle `lo`. -/
noncomputable def tonesUpTo (lo : ℝ) (n : ℕ) (A ω θ : ℕ → ℝ) (t : ℝ) : ℝ := ∑ k ∈ Finset.range n, if ω k ≤ lo then A k * Real.cos (ω k * t + θ k) else 0

end Verif.Spec
