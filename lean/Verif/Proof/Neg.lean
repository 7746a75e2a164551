import Verif.Proof.Twin

/-! Relations on sample values respected by all converters: equality, equality on one channel, negation. -/

namespace Verif
open Spec

/-- Equal samples. -/
def eqT : SRel where
  S _ a b := a = b
  A _ a b := a = b
  zero _ := rfl
  lin _ _ _ _ _ _ h1 h2 := by rw [h1, h2]
  azero _ := rfl
  acc _ _ _ _ _ _ h1 h2 := by rw [h1, h2]
  fin _ _ _ _ _ _ h1 h2 := by rw [h1, h2]

/-- Equal samples on channel `k`. -/
def chanT (k : ℤ) : SRel where
  S c a b := c = k → a = b
  A c a b := c = k → a = b
  zero _ _ := rfl
  lin _ _ _ _ _ _ h1 h2 h := by rw [h1 h, h2 h]
  azero _ _ := rfl
  acc _ _ _ _ _ _ h1 h2 h := by rw [h1 h, h2 h]
  fin _ _ _ _ _ _ h1 h2 h := by rw [h1 h, h2 h]

namespace Fl
variable {f : Fmt}

theorem round_neg (q : ℚ) : round f (-q) = neg (round f q) := by
  unfold round
  by_cases h : |rq f q| < p2 f.emax
  · rw [dif_pos h, dif_pos (by rw [rq_neg, abs_neg]; exact h)]
    simp only [neg, rq_neg]
  · rw [dif_neg h, dif_neg (by rw [rq_neg, abs_neg]; exact h)]
    have h0 : q ≠ 0 := by
      rintro rfl
      apply h
      rw [show rq f 0 = 0 from rq_zero f, abs_zero]
      exact p2_pos _
    simp only [neg, inf.injEq]
    rcases lt_or_gt_of_ne h0 with h1 | h1
    · simp [h1, h1.le]
    · simp [h1, h1.le]

theorem neg_zero' {x : Fl f} (h : x.val = some 0) : neg x = x := by
  apply val_inj (a := 0) _ h
  have := val_neg h
  rwa [_root_.neg_zero] at this

theorem neg_add' (x y : Fl f) : add (neg x) (neg y) = neg (add x y) := by
  cases x <;> cases y <;> simp only [add, neg]
  · rename_i s t
    cases s <;> cases t <;> simp [neg]
  · rename_i a ha b hb
    exact (congrArg (round f) (by ring : -a + -b = -(a + b))).trans (round_neg _)

theorem neg_neg' (x : Fl f) : neg (neg x) = x := by
  cases x <;> simp [neg]

theorem mul_neg' (x y : Fl f) : mul x (neg y) = neg (mul x y) := by
  cases x <;> cases y <;> simp only [mul, neg]
  · rename_i s t
    cases s <;> cases t <;> rfl
  · rename_i s b hb
    by_cases h : b = 0
    · simp [h, neg]
    · rw [if_neg h, if_neg (by simpa using h)]
      rcases lt_or_gt_of_ne h with h1 | h1
      · cases s <;> simp [neg, h1, h1.le]
      · cases s <;> simp [neg, h1, h1.le]
  · rename_i a ha t
    by_cases h : a = 0
    · simp [h, neg]
    · rw [if_neg h, if_neg h]
      cases t <;> cases decide (a < 0) <;> rfl
  · rename_i a ha b hb
    exact (congrArg (round f) (by ring : a * -b = -(a * b))).trans (round_neg _)

theorem conv_neg' {g : Fmt} (x : Fl f) : conv g (neg x) = neg (conv g x) := by
  cases x with
  | nan => rfl
  | inf s => rfl
  | fin q h => exact round_neg q

end Fl

theorem linearSample_neg (a b : F32) (i : F64) : Spec.between (Fl.neg a) (Fl.neg b) i = Fl.neg (Spec.between a b i) := by
  unfold Spec.between
  unfold Fl.sub
  rw [Fl.conv_neg' a, Fl.conv_neg' b, Fl.neg_add', Fl.mul_neg', Fl.neg_add', Fl.conv_neg']

/-- Negated samples. -/
def negT : SRel where
  S _ a b := b = Fl.neg a
  A _ a b := b = Fl.neg a
  zero _ := (Fl.neg_zero' (by simpa [zero32, Fl.ofInt] using Fl.val_ofInt (f := f32) (n := 0) (by norm_num))).symm
  lin _ _ _ _ _ _ h1 h2 := by rw [h1, h2, linearSample_neg]
  azero _ := (Fl.neg_zero' zero64_val).symm
  acc _ _ _ _ _ _ h1 h2 := by rw [h1, h2, Fl.conv_neg', Fl.mul_neg', Fl.neg_add']
  fin _ _ _ _ _ _ h1 h2 := by rw [h1, h2, Fl.neg_add', Fl.mul_neg', Fl.conv_neg']

end Verif
