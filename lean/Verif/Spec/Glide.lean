import Verif.Spec.Stream

/-! Specification: how the ratio in force moves when the caller asks for another one. -/

namespace Verif.Spec
open Verif

/-- The ratios `a` of the output frames of one call with room for `o` frames, when the ratio in force before was `l` and the call asks for `t`: the first frame
still has ratio `l`, frame `g` has the ratio `l + (t - l) * g / o` up to the tolerance `ε`, and the ratio neither turns back nor leaves the interval between
`l` and `t`. -/
structure Glide (ε l t : ℚ) (o : ℕ) (a : List ℚ) : Prop where
  room : a.length ≤ o
  first : ∀ r, a[0]? = some r → r = l
  near : ∀ (g : ℕ) (r : ℚ), a[g]? = some r → |r - (l + (t - l) * g / o)| ≤ ε
  between : ∀ r ∈ a, min l t ≤ r ∧ r ≤ max l t
  up : l ≤ t → a.Pairwise (· ≤ ·)
  down : t ≤ l → a.Pairwise (· ≥ ·)

/-- `Glides ε l ops os a`: on a handle where the ratio `l` is in force (0: none yet) the history of calls `ops` with the observations `os` yields output frames
with the ratios `a`.  The first call starts at the ratio it asks for, later ones at the ratio reached before; a successful `src_set_ratio` puts its ratio in force at once. -/
inductive Glides (ε : ℚ) : ℚ → List Op → List Obs → List ℚ → Prop
  | nil (l : ℚ) : Glides ε l [] [] []
  | call (l : ℚ) (m : Mem) (d d' : SrcData) (o : Obs) (t : ℚ) (a b : List ℚ) (ops : List Op) (os : List Obs) :
      o.ret = 0 → o.data = some d' → d.srcRatio.val = some t → (a.length : ℤ) = d'.outputFramesGen →
      Glide ε (if l = 0 then t else l) t d.outputFrames.toNat a → Glides ε (a.getLast?.getD (if l = 0 then t else l)) ops os b →
      Glides ε l (.process m (some d) :: ops) (o :: os) (a ++ b)
  | setRatio (l : ℚ) (r : F64) (q : ℚ) (o : Obs) (a : List ℚ) (ops : List Op) (os : List Obs) :
      o.ret = 0 → r.val = some q → Glides ε q ops os a → Glides ε l (.setRatio r :: ops) (o :: os) a
  | setRejected (l : ℚ) (r : F64) (o : Obs) (a : List ℚ) (ops : List Op) (os : List Obs) :
      o.ret ≠ 0 → Glides ε l ops os a → Glides ε l (.setRatio r :: ops) (o :: os) a

end Verif.Spec
