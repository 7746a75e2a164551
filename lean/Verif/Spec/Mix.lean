import Verif.Spec.Stream
import Verif.Spec.SincHistory
import Verif.Spec.Values
import Verif.Spec.Filter
import Verif.Spec.Level

/-! Specification: mixing streams before or after the conversion. -/

namespace Verif.Spec
open Verif

/-- Exact linear interpolation in channel `c` at time `t` (frame `k` of the stream is at time `k + 1`). -/
def exactLinear (x : ℕ → ℕ → F32) (t : ℚ) (c : ℕ) : ℚ :=
  (1 - Int.fract t) * valOf (x (⌊t⌋₊ - 1) c) + Int.fract t * valOf (x ⌊t⌋₊ c)

/-- The samples of `z` are those of `x` and `y` mixed with the factors `a` and `b`. -/
def Mixed (a b : ℚ) (x y z : ℕ → ℕ → F32) : Prop := ∀ k c, valOf (z k c) = a * valOf (x k c) + b * valOf (y k c)

/-- The frames of `z` have the shape of those of `x` and `y`, and every sample of `z` is the mix of the corresponding samples of `x` and `y`
up to the error `ε`; all of them are finite. -/
def MixedOut (a b ε : ℚ) (x y z : List (List F32)) : Prop :=
  x.length = z.length ∧ y.length = z.length ∧
  ∀ (j : ℕ) (f g h : List F32), x[j]? = some f → y[j]? = some g → z[j]? = some h → f.length = h.length ∧ g.length = h.length ∧
    ∀ (c : ℕ) (u v w : F32), f[c]? = some u → g[c]? = some v → h[c]? = some w →
      ∃ p q r, u.val = some p ∧ v.val = some q ∧ w.val = some r ∧ |r - (a * p + b * q)| ≤ ε

/-- A new handle is created and a stream fed through it by the calls `ops`, observing `os`. -/
def Streamed (cfg : Config) (type : ℤ) (ch : ℕ) (x : ℕ → ℕ → F32) (ops : List Op) (os : List Obs) : Prop :=
  ∃ e st st1 V, srcNew cfg type ch = .ok (e, some st) ∧ run ops st = .ok (os, st1) ∧ Fed x ch 0 ops os V

/-- The same with `end_of_input` set where the stream ends. -/
def StreamedTo (cfg : Config) (type : ℤ) (ch : ℕ) (x : ℕ → ℕ → F32) (len : Option ℕ) (ops : List Op) (os : List Obs) : Prop :=
  EndsAt x len ∧ ∃ e st st1 V, srcNew cfg type ch = .ok (e, some st) ∧ run ops st = .ok (os, st1) ∧ FedTo x ch len 0 ops os V

/-- Channel `c3` of the stream carries the mix of its channels `c1` and `c2`. -/
def MixedCh (a b : ℚ) (x : ℕ → ℕ → F32) (c1 c2 c3 : ℕ) : Prop := ∀ k, valOf (x k c3) = a * valOf (x k c1) + b * valOf (x k c2)

/-- And so it is in this frame, up to the error `ε`. -/
def MixedFrame (a b ε : ℚ) (f : List F32) (c1 c2 c3 : ℕ) : Prop :=
  ∀ u v w : F32, f[c1]? = some u → f[c2]? = some v → f[c3]? = some w →
    ∃ p q r, u.val = some p ∧ v.val = some q ∧ w.val = some r ∧ |r - (a * p + b * q)| ≤ ε

end Verif.Spec
