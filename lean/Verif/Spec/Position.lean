import Verif.Float.Fl

/-! Specification of the read position of an interpolating converter.

A read position is a number of whole input frames `k` plus a fraction `i` of a frame.  After each output frame the position
moves forward by the reciprocal of the current conversion ratio; both the reciprocal and the sum are double precision
operations (`rq f64` is IEEE rounding to double). -/

namespace Verif.Spec

open Verif

/-- Read position: `k` whole frames and the fraction `i`. -/
structure Pos where
  k : ℕ
  i : ℚ

/-- Split a position given as one number. -/
def Pos.ofQ (p : ℚ) : Pos := ⟨⌊p⌋.toNat, Int.fract p⟩

/-- Move forward by `1 / r`. -/
def Pos.advance (p : Pos) (r : ℚ) : Pos :=
  let t := rq f64 (p.i + rq f64 (1 / r))
  ⟨p.k + ⌊t⌋.toNat, Int.fract t⟩

/-- Position of output frame `j` when output frame `i` is produced at ratio `ρ i`. -/
def posAt (start : Pos) (ρ : ℕ → ℚ) : ℕ → Pos
  | 0 => start
  | j + 1 => (posAt start ρ j).advance (ρ j)

/-- Ratio in force for output frame `g` of a call with room for `o` frames of `ch` channels, when the previous call ended at
ratio `l` and the caller asks for ratio `t`: linear interpolation from `l` towards `t`, in double arithmetic. -/
def ratioAt (l t : ℚ) (ch o g : ℕ) : ℚ :=
  if l = t then l
  else rq f64 (l + rq f64 (rq f64 (((ch * g : ℕ) : ℚ) * rq f64 (t - l)) / ((ch * o : ℕ) : ℚ)))

end Verif.Spec
