import Verif.Float.Fl

/-! Specification of one output sample of a sinc converter.

`co i` is entry `i` of the filter table, which samples one half of a symmetric impulse response.  Filter positions `fi` are
fixed point numbers with 12 fraction bits; between table entries the response is interpolated linearly.  `x k` is the input
sample `k` frames after the current one.  `incr` is the filter position step per input frame, `start` the filter position of
the current frame.  All sums are evaluated from the outermost tap inwards, in double precision. -/

namespace Verif.Spec
open Verif

/-- Filter response at fixed point position `fi`. -/
def sincCoeff (co : ℤ → F32) (fi : ℤ) : F64 :=
  let c0 := co (fi / 4096)
  let c1 := co (fi / 4096 + 1)
  Fl.add (Fl.conv f64 c0)
    (Fl.mul (Fl.mul (Fl.ofInt f64 (fi % 4096)) (Fl.div (Fl.ofInt f64 1) (Fl.ofInt f64 4096))) (Fl.conv f64 (Fl.sub c1 c0)))

/-- `h 0 * x 0 + h 1 * x 1 + ... + h (n-1) * x (n-1)`, evaluated from the left starting at zero. -/
def tapSum : ℕ → (ℕ → F64) → (ℕ → F64) → F64
  | 0, _, _ => Fl.ofInt f64 0
  | n + 1, h, x => Fl.add (tapSum n h x) (Fl.mul (h n) (x n))

/-- Taps at and before the current frame: filter positions `start + a * incr, ..., start + incr, start` (and `0` if
`start = incr`), where `a` is limited by the filter length and by the `D` frames of history that are available. -/
def sincLeft (co : ℤ → F32) (halfLen incr start D : ℤ) (x : ℤ → F64) : F64 :=
  let a := min ((4096 * halfLen - start) / incr) D
  let fi := start + a * incr
  tapSum (fi / incr + 1).toNat (fun j => sincCoeff co (fi - j * incr)) (fun j => x (j - a))

/-- Taps after the current frame: filter positions `incr - start + a * incr, ..., incr - start`, without the last one if that is
`0` (it is then a tap of `sincLeft`). -/
def sincRight (co : ℤ → F32) (halfLen incr start : ℤ) (x : ℤ → F64) : F64 :=
  let a := (4096 * halfLen - (incr - start)) / incr
  let fi := incr - start + a * incr
  tapSum (max 1 ((fi + incr - 1) / incr)).toNat (fun j => sincCoeff co (fi - j * incr)) (fun j => x (1 + a - j))

/-- Output sample: `scale * (left + right)` rounded to float. -/
def sincOut (co : ℤ → F32) (halfLen incr start D : ℤ) (scale : F64) (x : ℤ → F32) : F32 :=
  let y := fun k => Fl.conv f64 (x k)
  Fl.conv f32 (Fl.mul scale (Fl.add (sincLeft co halfLen incr start D y) (sincRight co halfLen incr start y)))

/-- Filter position step per input frame at conversion ratio `ρ`, in table entries: `inc * min ρ 1`, rounded to double. -/
def sincInc (inc : ℤ) (ρ : ℚ) : ℚ := rq f64 (inc * min ρ 1)

/-- Output sample of a sinc converter at ratio `ρ` and position `i` (`0 ≤ i < 1`) after the current frame, when `D` frames of
history are available.  `co`, `halfLen` and `inc` describe the filter table. -/
def sincAt (co : ℤ → F32) (halfLen inc : ℤ) (ρ i : ℚ) (D : ℤ) (x : ℤ → F32) : F32 :=
  let fi := sincInc inc ρ
  sincOut co halfLen (rne (fi * 4096)) (rne (rq f64 (i * fi) * 4096)) D (Fl.round f64 (fi / inc)) x

/-- Ratio in force for output frame `g` of a call with room for `o` frames of `ch` channels, when the previous call ended at
ratio `l` and the caller asks for ratio `t`: linear interpolation from `l` towards `t`, in double arithmetic, unless the two
differ by no more than `1e-10`, when the ratio stays at `l`. -/
def sincRatioAt (l t : ℚ) (ch o g : ℕ) : ℚ :=
  if |rq f64 (l - t)| ≤ rq f64 (1 / 10 ^ 10) then l
  else rq f64 (l + rq f64 (rq f64 (((ch * g : ℕ) : ℚ) * rq f64 (t - l)) / ((ch * o : ℕ) : ℚ)))

/-- Frames of look-ahead (and of history) the filter needs at ratio `r`: half the filter length, stretched by `1 / r` when
`r < 1`, plus one. -/
def sincReach (halfLen inc : ℤ) (r : ℚ) : ℤ :=
  let n := rq f64 (((halfLen + 2 : ℤ) : ℚ) / inc)
  rne (if r < 1 then rq f64 (n / r) else n) + 1

end Verif.Spec
