import Verif.Model.Device
import Verif.Spec.Convert

/-! Specification of an ALSA device, and of the integers that are played for the samples on other devices. -/

namespace Verif.Spec
open Verif

/-- The frames that the device has accepted: of the frames given to a call of `snd_pcm_writei` the first ones, as many as it returned. -/
def accepted : List DevCall → List (List F32)
  | [] => []
  | .write fs r :: h => fs.take r.toNat ++ accepted h
  | .prepare :: h => accepted h

/-- The number of attempts to write since a frame was last accepted. -/
def waiting (h : List DevCall) : ℕ :=
  h.foldl (fun w c => match c with | .write _ r => if 0 < r then 0 else w + 1 | .prepare => w) 0

/-- Number of frames accepted since the device last ran out of data; `none` if it never has. -/
def sinceUnderrun (h : List DevCall) : Option ℤ :=
  h.foldl (fun o c => match c with | .write _ r => if r = -EPIPE then some 0 else if 0 < r then o.map (· + r) else o | .prepare => o) none

/-- The device ran out of data and has not been prepared again. -/
def unprepared (h : List DevCall) : Bool :=
  h.foldl (fun u c => match c with | .write _ r => u || r == -EPIPE | .prepare => false) false

/-- A device that works: a call accepts some of the frames or asks for another try (it returns a number of frames or `EAGAIN`).  It may run out of data now and then, but not again until it has
accepted `gap` frames; when it has run out of data it may refuse to work until it is prepared.  After `tries` attempts in a row without success it accepts at least a frame. -/
structure WorkingDevice (dev : Device) (gap : ℤ) (tries : ℕ) : Prop where
  answers : ∀ h n, 1 ≤ n → (0 ≤ dev h n ∧ dev h n ≤ n) ∨ dev h n = -EAGAIN ∨ (dev h n = -EPIPE ∧ (unprepared h = true ∨ ∀ a, sinceUnderrun h = some a → gap ≤ a))
  moves : ∀ h n, 1 ≤ n → tries ≤ waiting h → unprepared h = false → 0 < dev h n

/-- The integer `s` is played for a sample of value `q`: full scale is 32767, and what is louder changes its sign. -/
def PlayedAs (q : ℚ) (s : ℤ) : Prop :=
  (|q| ≤ 1 → NearestEven (32767 * q) s) ∧ (65535 / 65534 < q → q ≤ 2 → s < 0 ∧ NearestEven (32767 * q) (s + 65536)) ∧
    (q < -(65537 / 65534) → -2 ≤ q → 0 < s ∧ NearestEven (32767 * q) (s - 65536))

end Verif.Spec
