import Verif.Spec.Contract
import Verif.Spec.Interp

/-! Specification of a stream: a caller that feeds an input stream to a handle piece by piece, always continuing after the frames
reported as used, and collects the output. -/

namespace Verif.Spec
open Verif

/-- The input buffer of the call holds the frames `U`, `U + 1`, … of the stream `x` (`x k c`: frame `k`, channel `c`). -/
def Presents (x : ℕ → ℕ → F32) (ch U : ℕ) (m : Mem) (d : SrcData) : Prop :=
  ∀ k c : ℕ, (k : ℤ) < d.inputFrames → c < ch → m (d.dataIn + ((ch * k + c : ℕ) : ℤ)) = x (U + k) c

/-- `Fed x ch U ops os V`: with `U` frames of the stream `x` already consumed, the caller makes the calls `ops`, observes `os`, and
then `V` frames are consumed.  Each `src_process` call succeeds and presents the stream from the first unconsumed frame on; between
them `src_set_ratio` may be called. -/
inductive Fed (x : ℕ → ℕ → F32) (ch : ℕ) : ℕ → List Op → List Obs → ℕ → Prop
  | nil (U : ℕ) : Fed x ch U [] [] U
  | call (U V : ℕ) (m : Mem) (d d' : SrcData) (o : Obs) (ops : List Op) (os : List Obs) :
      Presents x ch U m d → o.ret = 0 → o.data = some d' → Fed x ch (U + d'.inputFramesUsed.toNat) ops os V →
      Fed x ch U (.process m (some d) :: ops) (o :: os) V
  | setRatio (U V : ℕ) (r : F64) (o : Obs) (ops : List Op) (os : List Obs) :
      Fed x ch U ops os V → Fed x ch U (.setRatio r :: ops) (o :: os) V

/-- One frame of `ch` channels. -/
def frameOf (ch : ℕ) (f : ℕ → F32) : List F32 := (List.range ch).map f

/-- The output frames of one call, read from memory after the call. -/
def outOf (ch : ℕ) (o : Obs) : List (List F32) :=
  match o.mem, o.data with
  | some m, some d => (List.range d.outputFramesGen.toNat).map fun j =>
      frameOf ch fun c => m (d.dataOut + ((ch * j + c : ℕ) : ℤ))
  | _, _ => []

/-- All output frames of a history. -/
def outputs (ch : ℕ) (os : List Obs) : List (List F32) := os.flatMap (outOf ch)

/-- Every ratio passed in the history is `r`. -/
def AtRatio (r : ℚ) : Op → Prop
  | .process _ (some d) => d.srcRatio.val = some r
  | .setRatio q => q.val = some r
  | _ => True

/-- Every ratio passed in the history is between `a` and `b`. -/
def RatioIn (a b : ℚ) : Op → Prop
  | .process _ (some d) => ∀ r, d.srcRatio.val = some r → a ≤ r ∧ r ≤ b
  | .setRatio q => ∀ r, q.val = some r → a ≤ r ∧ r ≤ b
  | _ => True

/-- Ratios in force for the output frames of a history, one per frame, on a handle that remembers the ratio `l` (0: none yet).  A successful call
for ratio `t` starts at the remembered ratio, or at `t` if there is none; `rat l t ch o g` is the ratio of its frame `g` when it has room for `o` frames.
The ratio of its last frame is then remembered, and a successful `src_set_ratio` replaces the remembered ratio. -/
def ratiosFrom (rat : ℚ → ℚ → ℕ → ℕ → ℕ → ℚ) (ch : ℕ) : ℚ → List Op → List Obs → List ℚ
  | l, .process _ (some d) :: ops, o :: os =>
    match d.srcRatio.val, o.data with
    | some t, some d' =>
      if o.ret = 0 then
        (List.range d'.outputFramesGen.toNat).map (rat (if l = 0 then t else l) t ch d.outputFrames.toNat) ++
          ratiosFrom rat ch (if d'.outputFramesGen.toNat = 0 then (if l = 0 then t else l)
            else rat (if l = 0 then t else l) t ch d.outputFrames.toNat (d'.outputFramesGen.toNat - 1)) ops os
      else ratiosFrom rat ch l ops os
    | _, _ => ratiosFrom rat ch l ops os
  | l, .setRatio r :: ops, o :: os => ratiosFrom rat ch (if o.ret = 0 then r.val.getD l else l) ops os
  | l, _ :: ops, _ :: os => ratiosFrom rat ch l ops os
  | _, _, _ => []

/-- The call asks for at most `2^50` samples of output. -/
def SmallOut (ch : ℤ) : Op → Prop
  | .process _ (some d) => samples ch d.outputFrames ≤ 2 ^ 50
  | _ => True

/-- Input time of output frame `j`, in input frames, when the ratios used are `ρ 0`, `ρ 1`, … -/
def timeAt (ρ : ℕ → ℚ) (j : ℕ) : ℚ := (posAt ⟨0, 0⟩ ρ j).k + (posAt ⟨0, 0⟩ ρ j).i

/-- What an interpolating converter of the given type (3 zero order hold, 4 linear) produces in channel `c` for the stream `x` at the
input time `t`: the held frame `⌊t⌋ - 1` (frame 0 if `t < 1`), or the interpolation between this frame and frame `⌊t⌋`.  Frame `k` of
the stream is at time `k + 1`: the converters delay by one frame. -/
def idealAt (type : ℤ) (x : ℕ → ℕ → F32) (t : ℚ) (c : ℕ) : F32 :=
  if type = 3 then x (⌊t⌋₊ - 1) c else between (x (⌊t⌋₊ - 1) c) (x ⌊t⌋₊ c) (Fl.round f64 (Int.fract t))

end Verif.Spec
