import Verif.Spec.Stream
import Verif.Spec.Sinc

/-! Specification: histories of the sinc converters. -/

namespace Verif.Spec
open Verif

/-- The filter tables of the build have the dimensions of the library's tables (fastest_coeffs.h, mid_qual_coeffs.h, high_qual_coeffs.h:
`increment` and number of entries).  The entries are arbitrary floats. -/
structure LibraryTables (cfg : Config) : Prop where
  fast : ∀ t, cfg.fast = some t → t.increment = 128 ∧ t.count = 2464
  mid : ∀ t, cfg.mid = some t → t.increment = 491 ∧ t.count = 22438
  best : ∀ t, cfg.best = some t → t.increment = 2381 ∧ t.count = 340239

/-- Converter numbers of the sinc converters. -/
def SincType (type : ℤ) : Prop := type = SRC_SINC_BEST_QUALITY ∨ type = SRC_SINC_MEDIUM_QUALITY ∨ type = SRC_SINC_FASTEST

/-- Sizes for which the sinc properties are claimed: fewer than `2^31` samples of input and at most `2^50` samples of output in one
call; the ratio is not NaN.  Everything else is arbitrary. -/
structure SincSized (ch : ℤ) (d : SrcData) : Prop where
  ratio : d.srcRatio ≠ .nan
  inSize : samples ch d.inputFrames < 2 ^ 31
  outSize : samples ch d.outputFrames ≤ 2 ^ 50

/-- What the caller may still do before the next reset. -/
inductive Use where
  /-- ratios may move freely, `end_of_input` is never set -/
  | freely
  /-- `end_of_input` may be set, ratios never drop; the largest ratio so far is `q` -/
  | rising (q : ℚ)

/-- Ratio argument `r` after the largest ratio `q`: a valid ratio is not below `q` and not below the floor `lo`; other values are
rejected by the library and do not matter. -/
def NotBelow (lo q : ℚ) (r : F64) : Prop := ∀ v, r.val = some v → 1 / 256 ≤ v → v ≤ 256 → lo ≤ v ∧ q ≤ v

/-- Largest ratio after the ratio argument `r`. -/
def riseTo (q : ℚ) (r : F64) : ℚ :=
  match r.val with
  | some v => if 1 / 256 ≤ v ∧ v ≤ 256 then v else q
  | none => q

/-- Histories of `src_process`, `src_set_ratio` and `src_reset` calls of the following kind: between two resets, either no call sets
`end_of_input`, or the ratios passed never decrease (in particular, any history at a constant ratio) and are at least `lo`. -/
inductive SincUse (lo : ℚ) (ch : ℤ) : Use → List Op → Prop
  | nil (u : Use) : SincUse lo ch u []
  | reset (u u' : Use) (ops : List Op) : u' = .freely ∨ u' = .rising 0 → SincUse lo ch u' ops → SincUse lo ch u (.reset :: ops)
  | noData (u : Use) (m : Mem) (ops : List Op) : SincUse lo ch u ops → SincUse lo ch u (.process m none :: ops)
  | freeRatio (r : F64) (ops : List Op) : r ≠ .nan → SincUse lo ch .freely ops → SincUse lo ch .freely (.setRatio r :: ops)
  | freeCall (m : Mem) (d : SrcData) (ops : List Op) : SincSized ch d → d.endOfInput = 0 → SincUse lo ch .freely ops →
      SincUse lo ch .freely (.process m (some d) :: ops)
  | riseRatio (q : ℚ) (r : F64) (ops : List Op) : r ≠ .nan → NotBelow lo q r → SincUse lo ch (.rising (riseTo q r)) ops →
      SincUse lo ch (.rising q) (.setRatio r :: ops)
  | riseCall (q : ℚ) (m : Mem) (d : SrcData) (ops : List Op) : SincSized ch d → NotBelow lo q d.srcRatio →
      SincUse lo ch (.rising (riseTo q d.srcRatio)) ops → SincUse lo ch (.rising q) (.process m (some d) :: ops)

/-- Smallest ratio for which the flushing of the sinc converters is claimed: any for one channel, `1/180` for more. -/
def sincFloor (ch : ℕ) : ℚ := if ch = 1 then 0 else 1 / 180

/-- Where a history stands between two resets, as far as the safety of the sinc converters depends on it. -/
inductive Phase where
  /-- any ratios; `end_of_input` is never set -/
  | endless
  /-- ratios from 1/180 on; `end_of_input` may be set and has not been set yet -/
  | live
  /-- ratios from 1/180 on; `end_of_input` has been set, and `q` is the last ratio since then (or 1 if that is smaller) -/
  | flushing (q : ℚ)
  /-- one channel, any ratios that do not drop: `q` is the last one (or 1 if that is smaller) -/
  | rising (q : ℚ)

/-- A valid ratio argument `r` is not below `a`; other values are rejected by the library and do not matter. -/
def AtLeast (a : ℚ) (r : F64) : Prop := ∀ v, r.val = some v → 1 / 256 ≤ v → v ≤ 256 → a ≤ v

/-- The ratio argument `r` and the value of `end_of_input` are allowed in this phase. -/
def Phase.Allows (ch : ℤ) (r : F64) (eoi : ℤ) : Phase → Prop
  | .endless => eoi = 0
  | .live => AtLeast (1 / 180) r
  | .flushing q => AtLeast (1 / 180) r ∧ (ch = 1 ∨ AtLeast q r)
  | .rising q => ch = 1 ∧ AtLeast q r

/-- The phase after a call with ratio argument `r`. -/
def Phase.next (r : F64) (eoi : ℤ) : Phase → Phase
  | .endless => .endless
  | .live => if eoi = 0 then .live else .flushing (min 1 (riseTo 0 r))
  | .flushing q => .flushing (min 1 (riseTo q r))
  | .rising q => .rising (min 1 (riseTo q r))

/-- Phases after the handle was created or reset. -/
def Phase.First (p : Phase) : Prop := p = .endless ∨ p = .live ∨ p = .rising 0

/-- Histories of `src_process`, `src_set_ratio` and `src_reset` calls in which, between two resets, one of the following holds:
* no call sets `end_of_input`;
* all ratios are at least 1/180, and if there are several channels: from the first call on that sets `end_of_input` no ratio below 1 is
  smaller than an earlier one;
* there is one channel, and no ratio below 1 is smaller than an earlier one. -/
inductive SafeUse (ch : ℤ) : Phase → List Op → Prop
  | nil (p : Phase) : SafeUse ch p []
  | reset (p p' : Phase) (ops : List Op) : p'.First → SafeUse ch p' ops → SafeUse ch p (.reset :: ops)
  | noData (p : Phase) (m : Mem) (ops : List Op) : SafeUse ch p ops → SafeUse ch p (.process m none :: ops)
  | ratio (p : Phase) (r : F64) (ops : List Op) : r ≠ .nan → p.Allows ch r 0 → SafeUse ch (p.next r 0) ops → SafeUse ch p (.setRatio r :: ops)
  | call (p : Phase) (m : Mem) (d : SrcData) (ops : List Op) : SincSized ch d → p.Allows ch d.srcRatio d.endOfInput →
      SafeUse ch (p.next d.srcRatio d.endOfInput) ops → SafeUse ch p (.process m (some d) :: ops)

/-- The stream `x` preceded by silence. -/
def signal (x : ℕ → ℕ → F32) (z : ℤ) (c : ℕ) : F32 := if z < 0 then zero32 else x z.toNat c

/-- Like `Fed`, with `end_of_input`: the stream has `len` frames (`none`: its end is never signalled), and a call sets `end_of_input` only
if its input buffer reaches to the end of the stream. -/
inductive FedTo (x : ℕ → ℕ → F32) (ch : ℕ) (len : Option ℕ) : ℕ → List Op → List Obs → ℕ → Prop
  | nil (U : ℕ) : FedTo x ch len U [] [] U
  | call (U V : ℕ) (m : Mem) (d d' : SrcData) (o : Obs) (ops : List Op) (os : List Obs) :
      Presents x ch U m d → (d.endOfInput ≠ 0 → len = some (U + d.inputFrames.toNat)) → o.ret = 0 → o.data = some d' →
      FedTo x ch len (U + d'.inputFramesUsed.toNat) ops os V →
      FedTo x ch len U (.process m (some d) :: ops) (o :: os) V
  | setRatio (U V : ℕ) (r : F64) (o : Obs) (ops : List Op) (os : List Obs) :
      FedTo x ch len U ops os V → FedTo x ch len U (.setRatio r :: ops) (o :: os) V

/-- Sample of channel `c` that a sinc converter with table `t` puts out for the input time `τ` and the ratio `ρ`, when `D` frames of
history are available. -/
def sincIdeal (t : CoeffTable) (x : ℕ → ℕ → F32) (D : ℤ) (ρ τ : ℚ) (c : ℕ) : F32 :=
  sincAt t.coeffs (t.count - 2) t.increment ρ (Int.fract τ) D (fun z => signal x (⌊τ⌋ + z) c)

/-- History that no filter exceeds. -/
def allHistory (t : CoeffTable) : ℤ := 4096 * t.count

/-- The call has sizes for which the sinc properties are claimed, the ratio is not NaN, and the call is one for a handle without
callback. -/
def SizedOp (ch : ℤ) : Op → Prop
  | .process _ (some d) => SincSized ch d
  | .process _ none => True
  | .setRatio r => r ≠ .nan
  | .reset => True
  | .read .. => False

/-- A call since the last reset has set `end_of_input`.  `before`: the same for the calls before the list. -/
def endSeen (before : Bool) : List Op → Bool
  | [] => before
  | .process _ (some d) :: ops => endSeen (before || decide (d.endOfInput ≠ 0)) ops
  | .reset :: ops => endSeen false ops
  | _ :: ops => endSeen before ops

/-- The call asks for a ratio below `q` (one that the library accepts). -/
def AsksBelow (q : ℚ) (op : Op) : Prop := ∃ r : F64, ∃ v : ℚ, (op = .setRatio r ∨ ∃ m d, op = .process m (some d) ∧ d.srcRatio = r) ∧
  r.val = some v ∧ 1 / 256 ≤ v ∧ v < q

/-- The stream `x` ends after `len` frames (if `len` is given): it is continued by silence. -/
def EndsAt (x : ℕ → ℕ → F32) (len : Option ℕ) : Prop := ∀ n, len = some n → ∀ k, n ≤ k → ∀ c, x k c = zero32

/-- Number of output frames generated by the successful `src_process` calls of a history. -/
def generated : List Obs → ℕ
  | [] => 0
  | o :: os => (if o.ret = 0 then (match o.data with | some d => d.outputFramesGen.toNat | none => 0) else 0) + generated os

/-- The faults that a converter of the given type is known to have: a read outside a buffer, except with zero order hold, and a failed
assertion in a sinc converter with several channels. -/
def Excused (type : ℤ) (ch : ℕ) (f : Fault) : Prop :=
  (f = .oobRead ∧ type ≠ SRC_ZERO_ORDER_HOLD) ∨ (f = .assertFailed ∧ SincType type ∧ 2 ≤ ch)

end Verif.Spec
