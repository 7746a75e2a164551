import Verif.Spec.SincHistory

/-! Specification of the callback interface: a caller that pulls output with `src_callback_read`, and a callback that hands out
an input stream buffer by buffer. -/

namespace Verif.Spec
open Verif

/-- Number of frames that the first `c` callbacks returned together, if callback `i` returns the count `cnt i` (a negative count
brings no frames). -/
def offered (cnt : ℕ → ℤ) : ℕ → ℕ
  | 0 => 0
  | c + 1 => offered cnt c + (cnt c).toNat

/-- The memory at `a` holds the frames `U`, …, `U + n - 1` of the stream `x`. -/
def Holds (x : ℕ → ℕ → F32) (ch : ℕ) (m : Mem) (a : ℤ) (U n : ℕ) : Prop :=
  ∀ k c : ℕ, k < n → c < ch → m (a + ((ch * k + c : ℕ) : ℤ)) = x (U + k) c

/-- The callback hands out the stream `x`: its `c`-th invocation returns the count `cnt c` and, if this is positive, a buffer at
`addr c` with the next `cnt c` frames of the stream. -/
def HandsOut (x : ℕ → ℕ → F32) (ch : ℕ) (cnt addr : ℕ → ℤ) (cb : Callback) : Prop :=
  ∀ ud c m, (cb ud c m).1 = cnt c ∧
    (0 < cnt c → (cb ud c m).2.1 = some (addr c) ∧ Holds x ch (cb ud c m).2.2 (addr c) (offered cnt c) (cnt c).toNat)

/-- The callback does not write to the output buffer of the `src_callback_read` call that invokes it. -/
def SparesOutput (ch : ℕ) (cb : Callback) (frames data : ℤ) : Prop :=
  ∀ ud c m a, data ≤ a → a < data + frames * ch → (cb ud c m).2.2 a = m a

/-- A caller of `src_callback_read` on a handle whose callback has been invoked `c` times: each call finds the buffer that the last
callback returned as it was returned, and records no error.  Between the calls memory may change otherwise, and `src_set_ratio`
may be called. -/
inductive Pulls (x : ℕ → ℕ → F32) (ch : ℕ) (cnt addr : ℕ → ℤ) : ℕ → List Op → List Obs → Prop
  | nil (c : ℕ) : Pulls x ch cnt addr c [] []
  | read (c : ℕ) (cb : Callback) (dummy : ℤ) (fuel : ℕ) (m : Mem) (ratio : F64) (frames data : ℤ) (o : Obs) (ops : List Op)
      (os : List Obs) : HandsOut x ch cnt addr cb → SparesOutput ch cb frames data →
      (∀ i, c = i + 1 → Holds x ch m (addr i) (offered cnt i) (cnt i).toNat) → o.err = 0 →
      Pulls x ch cnt addr o.calls ops os → Pulls x ch cnt addr c (.read cb dummy fuel c m ratio frames data :: ops) (o :: os)
  | setRatio (c : ℕ) (r : F64) (o : Obs) (ops : List Op) (os : List Obs) : Pulls x ch cnt addr c ops os →
      Pulls x ch cnt addr c (.setRatio r :: ops) (o :: os)

/-- `Session x ch cnt cb ud U c m ops os V c' m'`: starting with `U` frames of the stream consumed, `c` callbacks made and the memory
`m`, the `src_process` calls `ops` with outcome `os`, interleaved with invocations of the callback `cb`, lead to `V` consumed frames,
`c'` callbacks and the memory `m'`.  The callback is invoked only when every frame it has returned is consumed; each call offers all the
frames that the callback has returned and that are not consumed yet; `end_of_input` is set only after the callback has returned 0. -/
inductive Session (x : ℕ → ℕ → F32) (ch : ℕ) (cnt : ℕ → ℤ) (cb : Callback) (ud : ℕ) :
    ℕ → ℕ → Mem → List Op → List Obs → ℕ → ℕ → Mem → Prop
  | done (U c : ℕ) (m : Mem) : Session x ch cnt cb ud U c m [] [] U c m
  | fetch (U c : ℕ) (m : Mem) (ops : List Op) (os : List Obs) (V c' : ℕ) (m' : Mem) : U = offered cnt c →
      Session x ch cnt cb ud U (c + 1) (cb ud c m).2.2 ops os V c' m' → Session x ch cnt cb ud U c m ops os V c' m'
  | call (U c : ℕ) (m : Mem) (d d' : SrcData) (o : Obs) (m1 : Mem) (ops : List Op) (os : List Obs) (V c' : ℕ) (m' : Mem) :
      Presents x ch U m d → U + d.inputFrames.toNat = offered cnt c → (d.endOfInput ≠ 0 → ∃ i < c, cnt i = 0) → o.ret = 0 →
      o.data = some d' → o.mem = some m1 → Session x ch cnt cb ud (U + d'.inputFramesUsed.toNat) c m1 ops os V c' m' →
      Session x ch cnt cb ud U c m (.process m (some d) :: ops) (o :: os) V c' m'

/-- The frames delivered by one call, read from memory after the call. -/
def pulledBy (ch : ℕ) : Op → Obs → List (List F32)
  | .read _ _ _ _ _ _ _ data, o =>
    match o.mem with
    | some m => (List.range o.ret.toNat).map fun j => frameOf ch fun c => m (data + ((ch * j + c : ℕ) : ℤ))
    | none => []
  | _, _ => []

/-- All frames delivered in a history of `src_callback_read` calls. -/
def pulled (ch : ℕ) : List Op → List Obs → List (List F32)
  | op :: ops, o :: os => pulledBy ch op o ++ pulled ch ops os
  | _, _ => []

/-- The history `ops`, `os` of a callback handle with user pointer `ud`, starting with `U` frames consumed and `c` callbacks made, does what
the history `ps`, `qs` of `src_process` calls does: each `src_callback_read` is a session of such calls whose output is what
`src_callback_read` delivers. -/
inductive Explained (x : ℕ → ℕ → F32) (ch : ℕ) (cnt : ℕ → ℤ) (ud : ℕ) :
    ℕ → ℕ → List Op → List Obs → List Op → List Obs → ℕ → ℕ → Prop
  | nil (U c : ℕ) : Explained x ch cnt ud U c [] [] [] [] U c
  | read (U c : ℕ) (cb : Callback) (dummy : ℤ) (fuel : ℕ) (m m' : Mem) (ratio : F64) (frames data : ℤ) (o : Obs) (ops : List Op)
      (os : List Obs) (ps : List Op) (qs : List Obs) (U' : ℕ) (ps' : List Op) (qs' : List Obs) (V c' : ℕ) :
      Session x ch cnt cb ud U c m ps qs U' o.calls m' → o.mem = some m' →
      pulledBy ch (.read cb dummy fuel c m ratio frames data) o = outputs ch qs →
      (∀ p ∈ ps, ∀ m d, p = .process m (some d) → d.srcRatio = ratio) →
      Explained x ch cnt ud U' o.calls ops os ps' qs' V c' →
      Explained x ch cnt ud U c (.read cb dummy fuel c m ratio frames data :: ops) (o :: os) (ps ++ ps') (qs ++ qs') V c'
  | setRatio (U c : ℕ) (r : F64) (o o' : Obs) (ops : List Op) (os : List Obs) (ps : List Op) (qs : List Obs) (V c' : ℕ) :
      o'.data = none → Explained x ch cnt ud U c ops os ps qs V c' →
      Explained x ch cnt ud U c (.setRatio r :: ops) (o :: os) (.setRatio r :: ps) (o' :: qs) V c'

/-- The ratio is not NaN and a read asks for at most `n` samples. -/
def SizedRead (ch : ℕ) (n : ℤ) : Op → Prop
  | .read _ _ _ _ _ ratio frames _ => ratio ≠ .nan ∧ samples ch frames ≤ n
  | .setRatio r => r ≠ .nan
  | _ => True

/-- A call on a callback handle in the ranges for which the counts of `src_callback_read` are claimed: ratios are not NaN, and neither
the request nor any buffer of the callback has more than `2^52` samples.  The callback is arbitrary otherwise. -/
def OrdinaryPull (ch : ℕ) : Op → Prop
  | .read cb _ _ _ _ ratio frames _ => ratio ≠ .nan ∧ samples ch frames ≤ 2 ^ 52 ∧ ∀ ud c m, samples ch (cb ud c m).1 ≤ 2 ^ 52
  | .setRatio r => r ≠ .nan
  | _ => True

/-- The callback never returns a negative count. -/
def NonnegCounts (cb : Callback) : Prop := ∀ ud c m, 0 ≤ (cb ud c m).1

/-- A call whose callback never returns a negative count. -/
def NonnegPull : Op → Prop
  | .read cb .. => NonnegCounts cb
  | _ => True

/-- `OrdinaryPull` for the sinc converters: a buffer of the callback has fewer than `2^31` samples, a request at most `2^50`. -/
def SincPull (ch : ℕ) : Op → Prop
  | .read cb _ _ _ _ ratio frames _ => ratio ≠ .nan ∧ samples ch frames ≤ 2 ^ 50 ∧ ∀ ud c m, samples ch (cb ud c m).1 < 2 ^ 31
  | .setRatio r => r ≠ .nan
  | _ => True

/-- The callback returns the counts `cnt`: its `i`-th invocation returns `cnt i`. -/
def Counts (cnt : ℕ → ℤ) (cb : Callback) : Prop := ∀ ud i m, (cb ud i m).1 = cnt i

/-- `StaysAtEnd cnt c e ops os c' e'`: a history of a callback handle in which a callback that has reported the end of the input by returning 0
returns 0 until the next `src_reset`.  `c`, `c'` are the numbers of callbacks made before and after the history; `e`, `e'` tell whether the
callback has returned 0 since the last `src_reset`. -/
inductive StaysAtEnd (cnt : ℕ → ℤ) : ℕ → Prop → List Op → List Obs → ℕ → Prop → Prop
  | nil (c : ℕ) (e : Prop) : StaysAtEnd cnt c e [] [] c e
  | read (c : ℕ) (e : Prop) (cb : Callback) (dummy : ℤ) (fuel : ℕ) (m : Mem) (ratio : F64) (frames data : ℤ) (o : Obs) (ops : List Op)
      (os : List Obs) (c' : ℕ) (e' : Prop) : Counts cnt cb → (e → ∀ i, c ≤ i → i < o.calls → cnt i = 0) →
      (∀ i j, c ≤ i → i < j → j < o.calls → cnt i = 0 → cnt j = 0) →
      StaysAtEnd cnt o.calls (e ∨ ∃ i, c ≤ i ∧ i < o.calls ∧ cnt i = 0) ops os c' e' →
      StaysAtEnd cnt c e (.read cb dummy fuel c m ratio frames data :: ops) (o :: os) c' e'
  | process (c : ℕ) (e : Prop) (m : Mem) (d : Option SrcData) (o : Obs) (ops : List Op) (os : List Obs) (c' : ℕ) (e' : Prop) :
      StaysAtEnd cnt c e ops os c' e' → StaysAtEnd cnt c e (.process m d :: ops) (o :: os) c' e'
  | setRatio (c : ℕ) (e : Prop) (r : F64) (o : Obs) (ops : List Op) (os : List Obs) (c' : ℕ) (e' : Prop) :
      StaysAtEnd cnt c e ops os c' e' → StaysAtEnd cnt c e (.setRatio r :: ops) (o :: os) c' e'
  | reset (c : ℕ) (e : Prop) (o : Obs) (ops : List Op) (os : List Obs) (c' : ℕ) (e' : Prop) :
      StaysAtEnd cnt c False ops os c' e' → StaysAtEnd cnt c e (.reset :: ops) (o :: os) c' e'

/-- The call `f` returns: with enough iterations allowed its result (or the fault that ends it) does not depend on the number allowed. -/
def Returns {α : Type} (f : ℕ → M α) : Prop := ∃ (N : ℕ) (r : M α), r ≠ .error .outOfFuel ∧ ∀ fuel, N ≤ fuel → f fuel = r

/-- The call `f` never returns: it is still running after any number of iterations. -/
def Hangs {α : Type} (f : ℕ → M α) : Prop := ∀ fuel, f fuel = .error .outOfFuel

/-- The value returned by a `src_callback_read` call on a handle with user pointer `ud` is between 0 and the number of frames asked for, and
less than this number only if `src_error` reports an error, or a callback made during this call returned 0. -/
def PullCount (ud : ℕ) : Op → Obs → Prop
  | .read cb _ _ calls _ _ frames _, o => 0 ≤ o.ret ∧ o.ret ≤ max frames 0 ∧
      (o.ret < frames → o.err ≠ 0 ∨ ∃ c m, calls ≤ c ∧ c < o.calls ∧ (cb ud c m).1 = 0)
  | _, _ => True

/-- Every ratio passed in a history of `src_callback_read` calls is `r`. -/
def ReadsAt (r : ℚ) : Op → Prop
  | .read _ _ _ _ _ ratio _ _ => ratio.val = some r
  | .setRatio q => q.val = some r
  | _ => True

/-- A callback that has returned 0 returns no more frames; `len` is the length of the stream then. -/
def EndsFor (cnt : ℕ → ℤ) (len : Option ℕ) : Prop := ∀ i, cnt i = 0 → ∀ c, i ≤ c → len = some (offered cnt c)

/-- `src_error` after the call `op` of a zero order hold or linear handle, if it was `e` before: only `src_reset` clears it, only
`src_callback_read` sets it, and then it returns 0. -/
def StickyAfter (e : ℤ) : Op → Obs → Prop
  | .reset, o => o.err = 0
  | .read .., o => o.err = e ∨ (o.err ≠ 0 ∧ o.ret = 0)
  | _, o => o.err = e

/-- The same for any converter: a `src_process` call may put its own result into `src_error`, unless it is an argument error, and
a `src_callback_read` without error may clear it. -/
def ErrorAfter (e : ℤ) : Op → Obs → Prop
  | .reset, o => o.err = 0
  | .read .., o => o.err = e ∨ o.err = 0 ∨ (o.err ≠ 0 ∧ o.ret = 0)
  | .process .., o => o.err = e ∨ (o.err = o.ret ∧ ¬ ArgError o.ret)
  | .setRatio _, o => o.err = e

/-- `A` holds of every call of a history that starts with `src_error` equal to `e`. -/
inductive ErrorChain (A : ℤ → Op → Obs → Prop) : ℤ → List Op → List Obs → Prop
  | nil (e : ℤ) : ErrorChain A e [] []
  | cons (e : ℤ) (op : Op) (o : Obs) (ops : List Op) (os : List Obs) : A e op o → ErrorChain A o.err ops os → ErrorChain A e (op :: ops) (o :: os)

end Verif.Spec
