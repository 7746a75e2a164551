import Verif.Spec.History

/-! Model of construction, copying and destruction of handles on a heap (src_zoh.c:165-290, src_linear.c:176-301,
src_sinc.c:206-364, 1233-1252, samplerate.c:24-82, 409-425, 489-530).

A heap is a partial map from addresses to blocks; address 0 is `NULL`.  Every `calloc`/`malloc` of the code is a separate request that
the allocator may refuse, and every `free` is explicit.  A call that works on one handle (`src_process`, `src_callback_read`,
`src_set_ratio`, `src_reset`) reads the three blocks of the handle, runs the function of `Model/Api` or `Model/Callback` on the value and
writes the three blocks back; the code changes them in place, and reads nothing else of the heap. -/

namespace Verif
open Spec

/-- A block of memory obtained from `calloc` or `malloc`.  The pointers in a block are addresses. -/
inductive Block where
  /-- `SRC_STATE` (common.h:155-175); `priv` is `private_data` (the component `priv` of the record is not used). -/
  | state (s : SrcState) (priv : ℕ)
  /-- `ZOH_DATA` (src_zoh.c:27-37); `last` is `last_value` (the component `lastValue` of the record is not used). -/
  | zoh (z : InterpData) (last : ℕ)
  /-- `LINEAR_DATA` (src_linear.c:27-37), likewise. -/
  | linear (z : InterpData) (last : ℕ)
  /-- `SINC_FILTER` (src_sinc.c:47-77); `buf` is `buffer` (the component `buffer` of the record is not used).  `coeffs` points to a
  constant table and is kept as its contents. -/
  | sinc (f : SincFilter) (buf : ℕ)
  /-- The array `last_value`. -/
  | values (l : List F32)
  /-- The array `buffer` with `len` entries; entries outside do not exist (the function is 0 there). -/
  | buffer (len : ℤ) (a : ℤ → F32)
  /-- A block of the application. -/
  | foreign (n : ℕ)

/-- What can go wrong on the heap; `code` is a fault of the code that works on the handle. -/
inductive HFault where
  | useAfterFree     -- access through an address that holds no block
  | doubleFree       -- `free` of an address that holds no block
  | wrongBlock       -- access through an address that holds a block of another type
  | outOfBounds      -- `memcpy` beyond the end of a block
  | code (f : Fault)
  deriving DecidableEq

/-- Result of a function on the heap. -/
abbrev H (α : Type) := Except HFault α

/-- A function of the code that does not touch the heap. -/
def ofM {α : Type} : M α → H α
  | .ok a => .ok a
  | .error f => .error (.code f)

/-- The heap; `requests` counts the allocations asked for, `refused` those of them that returned `NULL` (neither is visible to the code). -/
structure World where
  blocks : ℕ → Option Block
  requests : ℕ
  refused : ℕ

/-- An allocator: decides from the heap and the request which address to return, or to fail; `junk` is what a `malloc`ed array contains. -/
structure Alloc where
  pick : World → Block → Option ℕ
  junk : World → ℤ → F32
  fresh : ∀ w b a, pick w b = some a → a ≠ 0 ∧ w.blocks a = none

def World.set (w : World) (a : ℕ) (b : Block) : World := { w with blocks := Function.update w.blocks a (some b) }

/-- `calloc`/`malloc`; `b` is the block as the allocation leaves it. -/
def allocate (A : Alloc) (w : World) (b : Block) : ℕ × World :=
  match A.pick w b with
  | some a => (a, { w.set a b with requests := w.requests + 1 })
  | none => (0, { w with requests := w.requests + 1, refused := w.refused + 1 })

/-- `free (a)` -/
def free (w : World) (a : ℕ) : H World :=
  if a = 0 then pure w
  else match w.blocks a with
    | some _ => pure { w with blocks := Function.update w.blocks a none }
    | none => throw .doubleFree

/-- Access to the block at `a`. -/
def peek (w : World) (a : ℕ) : H Block :=
  match w.blocks a with
  | some b => pure b
  | none => throw .useAfterFree

/-- Replaces the contents of the block at `a`. -/
def poke (w : World) (a : ℕ) (b : Block) : H World := do
  let _ ← peek w a
  pure (w.set a b)

def asState : Block → H (SrcState × ℕ)
  | .state s q => pure (s, q)
  | _ => throw .wrongBlock

def asValues : Block → H (List F32)
  | .values l => pure l
  | _ => throw .wrongBlock

def asSinc : Block → H (SincFilter × ℕ)
  | .sinc f r => pure (f, r)
  | _ => throw .wrongBlock

/-- Bounds of a `memcpy`. -/
def inBounds (b : Bool) : H Unit := if b then pure () else throw .outOfBounds

def asBuffer : Block → H (ℤ × (ℤ → F32))
  | .buffer n a => pure (n, a)
  | _ => throw .wrongBlock

/-- The private data at address `q` as a value. -/
def loadPriv (w : World) (q : ℕ) : H Priv := do
  if q = 0 then return .null
  match ← peek w q with
  | .zoh z r => do
    let l ← asValues (← peek w r)
    pure (.zoh { z with lastValue := l })
  | .linear z r => do
    let l ← asValues (← peek w r)
    pure (.linear { z with lastValue := l })
  | .sinc f r => do
    let (_, a) ← asBuffer (← peek w r)
    pure (.sinc { f with buffer := a })
  | _ => throw .wrongBlock

/-- The handle at address `p` as a value. -/
def load (w : World) (p : ℕ) : H SrcState := do
  let (s, q) ← asState (← peek w p)
  let priv ← loadPriv w q
  pure { s with priv }

/-- Writes private data back. -/
def storePriv (w : World) (q : ℕ) (priv : Priv) : H World := do
  if q = 0 then return w
  match ← peek w q, priv with
  | .zoh _ r, .zoh z => do
    let w ← poke w q (.zoh { z with lastValue := [] } r)
    poke w r (.values z.lastValue)
  | .linear _ r, .linear z => do
    let w ← poke w q (.linear { z with lastValue := [] } r)
    poke w r (.values z.lastValue)
  | .sinc _ r, .sinc f => do
    let (n, _) ← asBuffer (← peek w r)
    let w ← poke w q (.sinc { f with buffer := fun _ => zero32 } r)
    poke w r (.buffer n f.buffer)
  | _, _ => throw .wrongBlock

/-- Writes the handle at address `p` back. -/
def store (w : World) (p : ℕ) (st : SrcState) : H World := do
  let (_, q) ← asState (← peek w p)
  let w ← poke w p (.state { st with priv := .null } q)
  storePriv w q st.priv

/-- The two interpolating converters: the code of `src_zoh.c` and `src_linear.c` for construction, copying and closing is the same but for
names (compared with `diff`), so the model has one template. -/
inductive IKind where
  | zoh
  | linear

def IKind.block : IKind → InterpData → ℕ → Block
  | .zoh => Block.zoh
  | .linear => Block.linear

def IKind.vt : IKind → Vt
  | .zoh => .zoh
  | .linear => .linear

def IKind.get : IKind → Block → H (InterpData × ℕ)
  | .zoh, .zoh z r => pure (z, r)
  | .linear, .linear z r => pure (z, r)
  | _, _ => throw .wrongBlock

/-- `zoh_data_new`, src_zoh.c:165-183; `linear_data_new`, src_linear.c:176-194. -/
def interpDataNew (A : Alloc) (k : IKind) (w : World) (channels : ℤ) : H (ℕ × World) := do
  ofM (assertM (decide (channels > 0)))
  let z := { interpInit channels with lastValue := [] }
  let (q, w) := allocate A w (k.block z 0)
  if q = 0 then return (0, w)
  let (r, w) := allocate A w (.values (List.replicate channels.toNat zero32))
  let w ← poke w q (k.block z r)
  if r = 0 then do
    let w ← free w q
    pure (0, w)
  else pure (q, w)

/-- `state->vt->reset (state)` at the end of the constructors. -/
def resetAt (w : World) (p : ℕ) : H World := do
  let st ← load w p
  store w p { st with priv := resetPriv st }

/-- `zoh_state_new`, src_zoh.c:185-219; `linear_state_new`, src_linear.c:196-230.  Result: error number, handle, heap. -/
def interpStateNew (A : Alloc) (k : IKind) (w : World) (channels : ℤ) : H (ℤ × ℕ × World) := do
  ofM (assertM (decide (channels > 0)))
  -- the block is zeroed by `calloc` (`vt` = `NULL`); `vt` is set at the end
  let s := stateInit k.vt channels
  let (p, w) := allocate A w (.state s 0)
  if p = 0 then return (Err.MALLOC_FAILED, 0, w)
  let (q, w) ← interpDataNew A k w channels
  let w ← poke w p (.state s q)
  if q = 0 then do
    let w ← free w p
    return (Err.MALLOC_FAILED, 0, w)
  let w ← resetAt w p
  return (Err.NO_ERROR, p, w)

/-- `sinc_filter_new`, src_sinc.c:206-258.  The type assertion at its start cannot fail: the caller has selected the table by the type. -/
def sincFilterNew (A : Alloc) (t : CoeffTable) (w : World) (channels : ℤ) : H (ℕ × World) := do
  ofM (assertM (decide (channels > 0) && decide (channels ≤ 128)))
  -- the block as `calloc` leaves it has all components 0; they are set (to constants) before anything else happens
  let (q, w) := allocate A w (.sinc (sincFilterInit t 0) 0)
  if q = 0 then return (0, w)
  let bLen ← ofM (sincBLen t channels)
  let (r, w) := allocate A w (.buffer (bLen + channels) (fun _ => zero32))
  let w ← poke w q (.sinc (sincFilterInit t bLen) r)
  if r = 0 then do
    let w ← free w q
    pure (0, w)
  else pure (q, w)

/-- `sinc_state_new`, src_sinc.c:260-309. -/
def sincStateNewH (A : Alloc) (t : CoeffTable) (w : World) (channels : ℤ) : H (ℤ × ℕ × World) := do
  ofM (assertM (decide (channels > 0)))
  if channels > 128 then return (Err.BAD_CHANNEL_COUNT, 0, w)
  let s := stateInit (sincVt channels) channels
  let (p, w) := allocate A w (.state s 0)
  if p = 0 then return (Err.MALLOC_FAILED, 0, w)
  let (q, w) ← sincFilterNew A t w channels
  let w ← poke w p (.state s q)
  if q = 0 then do
    let w ← free w p
    return (Err.MALLOC_FAILED, 0, w)
  let w ← resetAt w p
  return (Err.NO_ERROR, p, w)

/-- `src_new` = `psrc_set_converter`, samplerate.c:24-28, 489-530.  Result: the error number stored through `error` (if that is not
`NULL`), the handle, the heap. -/
def newH (A : Alloc) (cfg : Config) (w : World) (type channels : ℤ) : H (ℤ × ℕ × World) :=
  match cfg.table type with
  | some t => sincStateNewH A t w channels
  | none =>
    if type = SRC_ZERO_ORDER_HOLD then interpStateNew A .zoh w channels
    else if type = SRC_LINEAR then interpStateNew A .linear w channels
    else pure (Err.BAD_CONVERTER, 0, w)

/-- `src_callback_new`, samplerate.c:51-75. -/
def callbackNewH (A : Alloc) (cfg : Config) (w : World) (func : Option ℕ) (type channels : ℤ) (userData : ℕ) : H (ℤ × ℕ × World) := do
  if func = none then return (Err.BAD_CALLBACK, 0, w)
  let (e, p, w) ← newH A cfg w type channels
  if p = 0 then return (e, 0, w)
  let st ← load w p
  let w ← store w p { srcResetState st with mode := .callback, callbackFunc := func, userData }
  return (e, p, w)

/-- `zoh_copy`, src_zoh.c:237-270; `linear_copy`, src_linear.c:248-281.  Result: the new handle (0: `NULL`) and the heap. -/
def interpCopy (A : Alloc) (k : IKind) (w : World) (p : ℕ) : H (ℕ × World) := do
  let (s, q) ← asState (← peek w p)
  if q = 0 then return (0, w)
  let (dst, w) := allocate A w (.state (stateInit .zoh 0) 0)
  if dst = 0 then return (0, w)
  let w ← poke w dst (.state s q)                     -- memcpy (to, state, sizeof (SRC_STATE))
  let (z, r) ← k.get (← peek w q)
  let (toPriv, w) := allocate A w (k.block { interpInit 0 with lastValue := [] } 0)
  if toPriv = 0 then do
    let w ← free w dst
    return (0, w)
  let w ← poke w toPriv (k.block z r)                -- memcpy (to_priv, from_priv, sizeof (ZOH_DATA))
  let n := s.channels.toNat
  let (toLast, w) := allocate A w (.values ((List.range n).map fun i : ℕ => A.junk w i))
  let w ← poke w toPriv (k.block z toLast)
  if toLast = 0 then do
    let w ← free w dst
    let w ← free w toPriv
    return (0, w)
  let src ← asValues (← peek w r)
  let old ← asValues (← peek w toLast)
  inBounds (decide (n ≤ src.length ∧ n ≤ old.length))
  let w ← poke w toLast (.values (src.take n ++ old.drop n))   -- memcpy (..., sizeof (float) * channels)
  let w ← poke w dst (.state s toPriv)                -- to->private_data = to_priv
  return (dst, w)

/-- Contents of an array after `memcpy` of its first `n` entries. -/
def copied (n : ℤ) (src dst : ℤ → F32) : ℤ → F32 := fun i => if 0 ≤ i ∧ i < n then src i else dst i

/-- `sinc_copy`, src_sinc.c:330-364. -/
def sincCopy (A : Alloc) (w : World) (p : ℕ) : H (ℕ × World) := do
  let (s, q) ← asState (← peek w p)
  if q = 0 then return (0, w)
  let (dst, w) := allocate A w (.state (stateInit .zoh 0) 0)
  if dst = 0 then return (0, w)
  let w ← poke w dst (.state s q)                     -- memcpy (to, state, sizeof (SRC_STATE))
  let (f, r) ← asSinc (← peek w q)
  let (toFilter, w) := allocate A w (.sinc (sincFilterInit ⟨0, 0, fun _ => zero32⟩ 0) 0)
  if toFilter = 0 then do
    let w ← free w dst
    return (0, w)
  let w ← poke w toFilter (.sinc f r)                -- memcpy (to_filter, from_filter, sizeof (SINC_FILTER))
  let n := f.bLen + s.channels
  let (toBuf, w) := allocate A w (.buffer n (copied n (A.junk w) fun _ => zero32))
  let w ← poke w toFilter (.sinc f toBuf)
  if toBuf = 0 then do
    let w ← free w dst
    let w ← free w toFilter
    return (0, w)
  let (n1, src) ← asBuffer (← peek w r)
  let (n2, old) ← asBuffer (← peek w toBuf)
  inBounds (decide (n ≤ n1 ∧ n ≤ n2))
  let w ← poke w toBuf (.buffer n2 (copied n src old))         -- memcpy (..., sizeof (float) * (b_len + channels))
  let w ← poke w dst (.state s toFilter)              -- to->private_data = to_filter
  return (dst, w)

/-- `orig->vt->copy (orig)`; the tables are at src_zoh.c:39-46, src_linear.c:41-48, src_sinc.c:88-131. -/
def copyH (A : Alloc) (w : World) (p : ℕ) : H (ℕ × World) := do
  let (s, _) ← asState (← peek w p)
  match s.vt with
  | .zoh => interpCopy A .zoh w p
  | .linear => interpCopy A .linear w p
  | _ => sincCopy A w p

/-- `src_clone`, samplerate.c:30-49. -/
def cloneH (A : Alloc) (w : World) (p : ℕ) : H (ℤ × ℕ × World) := do
  if p = 0 then return (Err.BAD_STATE, 0, w)
  let (q, w) ← copyH A w p
  return (if q = 0 then Err.MALLOC_FAILED else Err.NO_ERROR, q, w)

/-- The array that a block of private data points to. -/
def Block.array : Block → H ℕ
  | .zoh _ r | .linear _ r | .sinc _ r => pure r
  | _ => throw .wrongBlock

/-- `zoh_close`, src_zoh.c:272-290; `linear_close`, src_linear.c:283-301; `sinc_close`, src_sinc.c:1233-1252. -/
def closeH (w : World) (p : ℕ) : H World := do
  let (_, q) ← asState (← peek w p)
  if q = 0 then free w p
  else do
    let r ← (← peek w q).array
    let w ← free w r
    let w ← free w q
    free w p

/-- `src_delete`, samplerate.c:77-83. -/
def deleteH (w : World) (p : ℕ) : H World := if p = 0 then pure w else closeH w p

/-- A call on one handle, see the head of the file.  On `NULL` the functions answer without touching the heap
(samplerate.c:88-89, 154-155, 243-244, 266-267). -/
def onH (w : World) (p : ℕ) (op : Op) : H (Obs × World) := do
  let st ← load w p
  let (o, st') ← ofM (op.run st)
  let w ← store w p st'
  return (o, w)

/-- Calls on the `NULL` handle. -/
def onNull : Op → M Obs
  | .process m d => do
    let (e, m, st, d) ← srcProcess m none d
    pure ⟨e, some m, d, 0, srcError st, srcGetChannels st⟩
  | .read cb dummy fuel calls m ratio frames data => do
    let (n, m, st, k) ← srcCallbackRead cb dummy fuel calls m none ratio frames data
    pure ⟨n, some m, none, k, srcError st, srcGetChannels st⟩
  | .setRatio r => pure ⟨(srcSetRatio none r).1, none, none, 0, srcError none, srcGetChannels none⟩
  | .reset => pure ⟨(srcReset none).1, none, none, 0, srcError none, srcGetChannels none⟩

/-- `src_simple`, samplerate.c:409-425. -/
def simpleH (A : Alloc) (cfg : Config) (w : World) (m : Mem) (d : Option SrcData) (type channels : ℤ) : H ((ℤ × Mem × Option SrcData) × World) := do
  let (e, p, w) ← newH A cfg w type channels
  if p = 0 then return ((e, m, d), w)
  match d with
  | none => throw (.code .nullDeref)
  | some d => do
    let st ← load w p
    let (e, m, st', d) ← ofM (srcProcess m (some st) (some { d with endOfInput := 1 }))
    let w ← store w p (st'.getD st)
    let w ← deleteH w p
    return ((e, m, d), w)

/-- An API call in a program with any number of handles. -/
inductive Call where
  | new (type channels : ℤ)
  | callbackNew (func : Option ℕ) (type channels : ℤ) (userData : ℕ)
  | clone (p : ℕ)
  | delete (p : ℕ)
  | on (p : ℕ) (op : Op)
  | simple (m : Mem) (d : Option SrcData) (type channels : ℤ)

/-- What the caller sees of a call: an error number and a handle, the observations on a handle, the result of `src_simple`. -/
inductive Answer where
  | handle (err : ℤ) (p : ℕ)
  | deleted
  | obs (o : Obs)
  | simple (err : ℤ) (m : Mem) (d : Option SrcData)

def Call.run (A : Alloc) (cfg : Config) (w : World) : Call → H (Answer × World)
  | .new t c => do
    let (e, p, w) ← newH A cfg w t c
    return (.handle e p, w)
  | .callbackNew f t c u => do
    let (e, p, w) ← callbackNewH A cfg w f t c u
    return (.handle e p, w)
  | .clone p => do
    let (e, q, w) ← cloneH A w p
    return (.handle e q, w)
  | .delete p => do
    let w ← deleteH w p
    return (.deleted, w)
  | .on p op =>
    if p = 0 then do
      let o ← ofM (onNull op)
      return (.obs o, w)
    else do
      let (o, w) ← onH w p op
      return (.obs o, w)
  | .simple m d t c => do
    let ((e, m, d), w) ← simpleH A cfg w m d t c
    return (.simple e m d, w)

/-- A program: a sequence of calls. -/
def runCalls (A : Alloc) (cfg : Config) : List Call → World → H (List Answer × World)
  | [], w => pure ([], w)
  | c :: cs, w => do
    let (a, w) ← c.run A cfg w
    let (as, w) ← runCalls A cfg cs w
    pure (a :: as, w)

end Verif
