import Verif.Model.Zoh

/-! Model of `src/src_linear.c`. -/

namespace Verif

/-- `(float) (a + input_index * ((double) b - a))`, src_linear.c:95-96 and 122-123; `a`, `b` are `float`s promoted to
`double`. -/
def linearSample (a b : F32) (idx : F64) : F32 :=
  let a' := Fl.conv f64 a
  Fl.conv f32 (Fl.add a' (Fl.mul idx (Fl.sub (Fl.conv f64 b) a')))

/-- "samples before first sample in input array", src_linear.c:86-102. -/
def linearFirst (st : SrcState) (d : SrcData) (lv : List F32) (inCount outCount : ℤ) (s : LoopSt) :
    M (Bool × LoopSt) := do
  if ¬ (Fl.lt s.idx one64 = true ∧ s.outGen < outCount) then return (false, s)
  if Fl.ge (Fl.add (dbl s.inUsed) (Fl.mul (dbl st.channels) (Fl.add one64 s.idx))) (dbl inCount) = true then
    return (false, s)
  let ratio := interpRatio st.lastRatio d.srcRatio s.outGen outCount s.ratio
  let (mem, outGen) ← forM' st.channels.toNat (fun ch (p : Mem × ℤ) => do
      let a ← rdLast lv ch
      let b ← rdIn p.1 d st.channels ch
      let mem ← wrOut p.1 d st.channels p.2 (linearSample a b s.idx)
      pure (mem, p.2 + 1)) (s.mem, s.outGen)
  return (true, { s with mem, outGen, ratio, idx := Fl.add s.idx (Fl.div one64 ratio) })

/-- Main processing loop, src_linear.c:109-133 (`SRC_DEBUG` is 0). -/
def linearMain (st : SrcState) (d : SrcData) (inCount outCount : ℤ) (s : LoopSt) : M (Bool × LoopSt) := do
  if ¬ (s.outGen < outCount ∧
      Fl.lt (Fl.add (dbl s.inUsed) (Fl.mul (dbl st.channels) s.idx)) (dbl inCount) = true) then return (false, s)
  let ratio := interpRatio st.lastRatio d.srcRatio s.outGen outCount s.ratio
  let (mem, outGen) ← forM' st.channels.toNat (fun ch (p : Mem × ℤ) => do
      let a ← rdIn p.1 d st.channels (s.inUsed - st.channels + ch)
      let b ← rdIn p.1 d st.channels (s.inUsed + ch)
      let mem ← wrOut p.1 d st.channels p.2 (linearSample a b s.idx)
      pure (mem, p.2 + 1)) (s.mem, s.outGen)
  let s' ← normIdx st.channels { s with mem, outGen, ratio, idx := Fl.add s.idx (Fl.div one64 ratio) }
  return (true, s')

/-- `linear_vari_process`, src_linear.c:53-153. -/
def linearVariProcess (m : Mem) (st : SrcState) (d : SrcData) : M ProcRes := do
  if d.inputFrames ≤ 0 then return { err := Err.NO_ERROR, mem := m, st, data := d }
  match st.priv with
  | .null => return { err := Err.NO_PRIVATE, mem := m, st, data := d }
  | .linear z =>
    let lv ← initLast m d st.channels z
    let inCount ← chkI64 (d.inputFrames * st.channels)
    let outCount ← chkI64 (d.outputFrames * st.channels)
    let z1 : InterpData := { dirty := true, inCount, inUsed := 0, outCount, outGen := 0, lastValue := lv }
    if isBadSrcRatio st.lastRatio then
      return { err := Err.BAD_INTERNAL_STATE, mem := m, st := { st with priv := .linear z1 }, data := d }
    let fuel := d.outputFrames.toNat + 1
    let s ← whileM (linearFirst st d lv inCount outCount) fuel
      { mem := m, inUsed := 0, outGen := 0, idx := st.lastPosition, ratio := st.lastRatio }
    let s ← normIdx st.channels s
    let s ← whileM (linearMain st d inCount outCount) fuel s
    if st.channels = 0 then throw .divByZero
    let (inUsed, idx) := carryIdx st.channels inCount s
    let lv ← saveLast s.mem d st.channels inUsed lv
    return { err := Err.NO_ERROR, mem := s.mem,
             st := { st with lastPosition := idx, lastRatio := s.ratio,
                             priv := .linear { dirty := true, inCount, inUsed, outCount, outGen := s.outGen, lastValue := lv } },
             data := { d with inputFramesUsed := inUsed.tdiv st.channels, outputFramesGen := s.outGen.tdiv st.channels } }
  | _ => throw .typeConfusion

/-- `linear_reset`, src_linear.c:232-244. -/
def linearReset (channels : ℤ) (z : InterpData) : InterpData :=
  { z with dirty := false, lastValue := List.replicate channels.toNat zero32 }

end Verif
