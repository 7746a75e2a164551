import Verif.Model.Basic

/-! Model of `src/src_zoh.c`. -/

namespace Verif

/-- src_zoh.c:89-90 and 108-109 (identical to src_linear.c:91-92, 111-112): the instantaneous ratio.
`long` operands are converted to `double` before use. -/
def interpRatio (last target : F64) (outGen outCount : ℤ) (cur : F64) : F64 :=
  if outCount > 0 ∧ Fl.gt (Fl.abs (Fl.sub last target)) SRC_MIN_RATIO_DIFF = true then
    Fl.add last (Fl.div (Fl.mul (dbl outGen) (Fl.sub target last)) (dbl outCount))
  else cur

/-- Body of the loop "samples before first sample in input array", src_zoh.c:84-99. -/
def zohFirst (st : SrcState) (d : SrcData) (lv : List F32) (inCount outCount : ℤ) (s : LoopSt) : M (Bool × LoopSt) := do
  if ¬ (Fl.lt s.idx one64 = true ∧ s.outGen < outCount) then return (false, s)
  if Fl.ge (Fl.add (dbl s.inUsed) (Fl.mul (dbl st.channels) s.idx)) (dbl inCount) = true then return (false, s)
  let ratio := interpRatio st.lastRatio d.srcRatio s.outGen outCount s.ratio
  let (mem, outGen) ← forM' st.channels.toNat (fun ch (p : Mem × ℤ) => do
      let v ← rdLast lv ch
      let mem ← wrOut p.1 d st.channels p.2 v
      pure (mem, p.2 + 1)) (s.mem, s.outGen)
  return (true, { s with mem, outGen, ratio, idx := Fl.add s.idx (Fl.div one64 ratio) })

/-- `rem = fmod_one (input_index) ; in_used += channels * psf_lrint (input_index - rem) ; input_index = rem`,
src_zoh.c:101-103 and 118-121, src_linear.c:104-106 and 129-132.  The product is computed in `int`. -/
def normIdx (channels : ℤ) (s : LoopSt) : M LoopSt := do
  let rem := fmodOne s.idx
  let k ← chkI32 (channels * lrint (Fl.sub s.idx rem))
  return { s with inUsed := s.inUsed + k, idx := rem }

/-- Main processing loop, src_zoh.c:106-122. -/
def zohMain (st : SrcState) (d : SrcData) (inCount outCount : ℤ) (s : LoopSt) : M (Bool × LoopSt) := do
  if ¬ (s.outGen < outCount ∧
      Fl.le (Fl.add (dbl s.inUsed) (Fl.mul (dbl st.channels) s.idx)) (dbl inCount) = true) then return (false, s)
  let ratio := interpRatio st.lastRatio d.srcRatio s.outGen outCount s.ratio
  let (mem, outGen) ← forM' st.channels.toNat (fun ch (p : Mem × ℤ) => do
      let v ← rdIn p.1 d st.channels (s.inUsed - st.channels + ch)
      let mem ← wrOut p.1 d st.channels p.2 v
      pure (mem, p.2 + 1)) (s.mem, s.outGen)
  let s' ← normIdx st.channels { s with mem, outGen, ratio, idx := Fl.add s.idx (Fl.div one64 ratio) }
  return (true, s')

/-- `zoh_vari_process`, src_zoh.c:51-142.  Both loops get `output_frames + 1` units of fuel; the theorems show that this is
never exhausted. -/
def zohVariProcess (m : Mem) (st : SrcState) (d : SrcData) : M ProcRes := do
  if d.inputFrames ≤ 0 then return { err := Err.NO_ERROR, mem := m, st, data := d }
  match st.priv with
  | .null => return { err := Err.NO_PRIVATE, mem := m, st, data := d }
  | .zoh z =>
    let lv ← initLast m d st.channels z
    let inCount ← chkI64 (d.inputFrames * st.channels)
    let outCount ← chkI64 (d.outputFrames * st.channels)
    let z1 : InterpData := { dirty := true, inCount, inUsed := 0, outCount, outGen := 0, lastValue := lv }
    if isBadSrcRatio st.lastRatio then
      return { err := Err.BAD_INTERNAL_STATE, mem := m, st := { st with priv := .zoh z1 }, data := d }
    let fuel := d.outputFrames.toNat + 1
    let s ← whileM (zohFirst st d lv inCount outCount) fuel
      { mem := m, inUsed := 0, outGen := 0, idx := st.lastPosition, ratio := st.lastRatio }
    let s ← normIdx st.channels s
    let s ← whileM (zohMain st d inCount outCount) fuel s
    if st.channels = 0 then throw .divByZero
    let (inUsed, idx) := carryIdx st.channels inCount s
    let lv ← saveLast s.mem d st.channels inUsed lv
    return { err := Err.NO_ERROR, mem := s.mem,
             st := { st with lastPosition := idx, lastRatio := s.ratio,
                             priv := .zoh { dirty := true, inCount, inUsed, outCount, outGen := s.outGen, lastValue := lv } },
             data := { d with inputFramesUsed := inUsed.tdiv st.channels, outputFramesGen := s.outGen.tdiv st.channels } }
  | _ => throw .typeConfusion

/-- `zoh_reset`, src_zoh.c:221-233. -/
def zohReset (channels : ℤ) (z : InterpData) : InterpData :=
  { z with dirty := false, lastValue := List.replicate channels.toNat zero32 }

end Verif
