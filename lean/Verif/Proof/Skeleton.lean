import Verif.Spec.Interp
import Verif.Proof.Loop
import Verif.Proof.Ratio
import Verif.Model.Linear
import Verif.Spec.Position

/-! The common skeleton of `zoh_vari_process` and `linear_vari_process`, and its behaviour. -/

namespace Verif
open Spec

/-- What distinguishes the two interpolating converters. -/
structure Kernel where
  brk : (channels inCount : ℤ) → LoopSt → Bool
  guard : (channels inCount : ℤ) → LoopSt → Bool
  firstV : SrcData → ℤ → List F32 → F64 → Mem → ℕ → M F32
  mainV : SrcData → ℤ → ℤ → F64 → Mem → ℕ → M F32

def skFirst (k : Kernel) (st : SrcState) (d : SrcData) (lv : List F32) (inCount outCount : ℤ) (s : LoopSt) :
    M (Bool × LoopSt) := do
  if ¬ (Fl.lt s.idx one64 = true ∧ s.outGen < outCount) then return (false, s)
  if k.brk st.channels inCount s = true then return (false, s)
  let ratio := interpRatio st.lastRatio d.srcRatio s.outGen outCount s.ratio
  let (mem, outGen) ← forM' st.channels.toNat (fun ch (p : Mem × ℤ) => do
      let v ← k.firstV d st.channels lv s.idx p.1 ch
      let mem ← wrOut p.1 d st.channels p.2 v
      pure (mem, p.2 + 1)) (s.mem, s.outGen)
  return (true, { s with mem, outGen, ratio, idx := Fl.add s.idx (Fl.div one64 ratio) })

def skMain (k : Kernel) (st : SrcState) (d : SrcData) (inCount outCount : ℤ) (s : LoopSt) : M (Bool × LoopSt) := do
  if ¬ (s.outGen < outCount ∧ k.guard st.channels inCount s = true) then return (false, s)
  let ratio := interpRatio st.lastRatio d.srcRatio s.outGen outCount s.ratio
  let (mem, outGen) ← forM' st.channels.toNat (fun ch (p : Mem × ℤ) => do
      let v ← k.mainV d st.channels s.inUsed s.idx p.1 ch
      let mem ← wrOut p.1 d st.channels p.2 v
      pure (mem, p.2 + 1)) (s.mem, s.outGen)
  let s' ← normIdx st.channels { s with mem, outGen, ratio, idx := Fl.add s.idx (Fl.div one64 ratio) }
  return (true, s')

/-- The part of the process functions after the handling of `private_data`. -/
def skBody (k : Kernel) (wrap : InterpData → Priv) (m : Mem) (st : SrcState) (d : SrcData) (z : InterpData) :
    M ProcRes := do
  let lv ← initLast m d st.channels z
  let inCount ← chkI64 (d.inputFrames * st.channels)
  let outCount ← chkI64 (d.outputFrames * st.channels)
  let z1 : InterpData := { dirty := true, inCount, inUsed := 0, outCount, outGen := 0, lastValue := lv }
  if isBadSrcRatio st.lastRatio then
    return { err := Err.BAD_INTERNAL_STATE, mem := m, st := { st with priv := wrap z1 }, data := d }
  let fuel := d.outputFrames.toNat + 1
  let s ← whileM (skFirst k st d lv inCount outCount) fuel
    { mem := m, inUsed := 0, outGen := 0, idx := st.lastPosition, ratio := st.lastRatio }
  let s ← normIdx st.channels s
  let s ← whileM (skMain k st d inCount outCount) fuel s
  if st.channels = 0 then throw .divByZero
  let (inUsed, idx) := carryIdx st.channels inCount s
  let lv ← saveLast s.mem d st.channels inUsed lv
  return { err := Err.NO_ERROR, mem := s.mem,
           st := { st with lastPosition := idx, lastRatio := s.ratio,
                           priv := wrap { dirty := true, inCount, inUsed, outCount, outGen := s.outGen, lastValue := lv } },
           data := { d with inputFramesUsed := inUsed.tdiv st.channels, outputFramesGen := s.outGen.tdiv st.channels } }

def zohKernel : Kernel where
  brk ch inCount s := Fl.ge (Fl.add (dbl s.inUsed) (Fl.mul (dbl ch) s.idx)) (dbl inCount)
  guard ch inCount s := Fl.le (Fl.add (dbl s.inUsed) (Fl.mul (dbl ch) s.idx)) (dbl inCount)
  firstV _ _ lv _ _ ch := rdLast lv ch
  mainV d channels inUsed _ m ch := rdIn m d channels (inUsed - channels + ch)

def linearKernel : Kernel where
  brk ch inCount s := Fl.ge (Fl.add (dbl s.inUsed) (Fl.mul (dbl ch) (Fl.add one64 s.idx))) (dbl inCount)
  guard ch inCount s := Fl.lt (Fl.add (dbl s.inUsed) (Fl.mul (dbl ch) s.idx)) (dbl inCount)
  firstV d channels lv idx m ch := do
    let a ← rdLast lv ch
    let b ← rdIn m d channels ch
    pure (Spec.between a b idx)
  mainV d channels inUsed idx m ch := do
    let a ← rdIn m d channels (inUsed - channels + ch)
    let b ← rdIn m d channels (inUsed + ch)
    pure (Spec.between a b idx)

theorem zohFirst_eq : zohFirst = skFirst zohKernel := by
  funext st d lv a b s
  simp only [zohFirst, skFirst, zohKernel]
  congr
theorem zohMain_eq : zohMain = skMain zohKernel := by
  funext st d a b s
  simp only [zohMain, skMain, zohKernel]
  congr

/-- The interpolation of the model is that of the specification. -/
theorem linear_between (a b : F32) (i : F64) : linearSample a b i = Spec.between a b i := rfl

theorem linearFirst_eq : linearFirst = skFirst linearKernel := by
  funext st d lv a b s
  simp only [linearFirst, skFirst, linearKernel, linear_between]
  simp only [bind_assoc, pure_bind]
theorem linearMain_eq : linearMain = skMain linearKernel := by
  funext st d a b s
  simp only [linearMain, skMain, linearKernel, linear_between]
  simp only [bind_assoc, pure_bind]

theorem zoh_eq_body {m : Mem} {st : SrcState} {d : SrcData} {z : InterpData} (hp : st.priv = .zoh z)
    (hn : 0 < d.inputFrames) : zohVariProcess m st d = skBody zohKernel .zoh m st d z := by
  simp only [zohVariProcess, not_le.2 hn, if_false, hp, zohFirst_eq, zohMain_eq, skBody]

theorem linear_eq_body {m : Mem} {st : SrcState} {d : SrcData} {z : InterpData} (hp : st.priv = .linear z)
    (hn : 0 < d.inputFrames) : linearVariProcess m st d = skBody linearKernel .linear m st d z := by
  simp only [linearVariProcess, not_le.2 hn, if_false, hp, linearFirst_eq, linearMain_eq, skBody]

end Verif
