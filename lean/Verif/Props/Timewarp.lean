import Verif.Model.Timewarp
import Verif.Spec.Timewarp
import Verif.Props.Duration
import Verif.Proof.CallbackStream
import Verif.Props.Filter

/-! The example program `timewarp-file.c`: C57. -/

namespace Verif
open Spec

/-! ### The table of ratios -/

/-- Number of entries of the table in use after `c` frames. -/
def warpNo (c : ℕ) : ℕ :=
  if c < 20000 then 1 else if c < 20200 then 2 else if c < 40000 then 3 else if c < 40300 then 4 else if c < 60000 then 5
  else if c < 60400 then 6 else if c < 80000 then 7 else 8

/-- `warpAt` for arbitrary ratios. -/
def warpSel (r0 r1 r2 r3 r4 : F64) (c : ℕ) : F64 :=
  if c < 20000 then r0 else if c < 20200 then r1 else if c < 40000 then r0 else if c < 40300 then r2 else if c < 60000 then r0
  else if c < 60400 then r3 else if c < 80000 then r0 else r4

/-- `warp` for arbitrary ratios. -/
def warpTab (r0 r1 r2 r3 r4 : F64) : List (ℤ × F64) :=
  [(0, r0), (20000, r1), (20200, r0), (40000, r2), (40300, r0), (60000, r3), (60400, r0), (80000, r4), (81000, r0)]

theorem warp_step (r0 r1 r2 r3 r4 : F64) {c c' : ℕ} (h4 : c ≤ c') (h5 : c' ≤ c + 8) :
    ∃ index ratio, (warpTab r0 r1 r2 r3 r4)[warpNo c]? = some (index, ratio) ∧
      (((warpNo c : ℤ) < (warpTab r0 r1 r2 r3 r4).length - 1 ∧ index ≤ (c' : ℤ) ∧ warpNo c' = warpNo c + 1 ∧ warpSel r0 r1 r2 r3 r4 c' = ratio) ∨
       (¬ ((warpNo c : ℤ) < (warpTab r0 r1 r2 r3 r4).length - 1 ∧ index ≤ (c' : ℤ)) ∧ warpNo c' = warpNo c ∧
          warpSel r0 r1 r2 r3 r4 c' = warpSel r0 r1 r2 r3 r4 c)) := by
  have hc : (c < 20000) ∨ (20000 ≤ c ∧ c < 20200) ∨ (20200 ≤ c ∧ c < 40000) ∨ (40000 ≤ c ∧ c < 40300) ∨ (40300 ≤ c ∧ c < 60000) ∨
    (60000 ≤ c ∧ c < 60400) ∨ (60400 ≤ c ∧ c < 80000) ∨ 80000 ≤ c := by omega
  rcases hc with hc | hc | hc | hc | hc | hc | hc | hc
  · have e1 : warpNo c = 1 := by unfold warpNo; rw [if_pos (by omega)]
    have e2 : warpSel r0 r1 r2 r3 r4 c = r0 := by unfold warpSel; rw [if_pos (by omega)]
    rw [e1, e2]
    refine ⟨_, _, rfl, ?_⟩
    rcases lt_or_ge c' 20000 with h | h
    · exact Or.inr ⟨fun h' => by have := h'.2; omega, by unfold warpNo; rw [if_pos (by omega)],
        by unfold warpSel; rw [if_pos (by omega)]⟩
    · exact Or.inl ⟨by simp [warpTab], by exact_mod_cast h, by unfold warpNo; rw [if_neg (by omega), if_pos (by omega)],
        by unfold warpSel; rw [if_neg (by omega), if_pos (by omega)]⟩
  · have e1 : warpNo c = 2 := by unfold warpNo; rw [if_neg (by omega), if_pos (by omega)]
    have e2 : warpSel r0 r1 r2 r3 r4 c = r1 := by unfold warpSel; rw [if_neg (by omega), if_pos (by omega)]
    rw [e1, e2]
    refine ⟨_, _, rfl, ?_⟩
    rcases lt_or_ge c' 20200 with h | h
    · exact Or.inr ⟨fun h' => by have := h'.2; omega, by unfold warpNo; rw [if_neg (by omega), if_pos (by omega)],
        by unfold warpSel; rw [if_neg (by omega), if_pos (by omega)]⟩
    · exact Or.inl ⟨by simp [warpTab], by exact_mod_cast h, by unfold warpNo; rw [if_neg (by omega), if_neg (by omega), if_pos (by omega)],
        by unfold warpSel; rw [if_neg (by omega), if_neg (by omega), if_pos (by omega)]⟩
  · have e1 : warpNo c = 3 := by unfold warpNo; rw [if_neg (by omega), if_neg (by omega), if_pos (by omega)]
    have e2 : warpSel r0 r1 r2 r3 r4 c = r0 := by unfold warpSel; rw [if_neg (by omega), if_neg (by omega), if_pos (by omega)]
    rw [e1, e2]
    refine ⟨_, _, rfl, ?_⟩
    rcases lt_or_ge c' 40000 with h | h
    · exact Or.inr ⟨fun h' => by have := h'.2; omega, by unfold warpNo; rw [if_neg (by omega), if_neg (by omega), if_pos (by omega)],
        by unfold warpSel; rw [if_neg (by omega), if_neg (by omega), if_pos (by omega)]⟩
    · exact Or.inl ⟨by simp [warpTab], by exact_mod_cast h, by unfold warpNo; rw [if_neg (by omega), if_neg (by omega), if_neg (by omega), if_pos (by omega)],
        by unfold warpSel; rw [if_neg (by omega), if_neg (by omega), if_neg (by omega), if_pos (by omega)]⟩
  · have e1 : warpNo c = 4 := by unfold warpNo; rw [if_neg (by omega), if_neg (by omega), if_neg (by omega), if_pos (by omega)]
    have e2 : warpSel r0 r1 r2 r3 r4 c = r2 := by unfold warpSel; rw [if_neg (by omega), if_neg (by omega), if_neg (by omega), if_pos (by omega)]
    rw [e1, e2]
    refine ⟨_, _, rfl, ?_⟩
    rcases lt_or_ge c' 40300 with h | h
    · exact Or.inr ⟨fun h' => by have := h'.2; omega, by unfold warpNo; rw [if_neg (by omega), if_neg (by omega), if_neg (by omega), if_pos (by omega)],
        by unfold warpSel; rw [if_neg (by omega), if_neg (by omega), if_neg (by omega), if_pos (by omega)]⟩
    · exact Or.inl ⟨by simp [warpTab], by exact_mod_cast h, by unfold warpNo; rw [if_neg (by omega), if_neg (by omega), if_neg (by omega), if_neg (by omega), if_pos (by omega)],
        by unfold warpSel; rw [if_neg (by omega), if_neg (by omega), if_neg (by omega), if_neg (by omega), if_pos (by omega)]⟩
  · have e1 : warpNo c = 5 := by unfold warpNo; rw [if_neg (by omega), if_neg (by omega), if_neg (by omega), if_neg (by omega), if_pos (by omega)]
    have e2 : warpSel r0 r1 r2 r3 r4 c = r0 := by unfold warpSel; rw [if_neg (by omega), if_neg (by omega), if_neg (by omega), if_neg (by omega), if_pos (by omega)]
    rw [e1, e2]
    refine ⟨_, _, rfl, ?_⟩
    rcases lt_or_ge c' 60000 with h | h
    · exact Or.inr ⟨fun h' => by have := h'.2; omega, by unfold warpNo; rw [if_neg (by omega), if_neg (by omega), if_neg (by omega), if_neg (by omega), if_pos (by omega)],
        by unfold warpSel; rw [if_neg (by omega), if_neg (by omega), if_neg (by omega), if_neg (by omega), if_pos (by omega)]⟩
    · exact Or.inl ⟨by simp [warpTab], by exact_mod_cast h, by unfold warpNo; rw [if_neg (by omega), if_neg (by omega), if_neg (by omega), if_neg (by omega), if_neg (by omega), if_pos (by omega)],
        by unfold warpSel; rw [if_neg (by omega), if_neg (by omega), if_neg (by omega), if_neg (by omega), if_neg (by omega), if_pos (by omega)]⟩
  · have e1 : warpNo c = 6 := by unfold warpNo; rw [if_neg (by omega), if_neg (by omega), if_neg (by omega), if_neg (by omega), if_neg (by omega), if_pos (by omega)]
    have e2 : warpSel r0 r1 r2 r3 r4 c = r3 := by unfold warpSel; rw [if_neg (by omega), if_neg (by omega), if_neg (by omega), if_neg (by omega), if_neg (by omega), if_pos (by omega)]
    rw [e1, e2]
    refine ⟨_, _, rfl, ?_⟩
    rcases lt_or_ge c' 60400 with h | h
    · exact Or.inr ⟨fun h' => by have := h'.2; omega, by unfold warpNo; rw [if_neg (by omega), if_neg (by omega), if_neg (by omega), if_neg (by omega), if_neg (by omega), if_pos (by omega)],
        by unfold warpSel; rw [if_neg (by omega), if_neg (by omega), if_neg (by omega), if_neg (by omega), if_neg (by omega), if_pos (by omega)]⟩
    · exact Or.inl ⟨by simp [warpTab], by exact_mod_cast h, by unfold warpNo; rw [if_neg (by omega), if_neg (by omega), if_neg (by omega), if_neg (by omega), if_neg (by omega), if_neg (by omega), if_pos (by omega)],
        by unfold warpSel; rw [if_neg (by omega), if_neg (by omega), if_neg (by omega), if_neg (by omega), if_neg (by omega), if_neg (by omega), if_pos (by omega)]⟩
  · have e1 : warpNo c = 7 := by unfold warpNo; rw [if_neg (by omega), if_neg (by omega), if_neg (by omega), if_neg (by omega), if_neg (by omega), if_neg (by omega), if_pos (by omega)]
    have e2 : warpSel r0 r1 r2 r3 r4 c = r0 := by unfold warpSel; rw [if_neg (by omega), if_neg (by omega), if_neg (by omega), if_neg (by omega), if_neg (by omega), if_neg (by omega), if_pos (by omega)]
    rw [e1, e2]
    refine ⟨_, _, rfl, ?_⟩
    rcases lt_or_ge c' 80000 with h | h
    · exact Or.inr ⟨fun h' => by have := h'.2; omega, by unfold warpNo; rw [if_neg (by omega), if_neg (by omega), if_neg (by omega), if_neg (by omega), if_neg (by omega), if_neg (by omega), if_pos (by omega)],
        by unfold warpSel; rw [if_neg (by omega), if_neg (by omega), if_neg (by omega), if_neg (by omega), if_neg (by omega), if_neg (by omega), if_pos (by omega)]⟩
    · exact Or.inl ⟨by simp [warpTab], by exact_mod_cast h, by unfold warpNo; rw [if_neg (by omega), if_neg (by omega), if_neg (by omega), if_neg (by omega), if_neg (by omega), if_neg (by omega), if_neg (by omega)],
        by unfold warpSel; rw [if_neg (by omega), if_neg (by omega), if_neg (by omega), if_neg (by omega), if_neg (by omega), if_neg (by omega), if_neg (by omega)]⟩
  · have e1 : warpNo c = 8 := by unfold warpNo; rw [if_neg (by omega), if_neg (by omega), if_neg (by omega), if_neg (by omega), if_neg (by omega), if_neg (by omega), if_neg (by omega)]
    have e2 : warpSel r0 r1 r2 r3 r4 c = r4 := by unfold warpSel; rw [if_neg (by omega), if_neg (by omega), if_neg (by omega), if_neg (by omega), if_neg (by omega), if_neg (by omega), if_neg (by omega)]
    rw [e1, e2]
    refine ⟨_, _, rfl, ?_⟩
    exact Or.inr ⟨fun h' => by simp [warpTab] at h', by unfold warpNo; rw [if_neg (by omega), if_neg (by omega), if_neg (by omega), if_neg (by omega), if_neg (by omega), if_neg (by omega), if_neg (by omega)],
        by unfold warpSel; rw [if_neg (by omega), if_neg (by omega), if_neg (by omega), if_neg (by omega), if_neg (by omega), if_neg (by omega), if_neg (by omega)]⟩

theorem twRatio_spec {s : TwSt} {c c' : ℕ} (h1 : s.warpIndex = warpNo c) (h2 : s.d.srcRatio = warpAt c) (h3 : s.inputCount = c') (h4 : c ≤ c') (h5 : c' ≤ c + 8) :
    twRatio s = { s with d := { s.d with srcRatio := warpAt c' }, warpIndex := warpNo c' } := by
  obtain ⟨st, d, mem, pos, w, ic, oc, wr, er⟩ := s
  dsimp only at *
  subst h1 h3
  obtain ⟨a1, a2, a3, a4, a5, a6, a7, r⟩ := d
  dsimp only at *
  subst h2
  obtain ⟨index, ratio, e1, e2⟩ := warp_step (Fl.round f64 (100000001 / 100000000)) (Fl.round f64 (101 / 100)) (Fl.round f64 (12 / 10))
    (Fl.round f64 (11 / 10)) (Fl.round f64 (15 / 10)) h4 h5
  have hw : warpTab (Fl.round f64 (100000001 / 100000000)) (Fl.round f64 (101 / 100)) (Fl.round f64 (12 / 10)) (Fl.round f64 (11 / 10)) (Fl.round f64 (15 / 10)) = warp := rfl
  rw [hw] at e1 e2
  unfold twRatio
  dsimp only
  rw [e1]
  dsimp only
  rcases e2 with ⟨f1, f2, f3, f4⟩ | ⟨f1, f2, f3⟩
  · rw [if_pos ⟨f1, f2⟩, f3]
    have f4 : warpAt c' = ratio := f4
    rw [f4]
  · rw [if_neg f1, f2]
    have f3 : warpAt c' = warpAt c := f3
    rw [f3]

theorem warpTab_sel (r0 r1 r2 r3 r4 : F64) (c : ℕ) :
    (((warpTab r0 r1 r2 r3 r4).filter fun e => decide (e.1 ≤ (c : ℤ))).getLast?).map Prod.snd =
      some (if c < 81000 then warpSel r0 r1 r2 r3 r4 c else r0) := by
  have hc : (c < 20000) ∨ (20000 ≤ c ∧ c < 20200) ∨ (20200 ≤ c ∧ c < 40000) ∨ (40000 ≤ c ∧ c < 40300) ∨ (40300 ≤ c ∧ c < 60000) ∨
    (60000 ≤ c ∧ c < 60400) ∨ (60400 ≤ c ∧ c < 80000) ∨ (80000 ≤ c ∧ c < 81000) ∨ 81000 ≤ c := by omega
  unfold warpTab
  simp only [List.filter_cons, List.filter_nil, decide_eq_true_eq]
  rcases hc with hc | hc | hc | hc | hc | hc | hc | hc | hc
  · have e : warpSel r0 r1 r2 r3 r4 c = r0 := by unfold warpSel; rw [if_pos (by omega)]
    rw [if_pos (by omega), if_neg (by omega), if_neg (by omega), if_neg (by omega), if_neg (by omega), if_neg (by omega), if_neg (by omega), if_neg (by omega), if_neg (by omega), if_pos (by omega), e]; rfl
  · have e : warpSel r0 r1 r2 r3 r4 c = r1 := by unfold warpSel; rw [if_neg (by omega), if_pos (by omega)]
    rw [if_pos (by omega), if_pos (by omega), if_neg (by omega), if_neg (by omega), if_neg (by omega), if_neg (by omega), if_neg (by omega), if_neg (by omega), if_neg (by omega), if_pos (by omega), e]; rfl
  · have e : warpSel r0 r1 r2 r3 r4 c = r0 := by unfold warpSel; rw [if_neg (by omega), if_neg (by omega), if_pos (by omega)]
    rw [if_pos (by omega), if_pos (by omega), if_pos (by omega), if_neg (by omega), if_neg (by omega), if_neg (by omega), if_neg (by omega), if_neg (by omega), if_neg (by omega), if_pos (by omega), e]; rfl
  · have e : warpSel r0 r1 r2 r3 r4 c = r2 := by unfold warpSel; rw [if_neg (by omega), if_neg (by omega), if_neg (by omega), if_pos (by omega)]
    rw [if_pos (by omega), if_pos (by omega), if_pos (by omega), if_pos (by omega), if_neg (by omega), if_neg (by omega), if_neg (by omega), if_neg (by omega), if_neg (by omega), if_pos (by omega), e]; rfl
  · have e : warpSel r0 r1 r2 r3 r4 c = r0 := by unfold warpSel; rw [if_neg (by omega), if_neg (by omega), if_neg (by omega), if_neg (by omega), if_pos (by omega)]
    rw [if_pos (by omega), if_pos (by omega), if_pos (by omega), if_pos (by omega), if_pos (by omega), if_neg (by omega), if_neg (by omega), if_neg (by omega), if_neg (by omega), if_pos (by omega), e]; rfl
  · have e : warpSel r0 r1 r2 r3 r4 c = r3 := by unfold warpSel; rw [if_neg (by omega), if_neg (by omega), if_neg (by omega), if_neg (by omega), if_neg (by omega), if_pos (by omega)]
    rw [if_pos (by omega), if_pos (by omega), if_pos (by omega), if_pos (by omega), if_pos (by omega), if_pos (by omega), if_neg (by omega), if_neg (by omega), if_neg (by omega), if_pos (by omega), e]; rfl
  · have e : warpSel r0 r1 r2 r3 r4 c = r0 := by unfold warpSel; rw [if_neg (by omega), if_neg (by omega), if_neg (by omega), if_neg (by omega), if_neg (by omega), if_neg (by omega), if_pos (by omega)]
    rw [if_pos (by omega), if_pos (by omega), if_pos (by omega), if_pos (by omega), if_pos (by omega), if_pos (by omega), if_pos (by omega), if_neg (by omega), if_neg (by omega), if_pos (by omega), e]; rfl
  · have e : warpSel r0 r1 r2 r3 r4 c = r4 := by unfold warpSel; rw [if_neg (by omega), if_neg (by omega), if_neg (by omega), if_neg (by omega), if_neg (by omega), if_neg (by omega), if_neg (by omega)]
    rw [if_pos (by omega), if_pos (by omega), if_pos (by omega), if_pos (by omega), if_pos (by omega), if_pos (by omega), if_pos (by omega), if_pos (by omega), if_neg (by omega), if_pos (by omega), e]; rfl
  · rw [if_pos (by omega), if_pos (by omega), if_pos (by omega), if_pos (by omega), if_pos (by omega), if_pos (by omega), if_pos (by omega), if_pos (by omega), if_pos (by omega), if_neg (by omega)]; rfl

/-- C57, the table: up to frame 81000 the ratio used is that of the last entry of the program's table at or before the frame; from there on it is not, because the last entry is never taken. -/
theorem C57_table (c : ℕ) : ((warp.filter fun e => decide (e.1 ≤ (c : ℤ))).getLast?).map Prod.snd =
    some (if c < 81000 then warpAt c else Fl.round f64 (100000001 / 100000000)) ∧ (81000 ≤ c → warpAt c = Fl.round f64 (15 / 10)) := by
  refine ⟨warpTab_sel _ _ _ _ _ c, fun h => ?_⟩
  unfold warpAt
  rw [if_neg (by omega), if_neg (by omega), if_neg (by omega), if_neg (by omega), if_neg (by omega), if_neg (by omega), if_neg (by omega)]

theorem warpAt_val (c : ℕ) : ∃ q, (warpAt c).val = some q ∧ 1 ≤ q ∧ q ≤ 3 / 2 := by
  have key : ∀ y : F64, (match y.val with | some q => decide (1 ≤ q ∧ q ≤ 3 / 2) | none => false) = true → ∃ q, y.val = some q ∧ 1 ≤ q ∧ q ≤ 3 / 2 := by
    intro y h
    split at h
    · rename_i q hq
      exact ⟨q, hq, of_decide_eq_true h⟩
    · cases h
  unfold warpAt
  split_ifs <;> exact key _ (by decide +kernel)

/-! ### Histories, one call at a time -/

theorem fedTo_snoc {x : ℕ → ℕ → F32} {ch : ℕ} {len : Option ℕ} {U V : ℕ} {ops : List Op} {os : List Obs} (h : FedTo x ch len U ops os V)
    {m : Mem} {d d' : SrcData} {o : Obs} (hP : Presents x ch V m d) (hE : d.endOfInput ≠ 0 → len = some (V + d.inputFrames.toNat)) (h0 : o.ret = 0)
    (hd : o.data = some d') : FedTo x ch len U (ops ++ [.process m (some d)]) (os ++ [o]) (V + d'.inputFramesUsed.toNat) := by
  induction h with
  | nil U => exact .call _ _ _ _ d' _ _ _ hP hE h0 hd (.nil _)
  | call U V m1 d1 d1' o1 ops os a1 a2 a3 a4 _ ih => exact .call _ _ _ _ d1' _ _ _ a1 a2 a3 a4 (ih hP hE)
  | setRatio U V r o1 ops os _ ih => exact .setRatio _ _ _ _ _ _ (ih hP hE)

theorem callsOk_snoc {P : ℕ → SrcData → Prop} {x : ℕ → ℕ → F32} {ch : ℕ} {len : Option ℕ} {U V : ℕ} {ops : List Op} {os : List Obs} (h : FedTo x ch len U ops os V)
    (hC : CallsOk P U ops os) {m : Mem} {d d' : SrcData} {o : Obs} (hP : P V d) (hd : o.data = some d') :
    CallsOk P U (ops ++ [.process m (some d)]) (os ++ [o]) := by
  induction h with
  | nil U => exact .call _ _ _ d' _ _ _ hP hd (.nil _)
  | call U V m1 d1 d1' o1 ops os a1 a2 a3 a4 _ ih =>
    cases hC with
    | call _ _ _ d2 _ _ _ b1 b2 b3 =>
      rw [a4] at b2
      cases b2
      exact .call _ _ _ d1' _ _ _ b1 a4 (ih b3 hP)
  | setRatio U V r o1 ops os _ ih => cases hC

/-- Phase of the handle in the loop. -/
def twPhase (e : ℤ) : Phase := if e = 0 then .live else .flushing 1

/-- Loop invariant of `timewarp_convert`: the calls so far are the history `ops`, `os` with `U` frames consumed; the input buffer holds the next `r` frames. -/
structure TwInv (type : ℤ) (t : CoeffTable) (B : ℤ) (ch : ℕ) (f : SndFile) (inp out : ℤ) (st0 : SrcState) (e0 : ℤ) (c : ℕ) (ops : List Op) (os : List Obs) (U r : ℕ)
    (s : TwSt) : Prop where
  hr : run ops st0 = .ok (os, s.st)
  hist : SHist t.coeffs (t.count - 2) t.increment B ch (twPhase e0) s.st
  fed : FedTo (streamOf f) ch (some f.len) 0 ops os U
  calls : CallsOk (WarpCall inp out ch f.len) 0 ops os
  each : ∀ op ∈ ops, SizedOp ch op ∧ RatioIn 1 (3 / 2) op
  wr : s.written = outputs ch os
  cnt : s.outputCount = (outputs ch os).length
  inF : s.d.inputFrames = r
  r8 : r ≤ 8
  pos : s.pos = U + r
  le : s.pos ≤ f.len
  ic : s.inputCount = s.pos
  di0 : inp ≤ s.d.dataIn
  di1 : s.d.dataIn + ch * r ≤ inp + ch * 8
  holds : ∀ k i : ℕ, k < r → i < ch → s.mem (s.d.dataIn + ((ch * k + i : ℕ) : ℤ)) = streamOf f (U + k) i
  dout : s.d.dataOut = out
  room : s.d.outputFrames = Int.tdiv 1024 ch
  eoi : s.d.endOfInput ≠ 0 → s.pos = f.len
  later : e0 ≠ 0 → s.d.endOfInput ≠ 0
  idx : s.warpIndex = warpNo c
  ratio : s.d.srcRatio = warpAt c
  c0 : c ≤ s.pos
  c8 : s.pos ≤ c + 8

theorem sfReadf_mem {f : SndFile} {ch pos n : ℕ} {m : Mem} {addr : ℤ} {k i : ℕ} (hk : k < (sfReadf f ch pos m addr n).1) (hi : i < ch) :
    (sfReadf f ch pos m addr n).2 (addr + ((ch * k + i : ℕ) : ℤ)) = streamOf f (pos + k) i := by
  unfold sfReadf at hk ⊢
  dsimp only at hk ⊢
  have hl : ch * k + i < ch * min n (f.len - pos) := calc
    ch * k + i < ch * k + ch := by omega
    _ = ch * (k + 1) := by ring
    _ ≤ _ := Nat.mul_le_mul_left _ hk
  rw [if_pos ⟨by omega, by
    have : ((ch * k + i : ℕ) : ℤ) < ((ch * min n (f.len - pos) : ℕ) : ℤ) := by exact_mod_cast hl
    push_cast at this ⊢; linarith⟩]
  have e : addr + ((ch * k + i : ℕ) : ℤ) - addr = ((ch * k + i : ℕ) : ℤ) := by ring
  have e1 : (((ch * k + i : ℕ) : ℤ) / (ch : ℤ)).toNat = k := by
    rw [← Int.natCast_div, Int.toNat_natCast, Nat.mul_add_div (by omega), Nat.div_eq_of_lt hi, add_zero]
  have e2 : (((ch * k + i : ℕ) : ℤ) % (ch : ℤ)).toNat = i := by
    rw [← Int.natCast_mod, Int.toNat_natCast, Nat.mul_add_mod, Nat.mod_eq_of_lt hi]
  rw [e, e1, e2, streamOf, if_pos (by omega)]

theorem tw_refill {type : ℤ} {t : CoeffTable} {B : ℤ} {ch : ℕ} {f : SndFile} {inp out : ℤ} {st0 : SrcState} {c : ℕ} {ops : List Op} {os : List Obs} {U r : ℕ}
    {s : TwSt} (h128 : ch ≤ 128) (I : TwInv type t B ch f inp out st0 s.d.endOfInput c ops os U r s) :
    ∃ s' r' c', twRefill f ch inp (twRatio s) = .ok s' ∧ TwInv type t B ch f inp out st0 s.d.endOfInput c' ops os U r' s' ∧ (s'.d.endOfInput = 0 → 0 < r') ∧
      U ≤ c' ∧ c' ≤ U + 8 ∧ (0 < r' ∨ s'.d.dataIn = inp) := by
  have hR := twRatio_spec I.idx I.ratio I.ic I.c0 I.c8
  rw [hR]
  unfold twRefill
  dsimp only
  rw [I.inF]
  by_cases h0 : r = 0
  · rw [if_pos (by exact_mod_cast h0), if_pos (by unfold TW_STEP TW_BUFFER_LEN; omega)]
    subst h0
    have hk : (sfReadf f ch s.pos s.mem inp TW_STEP.toNat).1 = min 8 (f.len - s.pos) := rfl
    have hp := I.pos
    have hle := I.le
    refine ⟨_, min 8 (f.len - s.pos), s.pos, rfl, ?_, ?_, by omega, by omega, Or.inr rfl⟩
    · exact
        { hr := I.hr, hist := I.hist, fed := I.fed, calls := I.calls, each := I.each, wr := I.wr, cnt := I.cnt
          inF := by dsimp only; rw [hk]
          r8 := min_le_left _ _
          pos := by dsimp only; rw [hk]; omega
          le := by dsimp only; rw [hk]; omega
          ic := by dsimp only; rw [I.ic]; push_cast; ring
          di0 := le_refl _
          di1 := by
            dsimp only
            have : (ch : ℤ) * ((min 8 (f.len - s.pos) : ℕ) : ℤ) ≤ ch * 8 := mul_le_mul_of_nonneg_left (by omega) (by positivity)
            linarith
          holds := fun k i h1 h2 => by
            dsimp only
            rw [sfReadf_mem (by rw [hk]; exact h1) h2]
            congr 1; omega
          dout := I.dout
          room := I.room
          eoi := by
            dsimp only
            rw [hk]
            unfold TW_STEP
            split_ifs with h
            · intro; omega
            · intro h'; have := I.eoi h'; omega
          later := fun h => by
            dsimp only
            rw [hk]
            split_ifs
            · exact one_ne_zero
            · exact h
          idx := rfl
          ratio := rfl
          c0 := by dsimp only; omega
          c8 := by dsimp only; rw [hk]; omega }
    · dsimp only
      rw [hk]
      unfold TW_STEP
      split_ifs with h
      · intro h; cases h
      · intro; omega
  · rw [if_neg (by exact_mod_cast h0)]
    have hp := I.pos
    have h8 := I.r8
    refine ⟨_, r, s.pos, rfl, ?_, fun _ => by omega, by omega, by omega, Or.inl (by omega)⟩
    exact { I with inF := rfl, di0 := I.di0, di1 := I.di1, holds := I.holds, dout := I.dout, room := I.room, eoi := I.eoi, later := I.later, idx := rfl, ratio := rfl, c0 := le_refl _, c8 := by dsimp only; omega }

/-- Output frames are bounded by the length of the stream. -/
theorem tw_bound {cfg : Config} (hL : LibraryTables cfg) {type : ℤ} (ht : SincType type) {ch : ℕ} {e : ℤ} {st0 st1 : SrcState}
    (h : srcNew cfg type ch = .ok (e, some st0)) {x : ℕ → ℕ → F32} {n : ℕ} (hx : EndsAt x (some n)) {ops : List Op} {os : List Obs} {U : ℕ}
    (hO : ∀ op ∈ ops, SizedOp ch op ∧ RatioIn 1 (3 / 2) op) (hr : run ops st0 = .ok (os, st1)) (hF : FedTo x ch (some n) 0 ops os U) :
    (outputs ch os).length ≤ 2 * U + 1 := by
  obtain ⟨t, ρ, D, hT, a1, a2, a3, a4, a5⟩ := C24_sinc cfg hL type ht ch e st0 st1 h x _ hx ops os U (fun op h => (hO op h).1) hr hF
  have a2 := a2 1 (3 / 2) (fun op h => (hO op h).2)
  rcases Nat.eq_zero_or_pos (outputs ch os).length with h0 | h0
  · omega
  obtain ⟨j, hj⟩ : ∃ j, (outputs ch os).length = j + 1 := ⟨(outputs ch os).length - 1, by omega⟩
  have h1 := (time_range (ρ := ρ) (a := 1) (b := 3 / 2) one_pos j (fun i hi => ⟨⟨(a1 i (by omega)).1, (a1 i (by omega)).2.1⟩, a2 i (by omega)⟩)).1
  have h2 := (a5 j (by omega)).1
  have h3 : p2 (-44) ≤ 1 / 10 := by norm_num [p2]
  have h4 : (j : ℚ) * p2 (-44) ≤ j * (1 / 10) := mul_le_mul_of_nonneg_left h3 (by positivity)
  have h5 : (j : ℚ) / (3 / 2) = j * (2 / 3) := by ring
  rw [h5] at h1
  have h6 : (j : ℚ) ≤ 2 * U := by linarith
  have h7 : j ≤ 2 * U := by exact_mod_cast h6
  omega

theorem streamOf_ends (f : SndFile) : EndsAt (streamOf f) (some f.len) := by
  rintro n ⟨⟩ k hk c
  exact if_neg (by omega)

/-- What one iteration of the loop does. -/
theorem tw_step {cfg : Config} (hL : LibraryTables cfg) {type : ℤ} (ht : SincType type) {t : CoeffTable} {B : ℤ} {ch : ℕ} {f : SndFile} {inp out : ℤ} {st0 : SrcState}
    (h : srcNew cfg type ch = .ok (0, some st0)) (hch1 : 1 ≤ ch) (h128 : ch ≤ 128) (hinp : 0 < inp) (hout : 0 < out) (hdis : inp + 1024 ≤ out ∨ out + 1024 ≤ inp)
    {c : ℕ} {ops : List Op} {os : List Obs} {U r : ℕ} {s : TwSt} (I : TwInv type t B ch f inp out st0 s.d.endOfInput c ops os U r s) :
    ∃ b s' c' ops' os' U' r', twStep f ch inp out s = .ok (b, s') ∧
      (b = true → TwInv type t B ch f inp out st0 s'.d.endOfInput c' ops' os' U' r' s' ∧ U + (outputs ch os).length < U' + (outputs ch os').length) ∧
      (b = false → s'.err = 0 ∧ s'.written = outputs ch os' ∧ s'.outputCount = (outputs ch os').length ∧
        FedTo (streamOf f) ch (some f.len) 0 ops' os' f.len ∧ CallsOk (WarpCall inp out ch f.len) 0 ops' os' ∧
        (∀ op ∈ ops', SizedOp ch op ∧ RatioIn 1 (3 / 2) op) ∧ (∃ st', run ops' st0 = .ok (os', st')) ∧
        ∀ G : ℚ, G = (outputs ch os').length → (f.len - G / 2 ^ 44 - 1 / 10 ^ 6) - 1 ≤ G ∧ G ≤ 1 + (f.len + G / 2 ^ 44) * (3 / 2)) := by
  obtain ⟨s1, r1, c1, hs1, I1, hr1, hc1, hc8, hri0⟩ := tw_refill h128 I
  obtain ⟨q, hq, hq1, hq2⟩ := warpAt_val c1
  have hroom : s1.d.outputFrames = ((1024 / ch : ℕ) : ℤ) := by rw [I1.room, Int.tdiv_eq_ediv_of_nonneg (by norm_num)]; push_cast; rfl
  have hch8 : 8 ≤ 1024 / ch := by rw [Nat.le_div_iff_mul_le (by omega)]; omega
  have hmul : ch * (1024 / ch) ≤ 1024 := Nat.mul_div_le _ _
  have hin8 : (ch : ℤ) * r1 ≤ ch * 8 := mul_le_mul_of_nonneg_left (by exact_mod_cast I1.r8) (by positivity)
  have hch128 : (ch : ℤ) ≤ 128 := by exact_mod_cast h128
  have smI : samples ch s1.d.inputFrames = ch * r1 := by unfold samples; rw [I1.inF, max_eq_left (by positivity)]; ring
  have smO : samples ch s1.d.outputFrames = ((ch * (1024 / ch) : ℕ) : ℤ) := by unfold samples; rw [hroom, max_eq_left (by positivity)]; push_cast; ring
  have hrat : s1.d.srcRatio.val = some q := by rw [I1.ratio]; exact hq
  have hsz : SincSized ch s1.d := ⟨by rw [I1.ratio]; intro hc; rw [hc] at hq; exact absurd hq (by simp [Fl.val]), by rw [smI]; omega, by rw [smO]; exact_mod_cast hmul.trans (by norm_num)⟩
  have hri : RatioIn 1 (3 / 2) (.process s1.mem (some s1.d)) := by
    intro v hv
    rw [hrat] at hv
    cases hv
    exact ⟨hq1, hq2⟩
  have hat : ∀ a : ℚ, a ≤ 1 → AtLeast a s1.d.srcRatio := by
    intro a ha v hv _ _
    rw [hrat] at hv
    cases hv
    exact ha.trans hq1
  have hrise : ∀ p, min 1 (riseTo p s1.d.srcRatio) = 1 := by
    intro p
    unfold riseTo
    rw [hrat]
    dsimp only
    rw [if_pos ⟨by linarith, by linarith⟩, min_eq_left hq1]
  have hall : (twPhase s.d.endOfInput).Allows ch s1.d.srcRatio s1.d.endOfInput := by
    unfold twPhase
    split_ifs
    · exact hat _ (by norm_num)
    · exact ⟨hat _ (by norm_num), Or.inr (hat _ le_rfl)⟩
  have hnext : (twPhase s.d.endOfInput).next s1.d.srcRatio s1.d.endOfInput = twPhase s1.d.endOfInput := by
    have hl := I1.later
    unfold twPhase
    by_cases h0 : s.d.endOfInput = 0
    · rw [if_pos h0]
      unfold Phase.next
      dsimp only
      rw [hrise]
    · rw [if_neg h0, if_neg (hl h0)]
      unfold Phase.next
      dsimp only
      rw [hrise]
  obtain ⟨e, m', st', x', hp, hS, hcase⟩ := sinc_process_total I1.hist hsz hall s1.mem
  have hdin : s1.d.dataIn ≠ 0 := by have := I1.di0; omega
  have hch0 : s1.st.channels = ch := by
    obtain ⟨P, l, y, f, D, k, R, i, h, V, hU⟩ := I1.hist.view
    exact V.hch
  have hcl : ¬ Clash s1.d.dataIn (samples ch s1.d.inputFrames) s1.d.dataOut (samples ch s1.d.outputFrames) := by
    rw [smI, smO, I1.dout]
    have b1 := I1.di0
    have b2 := I1.di1
    have b3 : ((ch * (1024 / ch) : ℕ) : ℤ) ≤ 1024 := by exact_mod_cast hmul
    have b4 : (0 : ℤ) ≤ ((ch * (1024 / ch) : ℕ) : ℤ) := by positivity
    have b5 : (0 : ℤ) ≤ (ch : ℤ) * r1 := by positivity
    have b6 : 0 < (ch : ℤ) * r1 ∨ s1.d.dataIn = inp := hri0.imp_left fun h => mul_pos (by omega) (by exact_mod_cast h)
    unfold Clash
    generalize ((ch * (1024 / ch) : ℕ) : ℤ) = w at *
    generalize (ch : ℤ) * r1 = w' at *
    omega
  rcases hcase with ⟨harg, rfl, rfl⟩ | ⟨rfl, d', rfl, hacc, hfoot, hkeep, hgood⟩
  · exfalso
    have hf := (C02 _ _ _ _ _ _ _ hp (by rcases harg with h | h | h | h | h <;> simp [h])).1
    cases hf with
    | state h => cases h
    | mode _ h1 h2 => cases h1; exact h2 I1.hist.mode
    | data _ _ _ h => cases h
    | buffer _ _ _ _ h2 h3 => cases h2; rcases h3 with ⟨h, _⟩ | ⟨h, _⟩
                              · exact hdin h
                              · rw [I1.dout] at h; omega
    | ratio _ _ _ _ h2 _ h3 =>
      cases h2
      generalize s1.d.srcRatio = z at *
      cases z with
      | nan => exact h3
      | inf => cases hrat
      | fin v sg =>
        cases hrat
        rcases h3 with h | h <;> linarith
    | overlap _ _ h1 _ h2 _ _ h3 =>
      cases h1
      cases h2
      rw [hch0] at h3
      exact hcl h3
  obtain ⟨o, ho⟩ : ∃ o : Obs, o = ⟨0, some m', some d', 0, srcError (some st'), srcGetChannels (some st')⟩ := ⟨_, rfl⟩
  have hrun : (Op.process s1.mem (some s1.d)).run s1.st = .ok (o, st') := by
    simp only [Op.run, hp, bind, Except.bind, pure, Except.pure, ho, Option.getD_some]
  have hret : o.ret = 0 := by rw [ho]
  have hdat : o.data = some d' := by rw [ho]
  have hmem : o.mem = some m' := by rw [ho]
  have hpos := I1.pos
  have hle := I1.le
  have hP : Presents (streamOf f) ch U s1.mem s1.d := fun k i h1 h2 => I1.holds k i (by rw [I1.inF] at h1; exact_mod_cast h1) h2
  have hE : s1.d.endOfInput ≠ 0 → some f.len = some (U + s1.d.inputFrames.toNat) := fun he => by
    rw [I1.inF, Int.toNat_natCast, ← I1.pos, I1.eoi he]
  have hWC : WarpCall inp out ch f.len U s1.d := by
    have b1 := I1.di0
    have b2 := I1.di1
    refine ⟨by rw [I1.inF]; positivity, ⟨b1, by rw [I1.inF]; linarith [mul_comm (r1 : ℤ) ch]⟩, by rw [hroom]; positivity, ⟨I1.dout.ge, ?_⟩, c1, hc1, hc8,
      I1.c0.trans I1.le, I1.ratio⟩
    rw [I1.dout, hroom]
    have : ((1024 / ch : ℕ) : ℤ) * ch ≤ 1024 := by rw [mul_comm]; exact_mod_cast hmul
    linarith
  have hF' := fedTo_snoc I1.fed hP hE hret hdat
  have hC' := callsOk_snoc (m := s1.mem) I1.fed I1.calls hWC hdat
  have hO' : ∀ op ∈ ops ++ [.process s1.mem (some s1.d)], SizedOp ch op ∧ RatioIn 1 (3 / 2) op := by
    intro op hop
    rcases List.mem_append.1 hop with h | h
    · exact I1.each op h
    · rw [List.mem_singleton.1 h]; exact ⟨hsz, hri⟩
  have hr' : run (ops ++ [.process s1.mem (some s1.d)]) st0 = .ok (os ++ [o], st') := run_append_ok I1.hr (run_one hrun)
  have hx := streamOf_ends f
  obtain ⟨t', B', u, g, ρ, L, hT, Ge, -, hB, hLa, hab, e1, e2, e3, e4, e5, e6⟩ := sinc_last_up hL ht h hx le_rfl I1.each I1.hr I1.fed hsz hri hP hE hrun hret hdat
  rw [I1.inF, Int.toNat_natCast] at e3
  have hout1 : (outputs ch (os ++ [o])) = outputs ch os ++ sfWritef ch m' out g := by
    rw [outputs_append]
    congr 1
    simp only [outputs, List.flatMap_cons, List.flatMap_nil, List.append_nil]
    rw [outOf_eq hmem hdat, hkeep.dataOut, I1.dout, e2]
    simp only [sfWritef, frameOf, Int.toNat_natCast]
    push_cast
    rfl
  have hlen : (outputs ch (os ++ [o])).length = (outputs ch os).length + g := by rw [hout1]; simp [sfWritef]
  unfold twStep
  rw [hs1]
  simp only [bind, Except.bind]
  rw [hp]
  simp only [ne_eq, not_true_eq_false, if_false, Option.getD_some]
  by_cases hend : d'.endOfInput ≠ 0 ∧ d'.outputFramesGen = 0
  · rw [if_pos hend]
    refine ⟨false, _, c1, ops ++ [.process s1.mem (some s1.d)], os ++ [o], 0, 0, rfl, fun h => absurd h (by simp), fun _ => ?_⟩
    have hE0 : s1.d.endOfInput ≠ 0 := by rw [← hkeep.endOfInput]; exact hend.1
    have hg : g = 0 := by have := hend.2; omega
    have hNu : f.len = U + s1.d.inputFrames.toNat := by simpa using hE hE0
    have key := C56_sinc cfg hL type ht ch 0 st0 s1.st st' h (streamOf f) f.len hx 1 (3 / 2) le_rfl ops os U I1.each I1.hr I1.fed s1.mem s1.d d' o hsz hri hP hE0 hNu hdin
      hrun hret hdat (by rw [hend.2, hroom]; omega) (outputs ch (os ++ [o])).length (by rw [hlen, e2]; push_cast; ring)
    obtain ⟨k1, k2, k3⟩ := key
    refine ⟨rfl, ?_, ?_, ?_, hC', hO', ⟨st', hr'⟩, ?_⟩
    · rw [hout1, hg]
      simp only [sfWritef, List.range_zero, List.map_nil, List.append_nil]
      exact I1.wr
    · rw [hlen, hg, add_zero]; exact I1.cnt
    · have : U + d'.inputFramesUsed.toNat = f.len := by have := hacc.used0; omega
      rw [← this]; rw [this] at hF' ⊢; exact hF'
    · rintro G rfl
      rw [mul_one] at k2
      exact ⟨k2, k3⟩
  · rw [if_neg hend]
    have hg1 : (g : ℤ) ≤ ((1024 / ch : ℕ) : ℤ) := by
      have := hacc.gen1
      rw [hroom] at this
      omega
    have hgm : g * ch ≤ 1024 := by
      have : g ≤ 1024 / ch := by exact_mod_cast hg1
      calc g * ch ≤ 1024 / ch * ch := Nat.mul_le_mul_right _ this
        _ ≤ 1024 := Nat.div_mul_le_self _ _
    rw [if_neg (by
      rw [not_not, e2]
      unfold TW_BUFFER_LEN
      exact_mod_cast hgm)]
    have huc : (u : ℤ) * ch ≤ 1024 := by
      have : u * ch ≤ 8 * 128 := Nat.mul_le_mul (e3.trans I1.r8) h128
      exact_mod_cast this
    have hchk : chkI64 (d'.inputFramesUsed * ch) = .ok ((u : ℤ) * ch) := by
      unfold chkI64
      rw [e1, if_pos]
      · rfl
      · have : (0 : ℤ) ≤ (u : ℤ) * ch := by positivity
        omega
    rw [hchk]
    refine ⟨true, _, c1, ops ++ [.process s1.mem (some s1.d)], os ++ [o], U + u, r1 - u, rfl, fun _ => ⟨?_, ?_⟩, fun h => by cases h⟩
    · have hut : d'.inputFramesUsed.toNat = u := by omega
      rw [hut] at hF'
      rw [hnext] at hS
      exact
        { hr := hr'
          hist := by dsimp only; rw [hkeep.endOfInput]; exact hS
          fed := hF', calls := hC', each := hO'
          wr := by dsimp only; rw [hout1, I1.wr, e2, Int.toNat_natCast]
          cnt := by dsimp only; rw [hlen, I1.cnt, e2]; push_cast; rfl
          inF := by dsimp only; rw [hkeep.inputFrames, I1.inF, e1]; omega
          r8 := by have := I1.r8; omega
          pos := by dsimp only; omega
          le := hle
          ic := I1.ic
          di0 := by
            dsimp only
            rw [hkeep.dataIn]
            have := I1.di0
            have : (0 : ℤ) ≤ (u : ℤ) * ch := by positivity
            omega
          di1 := by
            dsimp only
            rw [hkeep.dataIn, Nat.cast_sub e3]
            have := I1.di1
            linarith
          holds := fun k i h1 h2 => by
            dsimp only
            rw [hkeep.dataIn]
            have a1 := I1.holds (u + k) i (by omega) h2
            have hk : s1.d.dataIn + (u : ℤ) * ch + ((ch * k + i : ℕ) : ℤ) = s1.d.dataIn + ((ch * (u + k) + i : ℕ) : ℤ) := by push_cast; ring
            rw [hk, show U + u + k = U + (u + k) by ring, ← a1]
            apply hfoot
            rw [I1.dout, e2]
            have q1 := I1.di0
            have q2 := I1.di1
            have q3 : ((g * ch : ℕ) : ℤ) ≤ 1024 := by exact_mod_cast hgm
            have q4 : ch * (u + k) + i < ch * r1 := calc
              ch * (u + k) + i < ch * (u + k) + ch := by omega
              _ = ch * (u + k + 1) := by ring
              _ ≤ _ := Nat.mul_le_mul_left _ (by omega)
            have q5 : ((ch * (u + k) + i : ℕ) : ℤ) < ((ch * r1 : ℕ) : ℤ) := by exact_mod_cast q4
            have q6 : (0 : ℤ) ≤ ((ch * (u + k) + i : ℕ) : ℤ) := by positivity
            rw [Nat.cast_mul] at q3 q5
            generalize ((ch * (u + k) + i : ℕ) : ℤ) = w at *
            generalize (ch : ℤ) * r1 = w' at *
            generalize (g : ℤ) * ch = w'' at *
            omega
          dout := by dsimp only; rw [hkeep.dataOut]; exact I1.dout
          room := by dsimp only; rw [hkeep.outputFrames, hroom, max_eq_left (by positivity), ← hroom]; exact I1.room
          eoi := by dsimp only; rw [hkeep.endOfInput]; exact I1.eoi
          later := fun h => h
          idx := I1.idx
          ratio := by dsimp only; rw [hkeep.srcRatio]; exact I1.ratio
          c0 := I1.c0
          c8 := I1.c8 }
    · rw [hlen]
      suffices 0 < g ∨ 0 < u by omega
      by_contra hno
      have hg : g = 0 := by omega
      have hu : u = 0 := by omega
      have he0 : s1.d.endOfInput = 0 := by
        by_contra hc
        exact hend ⟨by rw [hkeep.endOfInput]; exact hc, by rw [e2, hg]; rfl⟩
      have hr0 := hr1 he0
      have hst := e6 (by rw [hroom, hg]; omega)
      have hfl := Ge.reach_floor hB (r := 1) (by norm_num)
      have h6 := Ge.reach_ge (r := 1) (by norm_num)
      rcases hst with ⟨_, hst⟩ | ⟨hst1, _⟩
      · rcases hst with hst | ⟨hst1, _⟩
        · exact hdin hst
        · have := hst1 trivial (Or.inr (by omega))
          rw [I1.inF] at this
          omega
      · have : f.len = U + u := by simpa using hst1
        omega

/-- C57: for every file and every number of channels up to 128 the program `timewarp-file.c` ends (after finitely many iterations of its loop), without a fault, without an error from
the library and without leaving its buffers.  The calls it makes are a stream (`FedTo`): each presents the file from the first unused frame on, and in the
end all frames have been used.  Each call has the ratio of the table for the number of frames read (to within the 8 frames of one block), except that the last entry of the
table never takes effect.  The output file is what the converter generated and nothing else: frame `j` is the response of the filter, to the whole file, at the time `timeAt ρ j`, for the ratios `ρ` of the frames
(`ratiosFrom`: within a call the ratio runs linearly from that of the call before to that of the call), which are between the smallest and the largest of the table; its length `G` is between 1 and 1.5 times that of the input, to within one frame, rounding and a millionth of a frame. -/
theorem C57 (cfg : Config) (hL : LibraryTables cfg) (converter : ℤ) (ht : SincType converter) (t : CoeffTable) (hT : cfg.table converter = some t) (f : SndFile) (m : Mem)
    (inp out : ℤ) (hinp : 0 < inp) (hout : 0 < out) (hdis : inp + 1024 ≤ out ∨ out + 1024 ≤ inp) (ch : ℕ) (h1 : 1 ≤ ch) (h128 : ch ≤ 128) :
    ∃ (n G : ℕ) (file : List (List F32)), (∀ fuel, n ≤ fuel → timewarpConvert cfg f m inp out converter ch fuel = .ok (some (G, file))) ∧
      (∃ ops os st st', ∃ ρ : ℕ → ℚ, srcNew cfg converter ch = .ok (0, some st) ∧ run ops st = .ok (os, st') ∧ FedTo (streamOf f) ch (some f.len) 0 ops os f.len ∧
        CallsOk (WarpCall inp out ch f.len) 0 ops os ∧ file = outputs ch os ∧ ratiosFrom sincRatioAt ch 0 ops os = (List.range G).map ρ ∧
        (∀ j < G, 1 ≤ ρ j ∧ ρ j ≤ 3 / 2 ∧ timeAt ρ j < f.len) ∧
        file = (List.range G).map (fun j => frameOf ch (sincIdeal t (streamOf f) (allHistory t) (ρ j) (timeAt ρ j)))) ∧
      (f.len - (G : ℚ) / 2 ^ 44 - 1 / 10 ^ 6) - 1 ≤ G ∧ (G : ℚ) ≤ 1 + (f.len + (G : ℚ) / 2 ^ 44) * (3 / 2) := by
  obtain ⟨st, hst⟩ := sinc_new_ok hL ht hT h1 h128
  obtain ⟨t0, B, hT0, S⟩ := sinc_new_hist hL ht hst (p := .live) (Or.inr (Or.inl rfl))
  rw [hT] at hT0
  cases hT0
  obtain ⟨n, hn⟩ : ∃ n, n = 3 * f.len + 2 := ⟨_, rfl⟩
  have hx := streamOf_ends f
  have key := whileM_spec (step := twStep f ch inp out)
    (fun s => ∃ c ops os U r, TwInv converter t B ch f inp out st s.d.endOfInput c ops os U r s)
    (fun s => ∃ ops os, s.err = 0 ∧ s.written = outputs ch os ∧ s.outputCount = (outputs ch os).length ∧
        FedTo (streamOf f) ch (some f.len) 0 ops os f.len ∧ CallsOk (WarpCall inp out ch f.len) 0 ops os ∧
        (∀ op ∈ ops, SizedOp ch op ∧ RatioIn 1 (3 / 2) op) ∧ (∃ st', run ops st = .ok (os, st')) ∧
        ∀ G : ℚ, G = (outputs ch os).length → (f.len - G / 2 ^ 44 - 1 / 10 ^ 6) - 1 ≤ G ∧ G ≤ 1 + (f.len + G / 2 ^ 44) * (3 / 2))
    (fun s => n - (s.pos - s.d.inputFrames.toNat + s.written.length)) ?_ (n + 1) (twInit st m ch inp out) ?_ ?_
  · obtain ⟨s, hs, ops, os, e0, ew, ec, eF, eC, eO, ⟨st', er⟩, eG⟩ := key
    obtain ⟨k1, k2⟩ := eG _ rfl
    obtain ⟨t', ρ, D, hT', a1, a2, a3, a4, a5⟩ := C24_sinc cfg hL converter ht ch 0 st st' hst _ _ hx ops os f.len (fun op h => (eO op h).1) er eF
    rw [hT] at hT'
    cases hT'
    have a2 := a2 1 (3 / 2) (fun op h => (eO op h).2)
    refine ⟨n + 1, (outputs ch os).length, outputs ch os, fun fuel hf => ?_, ⟨ops, os, st, st', ρ, hst, er, eF, eC, rfl, a3, fun j hj => ⟨(a2 j hj).1, (a2 j hj).2, (a5 j hj).1⟩, ?_⟩, k1, k2⟩
    · obtain ⟨k, rfl⟩ := Nat.exists_eq_add_of_le hf
      unfold timewarpConvert
      rw [if_neg (by unfold TW_BUFFER_LEN TW_STEP; omega), hst]
      simp only [bind, Except.bind]
      rw [whileM_mono _ k _ _ hs]
      simp only [e0, ne_eq, not_true_eq_false, if_false, ew, ec]
      rfl
    · rw [List.map_congr_left (g := fun j => frameOf ch (sincIdeal t (streamOf f) (D j) (ρ j) (timeAt ρ j)))
        (fun j hj => by rw [(a1 j (List.mem_range.1 hj)).2.2.2 (Or.inl (a2 j (List.mem_range.1 hj)).1)])]
      exact a4
  · rintro s ⟨c, ops, os, U, r, I⟩
    obtain ⟨b, s', c', ops', os', U', r', a1, a2, a3⟩ := tw_step hL ht hst h1 h128 hinp hout hdis I
    refine ⟨b, s', a1, fun hb => ?_, fun hb => ⟨_, _, a3 hb⟩⟩
    obtain ⟨I', hm⟩ := a2 hb
    refine ⟨⟨_, _, _, _, _, I'⟩, ?_⟩
    have bd := tw_bound hL ht hst hx I.each I.hr I.fed
    have bd' := tw_bound hL ht hst hx I'.each I'.hr I'.fed
    have p1 := I.pos
    have p2 := I.le
    have p1' := I'.pos
    have p2' := I'.le
    rw [I.inF, I'.inF, I.wr, I'.wr, Int.toNat_natCast, Int.toNat_natCast]
    omega
  · refine ⟨0, [], [], 0, 0, ?_⟩
    exact
      { hr := rfl
        hist := S
        fed := .nil _, calls := .nil _
        each := fun op h => absurd h (by simp)
        wr := rfl, cnt := rfl, inF := rfl, r8 := by norm_num, pos := rfl, le := Nat.zero_le _, ic := rfl, di0 := le_refl _
        di1 := by dsimp only [twInit]; push_cast; linarith
        holds := fun k i h => absurd h (by omega)
        dout := rfl, room := rfl
        eoi := fun h => absurd rfl h
        later := fun h => h
        idx := rfl, ratio := rfl, c0 := le_refl _, c8 := Nat.zero_le _ }
  · omega

/-- Non-vacuity of C57: the default converter with the table of the source tree, a stereo file of 100000 frames (so that every ratio of `warpAt` comes up). -/
example : ∃ (n G : ℕ) (file : List (List F32)), (∀ fuel, n ≤ fuel → timewarpConvert libCfg ⟨100000, fun k _ => if k % 100 < 50 then Fl.ofInt f32 1 else zero32⟩ (fun _ => zero32) 1 1025
    SRC_SINC_MEDIUM_QUALITY (2 : ℕ) fuel = .ok (some (G, file))) ∧ 99998 ≤ G ∧ G ≤ 150002 := by
  obtain ⟨n, G, file, h, -, h1, h2⟩ := C57 libCfg libCfg_tables SRC_SINC_MEDIUM_QUALITY (Or.inr (Or.inl rfl)) MidQual.table
    (by simp [Config.table, libCfg, SRC_SINC_FASTEST, SRC_SINC_MEDIUM_QUALITY, SRC_SINC_BEST_QUALITY])
    ⟨100000, fun k _ => if k % 100 < 50 then Fl.ofInt f32 1 else zero32⟩ (fun _ => zero32) 1 1025 (by norm_num) (by norm_num) (by norm_num) 2 (by norm_num) (by norm_num)
  refine ⟨n, G, file, h, ?_, ?_⟩
  · dsimp only at h1
    have h0 : (0 : ℚ) ≤ G := by positivity
    have hc : (99997 : ℚ) < G := by
      push_cast at h1
      by_contra hc
      push Not at hc
      have : (G : ℚ) / 2 ^ 44 ≤ 1 / 10 := by rw [div_le_iff₀ (by norm_num)]; linarith
      linarith
    have : 99997 < G := by exact_mod_cast hc
    omega
  · dsimp only at h2
    push_cast at h2
    have hd : (G : ℚ) / 2 ^ 44 ≤ G / 10 ^ 12 := by
      have h0 : (0 : ℚ) ≤ G := by positivity
      linarith
    have hc : (G : ℚ) < 150003 := by linarith
    have : G < 150003 := by exact_mod_cast hc
    omega

end Verif
