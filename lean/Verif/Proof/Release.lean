import Verif.Proof.SincTaps
import Verif.Spec.Release

/-! A build without assertions does what the asserting build does, as long as that one returns. -/

namespace Verif
open Spec

/-- Whatever `a` returns, `b` returns too. -/
def Le {α : Type} (a b : M α) : Prop := ∀ x, a = .ok x → b = .ok x

theorem Le.refl {α : Type} (a : M α) : Le a a := fun _ h => h

theorem Le.bind {α β : Type} {a b : M α} {g g' : α → M β} (h : Le a b) (hg : ∀ x, a = .ok x → Le (g x) (g' x)) : Le (a >>= g) (b >>= g') := by
  intro y hy
  obtain ⟨x, h1, h2⟩ := bindM_ok hy
  rw [h x h1]
  exact hg x h1 y h2

theorem Le.skip {α β : Type} {a : M α} {g : α → M β} {b : M β} (h : ∀ x, a = .ok x → Le (g x) b) : Le (a >>= g) b := by
  intro y hy
  obtain ⟨x, h1, h2⟩ := bindM_ok hy
  exact h x h1 y h2

theorem Le.assert {β : Type} {c : Bool} {g : Unit → M β} {b : M β} (h : c = true → Le (g ()) b) : Le (assertM c >>= g) b :=
  Le.skip fun _ h1 => h (assertM_inv h1)

theorem Le.ite {α : Type} {p : Prop} [Decidable p] {a a' b b' : M α} (h1 : p → Le a b) (h2 : ¬ p → Le a' b') :
    Le (if p then a else a') (if p then b else b') := by
  split_ifs with h
  · exact h1 h
  · exact h2 h

theorem Le.while {σ : Type} {f g : σ → M (Bool × σ)} (h : ∀ s, Le (f s) (g s)) : ∀ (n : ℕ) (s : σ), Le (whileM f n s) (whileM g n s) := by
  intro n
  induction n with
  | zero => exact fun s => Le.refl _
  | succ n ih =>
    intro s
    rw [whileM, whileM]
    refine Le.bind (h s) fun x _ => ?_
    dsimp only
    exact Le.ite (fun _ => ih _) (fun _ => Le.refl _)

theorem Le.error {α : Type} {a b : M α} (h : Le a b) {e : Fault} (hb : b = .error e) : ∃ e', a = .error e' := by
  cases ha : a with
  | error e' => exact ⟨e', rfl⟩
  | ok x => rw [h x ha] at hb; cases hb

/-! ### The filter evaluation -/

theorem intDivCeil_le (a b : ℤ) : Le (intDivCeil a b) (Release.intDivCeil a b) := by
  unfold intDivCeil Release.intDivCeil
  exact Le.assert fun _ => Le.refl _

theorem leftSkip_le (w inc fi di : ℤ) : Le (leftSkip w inc fi di) (Release.leftSkip w inc fi di) := by
  unfold leftSkip Release.leftSkip
  refine Le.ite (fun _ => ?_) (fun _ => Le.refl _)
  refine Le.bind (intDivCeil_le _ _) fun steps _ => ?_
  exact Le.skip fun lim _ => Le.assert fun _ => Le.refl _

/-- The buffer limits only matter for the assertions, as long as they stay inside the allocation. -/
def InBuf (v : SincVariant) (f : SincFilter) (ch L E : ℤ) : Prop :=
  ∀ di ic acc, 0 ≤ di → di + v.w ch - 1 < L →
    Le (accumulate { f with bLen := L, bEnd := E } ch (v.w ch) v.cap ic di acc) (accumulate f ch (v.w ch) v.cap ic di acc)

section
variable {v : SincVariant} {f : SincFilter} {ch L E : ℤ}

theorem leftStep_le (hW : InBuf v f ch L E) (inc : ℤ) (s : TapSt) :
    Le (leftStep v { f with bLen := L, bEnd := E } ch inc s) (Release.leftStep v f ch inc s) := by
  unfold leftStep Release.leftStep
  refine Le.ite (fun _ => Le.refl _) (fun _ => ?_)
  refine Le.assert fun _ => Le.bind (Le.refl _) fun ic _ => Le.assert fun h => Le.assert fun _ => ?_
  simp only [Bool.and_eq_true, decide_eq_true_eq] at h
  exact Le.bind (hW _ _ _ h.1 h.2) fun acc _ => Le.refl _

theorem rightStep_le (hW : InBuf v f ch L E) (inc : ℤ) (s : TapSt) :
    Le (rightStep v { f with bLen := L, bEnd := E } ch inc s) (Release.rightStep v f ch inc s) := by
  unfold rightStep Release.rightStep
  refine Le.skip fun _ _ => Le.bind (Le.refl _) fun ic _ => Le.assert fun h => Le.assert fun _ => ?_
  simp only [Bool.and_eq_true, decide_eq_true_eq] at h
  exact Le.bind (hW _ _ _ h.1 h.2) fun acc _ => Le.refl _

theorem calcOutput_le (hW : InBuf v f ch L E) (inc start : ℤ) :
    Le (calcOutput v { f with bLen := L, bEnd := E } ch inc start) (Release.calcOutput v f ch inc start) := by
  unfold calcOutput Release.calcOutput
  refine Le.bind (Le.refl _) fun _ _ => Le.bind (Le.refl _) fun _ _ => Le.bind (Le.refl _) fun _ _ => Le.bind (Le.refl _) fun _ _ =>
    Le.bind (Le.refl _) fun _ _ => Le.bind (Le.refl _) fun _ _ => Le.bind (Le.refl _) fun _ _ => Le.bind (leftSkip_le _ _ _ _) fun _ _ => ?_
  refine Le.bind (Le.while (leftStep_le hW inc) _ _) fun _ _ => ?_
  refine Le.bind (Le.refl _) fun _ _ => Le.bind (Le.refl _) fun _ _ => Le.bind (Le.refl _) fun _ _ => Le.bind (Le.refl _) fun _ _ =>
    Le.bind (Le.refl _) fun _ _ => Le.bind (Le.refl _) fun _ _ => Le.bind (Le.refl _) fun _ _ => ?_
  exact Le.bind (Le.while (rightStep_le hW inc) _ _) fun _ _ => Le.refl _

theorem within_self (v : SincVariant) (f : SincFilter) (ch : ℤ) : InBuf v f ch f.bLen f.bEnd :=
  fun _ _ _ _ _ => Le.refl _

/-- The allocation is one frame longer than the buffer. -/
theorem within_alloc {ch : ℕ} (hv : v.Fits ch) (f : SincFilter) : InBuf v f ch (f.bLen + ch) (f.bLen + ch) := by
  intro di ic acc h0 h1
  rw [hv.1] at h1 ⊢
  unfold accumulate
  rw [Int.toNat_natCast]
  intro x hx
  rw [← hx]
  unfold forM'
  apply Eq.symm
  have key : ∀ (l : List ℕ) (a : ℕ → F64), (∀ i ∈ l, i < ch) → l.foldlM (fun s (i : ℕ) => do
        let x ← rdBuf { f with bLen := f.bLen + ch, bEnd := f.bLen + ch } ch (di + i)
        if i < v.cap then pure (Function.update s i (Fl.add (s i) (Fl.mul ic (Fl.conv f64 x)))) else (throw Fault.oobWrite : M (ℕ → F64))) a =
      l.foldlM (fun s (i : ℕ) => do
        let x ← rdBuf f ch (di + i)
        if i < v.cap then pure (Function.update s i (Fl.add (s i) (Fl.mul ic (Fl.conv f64 x)))) else (throw Fault.oobWrite : M (ℕ → F64))) a := by
    intro l
    induction l with
    | nil => intro a _; rfl
    | cons i l ih =>
      intro a hl
      have hi := hl i (List.mem_cons_self ..)
      rw [List.foldlM_cons, List.foldlM_cons]
      have e : rdBuf { f with bLen := f.bLen + ch, bEnd := f.bLen + ch } ch (di + i) = rdBuf f ch (di + i) := by
        unfold rdBuf
        dsimp only
        rw [if_pos (by constructor <;> omega), if_pos (by constructor <;> omega)]
      rw [e]
      congr 1
      funext b
      exact ih b fun j hj => hl j (List.mem_cons_of_mem _ hj)
  exact key _ _ fun i hi => List.mem_range.1 hi

end

/-! ### The processing functions and the API -/

theorem sincStep_le (v : SincVariant) (st : SrcState) (d : SrcData) (half : ℤ) (term : F64) (s : SincLoop) :
    Le (sincStep v st d half term s) (Release.sincStep v st d half term s) := by
  unfold sincStep Release.sincStep
  refine Le.ite (fun _ => Le.refl _) (fun _ => ?_)
  refine Le.bind (Le.refl _) fun x _ => ?_
  obtain ⟨brk, s1⟩ := x
  refine Le.ite (fun _ => Le.refl _) fun _ => Le.ite (fun _ => Le.refl _) fun _ => ?_
  exact Le.bind (calcOutput_le (within_self v s1.f st.channels) _ _) fun _ _ => Le.refl _

theorem sincVariProcess_le (v : SincVariant) (m : Mem) (st : SrcState) (d : SrcData) :
    Le (sincVariProcess v m st d) (Release.sincVariProcess v m st d) := by
  unfold sincVariProcess Release.sincVariProcess
  cases st.priv with
  | sinc f =>
    dsimp only
    refine Le.bind (Le.refl _) fun _ _ => Le.bind (Le.refl _) fun _ _ => ?_
    refine Le.ite (fun _ => Le.refl _) fun _ => Le.bind (Le.refl _) fun _ _ => Le.bind (Le.refl _) fun x _ => ?_
    exact Le.bind (Le.while (sincStep_le v st d _ _) _ _) fun _ _ => Le.refl _
  | _ => exact Le.refl _

theorem variProcess_le (m : Mem) (st : SrcState) (d : SrcData) : Le (variProcess m st d) (Release.variProcess m st d) := by
  unfold variProcess Release.variProcess
  cases st.vt with
  | zoh => exact Le.refl _
  | linear => exact Le.refl _
  | _ => exact sincVariProcess_le _ _ _ _

theorem srcProcessData_le (m : Mem) (st : SrcState) (d : SrcData) : Le (srcProcessData m st d) (Release.srcProcessData m st d) := by
  unfold srcProcessData Release.srcProcessData
  refine Le.ite (fun _ => Le.refl _) fun _ => Le.ite (fun _ => Le.refl _) fun _ => ?_
  refine Le.bind (Le.refl _) fun _ _ => ?_
  refine Le.ite (fun _ => Le.refl _) fun _ => ?_
  dsimp only [constProcess]
  rw [ite_self]
  exact variProcess_le _ _ _

theorem srcProcess_le (m : Mem) (st : Option SrcState) (d : Option SrcData) : Le (srcProcess m st d) (Release.srcProcess m st d) := by
  unfold srcProcess Release.srcProcess
  cases st with
  | none => exact Le.refl _
  | some s =>
    dsimp only
    refine Le.ite (fun _ => Le.refl _) fun _ => ?_
    cases d with
    | none => exact Le.refl _
    | some d => exact Le.bind (srcProcessData_le _ _ _) fun _ _ => Le.refl _

theorem cbStep_le (cb : Callback) (dummy frames : ℤ) (s : CbSt) : Le (cbStep cb dummy frames s) (Release.cbStep cb dummy frames s) := by
  unfold cbStep Release.cbStep
  refine Le.ite (fun _ => Le.refl _) fun _ => ?_
  exact Le.bind (srcProcess_le _ _ _) fun _ _ => Le.refl _

theorem srcCallbackRead_le (cb : Callback) (dummy : ℤ) (fuel calls : ℕ) (m : Mem) (st : Option SrcState) (ratio : F64) (frames data : ℤ) :
    Le (srcCallbackRead cb dummy fuel calls m st ratio frames data) (Release.srcCallbackRead cb dummy fuel calls m st ratio frames data) := by
  unfold srcCallbackRead Release.srcCallbackRead
  cases st with
  | none => exact Le.refl _
  | some s =>
    dsimp only
    refine Le.ite (fun _ => Le.refl _) fun _ => Le.ite (fun _ => Le.refl _) fun _ => Le.ite (fun _ => Le.refl _) fun _ =>
      Le.ite (fun _ => Le.refl _) fun _ => ?_
    exact Le.bind (Le.while (cbStep_le cb dummy frames) _ _) fun _ _ => Le.refl _

theorem opRun_le (st : SrcState) (op : Op) : Le (op.run st) (Release.opRun st op) := by
  cases op with
  | process m d => exact Le.bind (srcProcess_le _ _ _) fun _ _ => Le.refl _
  | read cb dummy fuel calls m ratio frames data => exact Le.bind (srcCallbackRead_le _ _ _ _ _ _ _ _ _) fun _ _ => Le.refl _
  | setRatio r => exact Le.refl _
  | reset => exact Le.refl _

theorem run_le (ops : List Op) : ∀ st, Le (run ops st) (Release.run ops st) := by
  induction ops with
  | nil => exact fun st => Le.refl _
  | cons op ops ih =>
    intro st
    simp only [run, Release.run]
    exact Le.bind (opRun_le st op) fun x _ => Le.bind (ih _) fun _ _ => Le.refl _

end Verif
