import Verif.Spec.Varispeed
import Verif.Proof.Endless
import Verif.Proof.CallbackStream
import Verif.Proof.Loop
import Verif.Proof.CallbackHang

/-! The example `varispeed-play.c` (C61). -/

namespace Verif
open Spec

section fill
variable {f : SndFile} {ch : ℕ} {buf : ℤ}

/-- Invariant of the loop of the input callback. -/
structure Filling (f : SndFile) (ch n : ℕ) (buf : ℤ) (pos : ℕ) (m : Mem) (s : VsFill) : Prop where
  lo : 0 ≤ s.read
  hi : s.read ≤ n
  place : s.pos = (pos + s.read.toNat) % f.len
  holds : ∀ k c : ℕ, k < s.read.toNat → c < ch → s.mem (buf + ((ch * k + c : ℕ) : ℤ)) = f.x ((pos + k) % f.len) c
  frame : ∀ a, ¬ (buf ≤ a ∧ a < buf + n * ch) → s.mem a = m a

theorem sfReadf_at {pos : ℕ} {m : Mem} {addr : ℤ} {k c n : ℕ} (hk : k < min n (f.len - pos)) (hc : c < ch) :
    (sfReadf f ch pos m addr n).2 (addr + ((ch * k + c : ℕ) : ℤ)) = f.x (pos + k) c := by
  unfold sfReadf
  dsimp only
  have h1 : ch * k + c < min n (f.len - pos) * ch := frame_index hk hc
  have h2 : ((ch * k + c : ℕ) : ℤ) < ((min n (f.len - pos) * ch : ℕ) : ℤ) := by exact_mod_cast h1
  rw [if_pos ⟨by omega, by push_cast at h2 ⊢; linarith⟩]
  have h3 : addr + ((ch * k + c : ℕ) : ℤ) - addr = ((ch * k + c : ℕ) : ℤ) := by ring
  have hp : 0 < ch := by omega
  have h4 : (ch * k + c) / ch = k := by
    rw [Nat.mul_add_div hp, Nat.div_eq_of_lt hc]; rfl
  have h5 : (ch * k + c) % ch = c := by
    rw [Nat.mul_add_mod, Nat.mod_eq_of_lt hc]
  rw [h3, ← Int.natCast_ediv, ← Int.natCast_emod, Int.toNat_natCast, Int.toNat_natCast, h4, h5]

theorem sfReadf_off {pos : ℕ} {m : Mem} {addr a : ℤ} {n : ℕ} (h : ¬ (addr ≤ a ∧ a < addr + ch * n)) :
    (sfReadf f ch pos m addr n).2 a = m a := by
  unfold sfReadf
  dsimp only
  rw [if_neg]
  rintro ⟨h1, h2⟩
  refine h ⟨h1, lt_of_lt_of_le h2 ?_⟩
  have : ((min n (f.len - pos) : ℕ) : ℤ) ≤ n := by exact_mod_cast min_le_left _ _
  have := mul_le_mul_of_nonneg_left this (Int.natCast_nonneg ch)
  linarith

theorem vsFill_spec (hf : 1 ≤ f.len) (h1 : 1 ≤ ch) {pos : ℕ} (hp : pos < f.len) (m : Mem) :
    ∃ s, vsFill f ch buf pos m 4097 = .ok s ∧ s.pos = (pos + 4096 / ch) % f.len ∧
      (∀ k c : ℕ, k < 4096 / ch → c < ch → s.mem (buf + ((ch * k + c : ℕ) : ℤ)) = f.x ((pos + k) % f.len) c) ∧
      ∀ a, ¬ (buf ≤ a ∧ a < buf + ((4096 / ch : ℕ) : ℤ) * ch) → s.mem a = m a := by
  have hn : Int.tdiv VS_BUFFER_LEN ch = ((4096 / ch : ℕ) : ℤ) := by
    unfold VS_BUFFER_LEN
    rw [Int.tdiv_eq_ediv_of_nonneg (by norm_num)]
    norm_cast
  have hnn : 4096 / ch ≤ 4096 := Nat.div_le_self _ _
  have hnc : ((4096 / ch : ℕ) : ℤ) * ch ≤ 4096 := by exact_mod_cast Nat.div_mul_le_self 4096 ch
  generalize 4096 / ch = n at hn hnn hnc ⊢
  have key : ∀ s, Filling f ch n buf pos m s → ∃ b s', vsFillStep f ch buf s = .ok (b, s') ∧
      (b = true → Filling f ch n buf pos m s' ∧ n - s'.read.toNat < n - s.read.toNat) ∧ (b = false → Filling f ch n buf pos m s' ∧ s'.read = n) := by
    intro s I
    have i1 := I.lo
    have i2 := I.hi
    have ip : s.pos < f.len := by rw [I.place]; exact Nat.mod_lt _ hf
    unfold vsFillStep
    dsimp only
    rw [hn]
    by_cases hr : s.read < n
    · rw [if_neg (by simpa using hr), if_neg (by rw [show s.read + ((n : ℤ) - s.read) = n by ring]; unfold VS_BUFFER_LEN; simpa using hnc)]
      refine ⟨true, _, rfl, fun _ => ?_, fun h => by cases h⟩
      obtain ⟨R, hR⟩ : ∃ R : ℕ, s.read = R := ⟨s.read.toNat, by omega⟩
      have hk : (sfReadf f ch s.pos s.mem (buf + s.read * ch) ((n : ℤ) - s.read).toNat).1 = min (n - R) (f.len - s.pos) := by
        unfold sfReadf
        dsimp only
        rw [hR]
        congr 1
        omega
      have hmem : (sfReadf f ch s.pos s.mem (buf + s.read * ch) ((n : ℤ) - s.read).toNat).2 = (sfReadf f ch s.pos s.mem (buf + (R : ℤ) * ch) (n - R)).2 := by
        rw [hR, show ((n : ℤ) - R).toNat = n - R by omega]
      rw [hk, hmem]
      have hRn : R < n := by omega
      have hmod : ∀ k, s.pos + k < f.len → (pos + (R + k)) % f.len = s.pos + k := by
        intro k hk
        rw [← add_assoc, Nat.add_mod, show (pos + R) % f.len = s.pos by rw [I.place, hR]; rfl, Nat.add_mod_mod, Nat.mod_eq_of_lt hk]
      have hholds := I.holds
      rw [hR, Int.toNat_natCast] at hholds
      refine ⟨⟨?_, ?_, ?_, ?_, ?_⟩, ?_⟩
      · dsimp only; omega
      · dsimp only; omega
      · dsimp only
        rw [hR, show ((R : ℤ) + ((min (n - R) (f.len - s.pos) : ℕ) : ℤ)).toNat = R + min (n - R) (f.len - s.pos) by omega]
        split_ifs with h
        · rw [← add_assoc, Nat.add_mod, show (pos + R) % f.len = s.pos by rw [I.place, hR]; rfl, Nat.add_mod_mod, h, Nat.mod_self]
        · rw [hmod _ (by omega)]
      · dsimp only
        rw [hR, show ((R : ℤ) + ((min (n - R) (f.len - s.pos) : ℕ) : ℤ)).toNat = R + min (n - R) (f.len - s.pos) by omega]
        intro k c hk hc
        by_cases hkR : k < R
        · rw [sfReadf_off, hholds k c hkR hc]
          rintro ⟨h1, _⟩
          have := frame_index hkR hc
          have : ((ch * k + c : ℕ) : ℤ) < ((R * ch : ℕ) : ℤ) := by exact_mod_cast this
          push_cast at this h1
          linarith
        · obtain ⟨j, rfl⟩ := Nat.exists_eq_add_of_le (not_lt.1 hkR)
          rw [hmod j (by omega), ← sfReadf_at (m := s.mem) (addr := buf + (R : ℤ) * ch) (n := n - R) (show j < min (n - R) (f.len - s.pos) by omega) hc]
          congr 1
          push_cast
          ring
      · dsimp only
        intro a ha
        rw [sfReadf_off, I.frame a ha]
        rintro ⟨h1, h2⟩
        refine ha ⟨le_trans ?_ h1, lt_of_lt_of_le h2 (le_of_eq ?_)⟩
        · have : (0 : ℤ) ≤ R * ch := by positivity
          linarith
        · push_cast [Nat.cast_sub hRn.le]
          ring
      · dsimp only
        rw [hR]
        omega
    · rw [if_pos hr]
      exact ⟨false, s, rfl, fun h => (by cases h), fun _ => ⟨I, by omega⟩⟩
  obtain ⟨s, hs, hQ⟩ := whileM_spec (step := vsFillStep f ch buf) (Filling f ch n buf pos m) (fun s => Filling f ch n buf pos m s ∧ s.read = n)
    (fun s => n - s.read.toNat) key 4097 { mem := m, pos, read := 0 }
    ⟨le_rfl, by dsimp only; omega, by dsimp only; rw [Int.toNat_zero, add_zero, Nat.mod_eq_of_lt hp], fun k c h => absurd h (by simp), fun _ _ => rfl⟩ (by dsimp only; omega)
  refine ⟨s, hs, ?_, ?_, hQ.1.frame⟩
  · have := hQ.1.place
    rw [hQ.2, Int.toNat_natCast] at this
    exact this
  · have := hQ.1.holds
    rw [hQ.2, Int.toNat_natCast] at this
    exact this

/-- The input callback of an empty file never returns. -/
theorem vsFill_empty (hf : f.len = 0) (h1 : 1 ≤ ch) (h2 : ch ≤ 4096) (m : Mem) (fuel : ℕ) : vsFill f ch buf 0 m fuel = .error .outOfFuel := by
  refine whileM_hangs (fun s : VsFill => s.pos = 0 ∧ s.read = 0) (fun s hs => ?_) fuel _ ⟨rfl, rfl⟩
  obtain ⟨e1, e2⟩ := hs
  have hn : Int.tdiv VS_BUFFER_LEN ch = ((4096 / ch : ℕ) : ℤ) := by
    unfold VS_BUFFER_LEN
    rw [Int.tdiv_eq_ediv_of_nonneg (by norm_num)]
    norm_cast
  have hn1 : 1 ≤ 4096 / ch := (Nat.one_le_div_iff h1).2 h2
  have hnc : ((4096 / ch : ℕ) : ℤ) * ch ≤ 4096 := by exact_mod_cast Nat.div_mul_le_self 4096 ch
  unfold vsFillStep
  dsimp only
  rw [hn, e1, e2, if_neg (by simp only [not_not]; omega), if_neg (by unfold VS_BUFFER_LEN; simpa using hnc)]
  have hk : ∀ (m : Mem) (a : ℤ) (n : ℕ), (sfReadf f ch 0 m a n).1 = 0 := fun m a n => by simp [sfReadf, hf]
  refine ⟨_, rfl, ?_, ?_⟩
  · dsimp only
    rw [hk]
    split_ifs <;> rfl
  · dsimp only
    rw [hk]
    rfl
theorem vsLen_eq (ch : ℕ) : Int.tdiv VS_BUFFER_LEN ch = ((4096 / ch : ℕ) : ℤ) := by
  unfold VS_BUFFER_LEN
  rw [Int.tdiv_eq_ediv_of_nonneg (by norm_num)]
  norm_cast

theorem vsPos_eq (hf : 1 ≤ f.len) (h1 : 1 ≤ ch) : ∀ c, vsPos f ch buf c = (c * (4096 / ch)) % f.len := by
  intro c
  induction c with
  | zero => simp [vsPos]
  | succ c ih =>
    unfold vsPos
    obtain ⟨s, hs, h, _⟩ := vsFill_spec (buf := buf) hf h1 (pos := vsPos f ch buf c) (by rw [ih]; exact Nat.mod_lt _ hf) (fun _ => zero32)
    rw [hs]
    dsimp only
    rw [h, ih, Nat.mod_add_mod, Nat.succ_mul]

theorem vsCallback_spec (hf : 1 ≤ f.len) (h1 : 1 ≤ ch) (ud c : ℕ) (m : Mem) :
    ∃ m', vsCallback f ch buf ud c m = (((4096 / ch : ℕ) : ℤ), some buf, m') ∧ Holds (looped f) ch m' buf (c * (4096 / ch)) (4096 / ch) ∧
      ∀ a, ¬ (buf ≤ a ∧ a < buf + 4096) → m' a = m a := by
  have hp := vsPos_eq (buf := buf) hf h1 c
  obtain ⟨s, hs, _, h2, h3⟩ := vsFill_spec (buf := buf) hf h1 (pos := vsPos f ch buf c) (by rw [hp]; exact Nat.mod_lt _ hf) m
  refine ⟨s.mem, ?_, ?_, ?_⟩
  · unfold vsCallback
    rw [hs]
    dsimp only
    rw [vsLen_eq]
  · intro k j hk hj
    rw [h2 k j hk hj, hp]
    unfold looped
    rw [Nat.mod_add_mod]
  · intro a ha
    have hnc : ((4096 / ch : ℕ) : ℤ) * ch ≤ 4096 := by exact_mod_cast Nat.div_mul_le_self 4096 ch
    exact h3 a (fun h => ha ⟨h.1, by linarith [h.2]⟩)

theorem offered_const (n : ℕ) : ∀ c, offered (fun _ => (n : ℤ)) c = c * n := by
  intro c
  induction c with
  | zero => simp [offered]
  | succ c ih => rw [offered, ih, Int.toNat_natCast, Nat.succ_mul]

theorem vsCallback_hands (hf : 1 ≤ f.len) (h1 : 1 ≤ ch) :
    HandsOut (looped f) ch (fun _ => ((4096 / ch : ℕ) : ℤ)) (fun _ => buf) (vsCallback f ch buf) := by
  intro ud c m
  obtain ⟨m', h, hH, _⟩ := vsCallback_spec (buf := buf) hf h1 ud c m
  rw [h]
  refine ⟨rfl, fun _ => ⟨rfl, ?_⟩⟩
  rw [offered_const]
  exact hH

theorem vsCallback_supplies (hf : 1 ≤ f.len) (h1 : 1 ≤ ch) (h2 : ch ≤ 4096) : Supplies ch buf 4096 (vsCallback f ch buf) := by
  intro ud c m
  obtain ⟨m', h, _⟩ := vsCallback_spec (buf := buf) hf h1 ud c m
  rw [h]
  have hn1 : 1 ≤ 4096 / ch := (Nat.one_le_div_iff h1).2 h2
  have hnc : ((4096 / ch : ℕ) : ℤ) * ch ≤ 4096 := by exact_mod_cast Nat.div_mul_le_self 4096 ch
  have hs : samples ch ((4096 / ch : ℕ) : ℤ) ≤ 4096 := by
    unfold samples
    rw [max_eq_left (by positivity)]
    exact hnc
  refine ⟨by dsimp only; omega, by dsimp only; omega, buf, rfl, le_rfl, by dsimp only; omega⟩

end fill

section keeps
variable {cfg : Config} {type e0 : ℤ} {ch : ℕ} {st0 : SrcState} {cb : Callback} {ud calls : ℕ} {ratio : F64} {frames dummy data inp len : ℤ}

theorem cbStep_keeps (hL : LibraryTables cfg) (hc : ch ≤ 8355967) (h0 : srcNew cfg type ch = .ok (e0, some st0)) (hinp : 0 < inp)
    (hcb : Supplies ch inp len cb) (hr : GoodRatio ratio) (hf : samples ch frames ≤ 2 ^ 50) (hdata : 0 < data)
    (hdis : data + samples ch frames ≤ inp ∨ inp + len ≤ data) (J : ℕ → Mem → Prop) (hJc : ∀ c m, J c m → J (c + 1) (cb ud c m).2.2)
    (hJw : ∀ c m m', J c m → (∀ a, ¬ (data ≤ a ∧ a < data + frames * ch) → m' a = m a) → J c m') {s s' : CbSt} {b : Bool}
    (H : ELoop ch st0 cb inp len ud calls ratio frames data s) (HJ : J s.calls s.mem) (h : cbStep cb dummy frames s = .ok (b, s')) : J s'.calls s'.mem := by
  obtain ⟨_, he', _⟩ := cbStep_eloop hL hc h0 hinp hcb hr hf hdata hdis H h
  obtain ⟨F, _⟩ := cbFetch_eloop (dummy := dummy) hcb H
  have HJ1 : J (cbFetch cb dummy s).calls (cbFetch cb dummy s).mem := by
    unfold cbFetch
    split_ifs
    · dsimp only
      rw [H.held.hud]
      exact hJc _ _ HJ
    · exact HJ
  have hgen : (cbFetch cb dummy s).gen = s.gen := by unfold cbFetch; split_ifs <;> rfl
  rcases cbStep_inv h with ⟨_, rfl, rfl⟩ | ⟨hg, e, mem, st, d, hp, hcase⟩
  · exact HJ
  rcases hcase with ⟨he, _, hh, _⟩ | ⟨rfl, _, _, c2, _, _, _, c6⟩
  · exact absurd (hh.symm.trans he') he
  obtain ⟨ps, qs, p, Bk⟩ := H.held.back
  obtain ⟨q, hq, _, _⟩ := hr
  have hnan : ratio ≠ .nan := by rintro rfl; cases hq
  have hf' : samples ch frames ≤ 2 ^ 52 := by norm_num at hf ⊢; omega
  have hsz : samples ch (cbFetch cb dummy s).d.outputFrames ≤ 2 ^ 52 := le_trans (samples_mono (by rw [F.held.room]; have := F.held.gen0; omega)) hf'
  have hO : Ordinary 1 ch (cbFetch cb dummy s).d := ordinary_of (by rw [F.held.hrat]; exact hnan) F.held.insize hsz
  obtain ⟨o, p', B', _, ho1, ho2, ho3, hok⟩ := Bk.step hL hc h0 hO hp
  obtain ⟨hA, hF, _, _⟩ := hok rfl
  rw [c2, c6]
  refine hJw _ _ _ HJ1 (fun a ha => hF a ?_)
  rintro ⟨h1, h2⟩
  apply ha
  have hg1 := hA.gen1
  rw [F.held.room, hgen, max_eq_left (by omega)] at hg1
  have g0 := mul_nonneg H.held.gen0 (Int.natCast_nonneg ch)
  have g1 : d.outputFramesGen * (ch : ℤ) ≤ (frames - s.gen) * ch := mul_le_mul_of_nonneg_right hg1 (Int.natCast_nonneg ch)
  rw [F.out, hgen] at h1 h2
  have g2 : (frames - s.gen) * (ch : ℤ) = frames * ch - s.gen * ch := by ring
  constructor <;> omega

/-- What survives a read: whatever every callback keeps and does not depend on the output buffer. -/
theorem read_keeps (hL : LibraryTables cfg) (hc : ch ≤ 8355967) (h0 : srcNew cfg type ch = .ok (e0, some st0)) (hinp : 0 < inp)
    (hcb : Supplies ch inp len cb) (hr : GoodRatio ratio) (hf1 : 1 ≤ frames) (hf : samples ch frames ≤ 2 ^ 50) (hdata : 0 < data)
    (hdis : data + samples ch frames ≤ inp ∨ inp + len ≤ data) {st : SrcState} (E : EReady ch st0 inp len st)
    (J : ℕ → Mem → Prop) (hJc : ∀ c m, J c m → J (c + 1) (cb st.userData c m).2.2)
    (hJw : ∀ c m m', J c m → (∀ a, ¬ (data ≤ a ∧ a < data + frames * ch) → m' a = m a) → J c m') {fuel : ℕ} {m m' : Mem} {n : ℤ} {st' : Option SrcState} {k : ℕ}
    (hJ : J calls m) (h : srcCallbackRead cb dummy fuel calls m (some st) ratio frames data = .ok (n, m', st', k)) : J k m' := by
  unfold srcCallbackRead at h
  dsimp only at h
  rw [if_neg (by omega)] at h
  split at h
  · have h := ok_inj h; simp only [Prod.mk.injEq] at h
    obtain ⟨_, rfl, _, rfl⟩ := h
    exact hJ
  split at h
  · have h := ok_inj h; simp only [Prod.mk.injEq] at h
    obtain ⟨_, rfl, _, rfl⟩ := h
    exact hJ
  split at h
  · have h := ok_inj h; simp only [Prod.mk.injEq] at h
    obtain ⟨_, rfl, _, rfl⟩ := h
    exact hJ
  obtain ⟨r, hw, h⟩ := bind_ok h
  have I0 : ELoop ch st0 cb inp len st.userData calls ratio frames data { st := st, mem := m, d := cbData st ratio frames data, gen := 0, calls, err := 0 } :=
    ⟨⟨E.held.back, E.held.saved, rfl, rfl, le_rfl, by dsimp only; omega, by simp [cbData], le_rfl, fun h => by simp [cbData] at h, rfl⟩, E.within, by simp [cbData]⟩
  have hend := whileM_partial (fun s => ELoop ch st0 cb inp len st.userData calls ratio frames data s ∧ J s.calls s.mem) (fun s => J s.calls s.mem)
    (fun s hs b s' h' => by
      have k1 := cbStep_keeps (dummy := dummy) hL hc h0 hinp hcb hr hf hdata hdis J hJc hJw hs.1 hs.2 h'
      exact ⟨fun hb => ⟨(cbStep_eloop (dummy := dummy) hL hc h0 hinp hcb hr hf hdata hdis hs.1 h').1 hb, k1⟩, fun _ => k1⟩) _ _ _ ⟨I0, hJ⟩ hw
  split at h <;>
  · have h := ok_inj h; simp only [Prod.mk.injEq] at h
    obtain ⟨_, rfl, _, rfl⟩ := h
    exact hend

end keeps
end Verif

namespace Verif
open Spec

/-! ### The history of reads -/

section history
variable {x : ℕ → ℕ → F32} {ch : ℕ} {cnt addr : ℕ → ℤ}

theorem inTurn_snoc {c c' : ℕ} {ops : List Op} {os : List Obs} (h : InTurn cnt c ops os c') {cb : Callback} (hcb : Counts cnt cb) (dummy : ℤ) (fuel : ℕ) (m : Mem) (ratio : F64)
    (frames data : ℤ) (o : Obs) : InTurn cnt c (ops ++ [.read cb dummy fuel c' m ratio frames data]) (os ++ [o]) o.calls := by
  induction h with
  | nil c => exact .read _ _ _ _ _ _ _ _ _ _ _ _ hcb (.nil _)
  | read c cb' dummy' fuel' m' ratio' frames' data' o' ops os c' h1 _ ih => exact .read _ _ _ _ _ _ _ _ _ _ _ _ h1 ih
  | setRatio c r o' ops os c' _ ih => exact .setRatio _ _ _ _ _ _ ih
  | reset c o' ops os c' _ ih => exact .reset _ _ _ _ _ ih

theorem pulls_snoc {c : ℕ} {ops : List Op} {os : List Obs} (h : Pulls x ch cnt addr c ops os) : ∀ {c' : ℕ}, InTurn cnt c ops os c' →
    ∀ {cb : Callback} (dummy : ℤ) (fuel : ℕ) (m : Mem) (ratio : F64) (frames data : ℤ) (o : Obs), HandsOut x ch cnt addr cb → SparesOutput ch cb frames data →
      (∀ i, c' = i + 1 → Holds x ch m (addr i) (offered cnt i) (cnt i).toNat) → o.err = 0 →
      Pulls x ch cnt addr c (ops ++ [.read cb dummy fuel c' m ratio frames data]) (os ++ [o]) := by
  induction h with
  | nil c =>
    intro c' hI cb dummy fuel m ratio frames data o h1 h2 h3 h4
    cases hI
    exact .read _ _ _ _ _ _ _ _ _ _ _ h1 h2 h3 h4 (.nil _)
  | read c cb' dummy' fuel' m' ratio' frames' data' o' ops os a1 a2 a3 a4 _ ih =>
    intro c' hI cb dummy fuel m ratio frames data o h1 h2 h3 h4
    cases hI with
    | read _ _ _ _ _ _ _ _ _ _ _ _ _ hI => exact .read _ _ _ _ _ _ _ _ _ _ _ a1 a2 a3 a4 (ih hI _ _ _ _ _ _ _ h1 h2 h3 h4)
  | setRatio c r o' ops os _ ih =>
    intro c' hI cb dummy fuel m ratio frames data o h1 h2 h3 h4
    cases hI with
    | setRatio _ _ _ _ _ _ hI => exact .setRatio _ _ _ _ _ (ih hI _ _ _ _ _ _ _ h1 h2 h3 h4)

theorem pulled_snoc {c c' : ℕ} {ops : List Op} {os : List Obs} (h : InTurn cnt c ops os c') (op : Op) (o : Obs) :
    pulled ch (ops ++ [op]) (os ++ [o]) = pulled ch ops os ++ pulledBy ch op o := by
  induction h with
  | nil c => simp [pulled]
  | read c cb' dummy' fuel' m' ratio' frames' data' o' ops os c' h1 _ ih => simp only [List.cons_append, pulled, ih, List.append_assoc]
  | setRatio c r o' ops os c' _ ih => simp only [List.cons_append, pulled, ih, List.append_assoc]
  | reset c o' ops os c' _ ih => simp only [List.cons_append, pulled, ih, List.append_assoc]

/-- A read at a ratio between `a` and `b`. -/
def ReadIn (a b : ℚ) : Op → Prop
  | .read _ _ _ _ _ ratio _ _ => ∃ q, ratio.val = some q ∧ a ≤ q ∧ q ≤ b
  | _ => False

theorem explained_in {a b : ℚ} {ud U c V c' : ℕ} {ops ps : List Op} {os qs : List Obs} (hE : Explained x ch cnt ud U c ops os ps qs V c')
    (hR : ∀ op ∈ ops, ReadIn a b op) : ∀ p ∈ ps, RatioIn a b p := by
  induction hE with
  | nil => simp
  | read U c cb dummy fuel m m' ratio frames data o ops os ps qs U' ps' qs' V c' S e1 e2 e3 _ ih =>
    intro p hp
    rcases List.mem_append.1 hp with hp | hp
    · obtain ⟨m, d, rfl⟩ := session_calls S p hp
      obtain ⟨q, h1, h2, h3⟩ := hR _ List.mem_cons_self
      intro r hr
      rw [e3 _ hp m d rfl, h1] at hr
      cases hr
      exact ⟨h2, h3⟩
    · exact ih (fun op h => hR op (by simp [h])) p hp
  | setRatio U c r' o o' ops os ps qs V c' e _ ih => exact absurd (hR _ List.mem_cons_self) id

end history

/-! ### The ratio -/

theorem rep_half : Rep f64 (1 / 2 : ℚ) := ⟨rep0_p2 (f := f64) (e := -1) (by decide) |> fun h => by rwa [show p2 (-1) = 1 / 2 by norm_num [p2]] at h,
  by rw [abs_of_pos (by norm_num)]; exact lt_of_lt_of_le (by norm_num : (1 / 2 : ℚ) < 1) (by rw [← p2_zero]; exact p2_le (by decide))⟩

theorem speed_val {sin : F64 → F64} (hs : SineLike sin) (y : F64) :
    ∃ q, (Fl.sub one64 (Fl.mul (Fl.round f64 (1 / 2)) (sin y))).val = some q ∧ 1 / 2 ≤ q ∧ q ≤ 3 / 2 := by
  obtain ⟨q, hq, q1, q2⟩ := hs y
  have hhalf : (Fl.round f64 (1 / 2)).val = some (1 / 2) := Fl.val_round_of_rep rep_half
  have hr12 : Rep0 f64 (1 / 2) := rep_half.1
  have hm12 : Rep0 f64 (-(1 / 2)) := rep0_neg hr12
  have b1 : |rq f64 (1 / 2 * q)| ≤ 1 / 2 := Fl.abs_rq_le hr12 (by rw [abs_le]; constructor <;> linarith)
  have hbig : (2 : ℚ) ≤ p2 f64.emax := by
    rw [show (2 : ℚ) = p2 1 by norm_num [p2]]; exact p2_le (by decide)
  have v1 := Fl.val_mul hhalf hq (lt_of_le_of_lt b1 (by linarith))
  have r32 : Rep0 f64 (3 / 2) := by
    have := rep0_of_le (f := f64) (q := 3 / 2) (m := 3) (e := -1) (by decide) (by decide) (by norm_num [p2])
    exact this
  obtain ⟨c1, c2⟩ := abs_le.1 b1
  have b2 : 1 / 2 ≤ rq f64 (1 - rq f64 (1 / 2 * q)) := le_rq hr12 (by linarith)
  have b3 : rq f64 (1 - rq f64 (1 / 2 * q)) ≤ 3 / 2 := rq_le r32 (by linarith)
  have v2 := Fl.val_sub one64_val v1 (by rw [abs_of_nonneg (by linarith)]; linarith)
  exact ⟨_, v2, b2, b3⟩

theorem vsRatio_ok {sin : F64 → F64} (hs : SineLike sin) {fp : ℤ} (h0 : 0 ≤ fp) (h1 : fp < 2 ^ 30) :
    ∃ r q, vsRatio sin fp = .ok r ∧ r.val = some q ∧ 1 / 2 ≤ q ∧ q ≤ 3 / 2 := by
  unfold vsRatio
  rw [chkI32_ok (by omega) (by norm_num at h1; omega)]
  obtain ⟨q, g1, g2, g3⟩ := speed_val hs (Fl.div (Fl.mul (dbl (fp * 2)) PI64) (dbl 20000))
  exact ⟨_, q, rfl, g1, g2, g3⟩

theorem vsRatio_over {sin : F64 → F64} : vsRatio sin (2 ^ 30) = .error .intOverflow := by
  unfold vsRatio chkI32
  rw [if_neg (by norm_num)]
  rfl

end Verif

namespace Verif
open Spec

section play
variable {cfg : Config} {type e0 : ℤ} {ch : ℕ} {st0 stc : SrcState} {f : SndFile} {buf samples dummy : ℤ} {sin : F64 → F64}

/-- The state of the program between two reads, after the history `ops`, `os` of reads. -/
structure VsInv (f : SndFile) (ch : ℕ) (buf : ℤ) (stc : SrcState) (ops : List Op) (os : List Obs) (s : VsSt) : Prop where
  run : Spec.run ops stc = .ok (os, s.st)
  calls : ∀ op ∈ ops, EndlessCall ch buf 4096 op ∧ ReadIn (1 / 2) (3 / 2) op ∧ SizedRead ch (2 ^ 50) op
  pulls : Pulls (looped f) ch (fun _ => ((4096 / ch : ℕ) : ℤ)) (fun _ => buf) 0 ops os
  turn : InTurn (fun _ => ((4096 / ch : ℕ) : ℤ)) 0 ops os s.calls
  holds : ∀ i, s.calls = i + 1 → Holds (looped f) ch s.mem buf (i * (4096 / ch)) (4096 / ch)

/-- Every read of the program returns with all its frames. -/
def Progress (f : SndFile) (ch : ℕ) (buf dummy : ℤ) (stc : SrcState) : Prop :=
  ∀ (ops : List Op) (os : List Obs) (st1 : SrcState) (calls : ℕ), (∀ op ∈ ops, EndlessCall ch buf 4096 op) → run ops stc = .ok (os, st1) →
    InTurn (fun _ => ((4096 / ch : ℕ) : ℤ)) 0 ops os calls → ∀ (m : Mem) (ratio : F64) (data : ℤ),
      EndlessCall ch buf 4096 (.read (vsCallback f ch buf) dummy 0 calls m ratio 64 data) →
      ∃ N r, Delivers 64 r ∧ ∀ fuel, N ≤ fuel → srcCallbackRead (vsCallback f ch buf) dummy fuel calls m (some st1) ratio 64 data = .ok r

/-- The handle of the program. -/
structure VsNew (cfg : Config) (f : SndFile) (ch : ℕ) (type e0 buf dummy : ℤ) (st0 stc : SrcState) : Prop where
  tables : LibraryTables cfg
  file : 1 ≤ f.len
  ch1 : 1 ≤ ch
  ch2 : ch ≤ 2048
  made : srcNew cfg type ch = .ok (e0, some st0)
  ready : EReady ch st0 buf 4096 stc
  like : Like stc stc
  mode : stc.mode = .callback
  func : stc.callbackFunc ≠ none
  hbuf : 0 < buf
  progress : Progress f ch buf dummy stc

theorem vs_samples (ch : ℕ) : Spec.samples ch 64 = 64 * ch := by
  unfold Spec.samples
  rw [max_eq_left (by norm_num)]

theorem vsStep_eq {fuel : ℕ} {len outFrames : ℤ} {g : VsGet} {r : F64} {fp1 off rc c' : ℤ} {mem : Mem} {st : Option SrcState} {calls : ℕ}
    (h1 : g.count < outFrames) (h2 : vsRatio sin g.s.freqPoint = .ok r) (h3 : chkI32 (g.s.freqPoint + 1) = .ok fp1) (h4 : chkI32 (g.count * ch) = .ok off)
    (h5 : off + VS_BLOCK * ch ≤ len)
    (h6 : srcCallbackRead (vsCallback f ch buf) dummy fuel g.s.calls g.s.mem (some g.s.st) r VS_BLOCK (samples + off) = .ok (rc, mem, st, calls))
    (h7 : ¬ rc < VS_BLOCK) (h8 : chkI32 (g.count + VS_BLOCK) = .ok c') :
    vsStep sin f ch buf samples len dummy fuel outFrames g = .ok (true, { s := ⟨st.getD g.s.st, mem, calls, fp1⟩, count := c', stop := g.stop }) := by
  unfold vsStep
  rw [if_neg (not_not.2 h1), h2]
  simp only [bind, Except.bind, h3, h4]
  rw [if_neg (not_not.2 h5), h6]
  dsimp only
  rw [if_neg h7, h8]
  rfl

theorem vsStep_oob {fuel : ℕ} {len outFrames : ℤ} {g : VsGet} {r : F64} {fp1 off : ℤ} 
    (h1 : g.count < outFrames) (h2 : vsRatio sin g.s.freqPoint = .ok r) (h3 : chkI32 (g.s.freqPoint + 1) = .ok fp1) (h4 : chkI32 (g.count * ch) = .ok off)
    (h5 : len < off + VS_BLOCK * ch) : vsStep sin f ch buf samples len dummy fuel outFrames g = .error .oobWrite := by
  unfold vsStep
  rw [if_neg (not_not.2 h1), h2]
  simp only [bind, Except.bind, h3, h4]
  rw [if_pos (not_le.2 h5)]
  rfl

theorem vsStep_over {fuel : ℕ} {len outFrames : ℤ} {g : VsGet} (h1 : g.count < outFrames) (h2 : g.s.freqPoint = 2 ^ 30) :
    vsStep sin f ch buf samples len dummy fuel outFrames g = .error .intOverflow := by
  unfold vsStep
  rw [if_neg (not_not.2 h1), h2, vsRatio_over]
  rfl

/-- Reads of 64 frames at the ratios of the blocks `k`, `k + 1`, … -/
inductive VsReads (sin : F64 → F64) (ch : ℕ) : ℤ → List Op → List Obs → Prop
  | nil (k : ℤ) : VsReads sin ch k [] []
  | cons (k : ℤ) (cb : Callback) (dummy : ℤ) (fuel c : ℕ) (m : Mem) (r : F64) (data : ℤ) (o : Obs) (ops : List Op) (os : List Obs) : vsRatio sin k = .ok r →
      (pulledBy ch (.read cb dummy fuel c m r 64 data) o).length = 64 → VsReads sin ch (k + 1) ops os → VsReads sin ch k (.read cb dummy fuel c m r 64 data :: ops) (o :: os)

theorem vsReads_append {k k' : ℤ} {ops ops' : List Op} {os os' : List Obs} (h : VsReads sin ch k ops os) (h' : VsReads sin ch k' ops' os') (hk : k' = k + ops.length) :
    VsReads sin ch k (ops ++ ops') (os ++ os') := by
  induction h with
  | nil k => simp only [List.length_nil, Nat.cast_zero, add_zero] at hk; subst hk; exact h'
  | cons k cb dummy fuel c m r data o ops os h1 h2 _ ih => exact .cons k cb dummy fuel c m r data o _ _ h1 h2 (ih (by rw [hk]; push_cast [List.length_cons]; ring))

theorem session_length {x : ℕ → ℕ → F32} {cnt : ℕ → ℤ} {cb : Callback} {ud U c V c' : ℕ} {m m' : Mem} {ops : List Op} {os : List Obs}
    (h : Session x ch cnt cb ud U c m ops os V c' m') : ops.length = os.length := by
  induction h with
  | done => rfl
  | fetch _ _ _ _ _ _ _ _ _ _ ih => exact ih
  | call _ _ _ _ _ _ _ _ _ _ _ _ _ _ _ _ _ _ _ ih => simp [ih]

theorem pi_double : piDouble = PI64 := by
  obtain ⟨a, ha⟩ := Fl.eq_fin_of_val (show piDouble.val = some (884279719003555 / 281474976710656) by decide +kernel)
  obtain ⟨b, hb⟩ := Fl.eq_fin_of_val (show PI64.val = some (884279719003555 / 281474976710656) by decide +kernel)
  rw [ha, hb]

theorem explained_blocks {x : ℕ → ℕ → F32} {cnt : ℕ → ℤ} {ud U c V c' : ℕ} {ops ps : List Op} {os qs : List Obs} (hE : Explained x ch cnt ud U c ops os ps qs V c') :
    ∀ k : ℕ, VsReads sin ch k ops os → InBlocks ch (speedAt sin) 64 k ps qs := by
  induction hE with
  | nil => intro k _; exact .nil k
  | read U c cb dummy fuel m m' ratio frames data o ops os ps qs U' ps' qs' V c' S e1 e2 e3 _ ih =>
    intro k hk
    cases hk with
    | cons _ _ _ _ _ _ _ _ _ _ _ h1 h2 h3 =>
      refine .block k ps qs ps' qs' (session_length S) (fun p hp => ?_) (by rw [← e2]; exact h2) (ih (k + 1) (by push_cast; exact h3))
      obtain ⟨m, d, rfl⟩ := session_calls S p hp
      refine ⟨m, d, rfl, ?_⟩
      rw [e3 _ hp m d rfl]
      unfold vsRatio at h1
      obtain ⟨a, ha, h1⟩ := bind_ok h1
      rw [← ok_inj h1]
      have : a = k * 2 := by
        unfold chkI32 at ha
        split_ifs at ha
        exact (ok_inj ha).symm
      rw [this, ← pi_double]
      rfl
  | setRatio => intro k hk; cases hk

theorem vsStep_ok (H : VsNew cfg f ch type e0 buf dummy st0 stc) (hs : SineLike sin) (hsam : 0 < samples) (hdis : samples + 2048 ≤ buf ∨ buf + 4096 ≤ samples)
    {ops : List Op} {os : List Obs} {s : VsSt} (I : VsInv f ch buf stc ops os s) (hfp0 : 0 ≤ s.freqPoint) (hfp1 : s.freqPoint < 2 ^ 30) {b : ℕ}
    (hb : 64 * (b + 1) * ch ≤ 2048) {outFrames : ℤ} (hout : 64 * (b : ℤ) < outFrames) :
    ∃ N s' op o, (∀ fuel, N ≤ fuel → vsStep sin f ch buf samples 2048 dummy fuel outFrames ⟨s, 64 * b, false⟩ = .ok (true, ⟨s', 64 * (b + 1 : ℕ), false⟩)) ∧
      VsInv f ch buf stc (ops ++ [op]) (os ++ [o]) s' ∧ s'.freqPoint = s.freqPoint + 1 ∧
      (pulledBy ch op o = (List.range 64).map fun j : ℕ => frameOf ch fun c => s'.mem (samples + ((ch * (64 * b + j) + c : ℕ) : ℤ))) ∧
      (∀ a, samples ≤ a → a < samples + 64 * b * ch → s'.mem a = s.mem a) ∧ VsReads sin ch s.freqPoint [op] [o] := by
  obtain ⟨r, q, hr, hq, q1, q2⟩ := vsRatio_ok hs hfp0 hfp1
  have hb' : (64 * ((b : ℤ) + 1)) * ch ≤ 2048 := by exact_mod_cast hb
  have hbn : (0 : ℤ) ≤ 64 * b * ch := by positivity
  have hexp : (64 * ((b : ℤ) + 1)) * ch = 64 * b * ch + 64 * ch := by ring
  have hcp : (1 : ℤ) ≤ ch := by exact_mod_cast H.ch1
  have hb2 : (b : ℤ) ≤ 64 * b * ch := by nlinarith
  have hgood : GoodRatio r := ⟨q, hq, by linarith, by linarith⟩
  have hnan : r ≠ .nan := by rintro rfl; cases hq
  have hsup := vsCallback_supplies (buf := buf) H.file H.ch1 (by have := H.ch2; omega)
  have hsz : Spec.samples ch 64 ≤ 2 ^ 50 := by rw [vs_samples]; norm_num; omega
  have hdata : 0 < samples + 64 * b * ch := by omega
  have hd2 : samples + 64 * b * ch + Spec.samples ch 64 ≤ buf ∨ buf + 4096 ≤ samples + 64 * b * ch := by
    rw [vs_samples]; omega
  have hcall : ∀ fuel, EndlessCall ch buf 4096 (.read (vsCallback f ch buf) dummy fuel s.calls s.mem r 64 (samples + 64 * b * ch)) :=
    fun fuel => ⟨hsup, hgood, by norm_num, hsz, hdata, hd2⟩
  obtain ⟨N, ⟨n, m', st', k⟩, ⟨hn, s1, e1, e2⟩, hN⟩ := H.progress ops os s.st s.calls (fun op ho => (I.calls op ho).1) I.run I.turn s.mem r (samples + 64 * b * ch) (hcall 0)
  dsimp only at hn e1
  subst hn e1
  obtain ⟨E, L⟩ := history_endless H.tables (by have := H.ch2; omega) H.made H.hbuf H.mode H.func ops H.ready H.like (fun op ho => (I.calls op ho).1) I.run
  have hkeep := fun J hJc hJw hJ => read_keeps (dummy := dummy) H.tables (by have := H.ch2; omega) H.made H.hbuf hsup hgood (by norm_num) hsz hdata hd2 E J hJc hJw hJ (hN N le_rfl)
  have hspec := fun ud c m => vsCallback_spec (f := f) (ch := ch) (buf := buf) H.file H.ch1 ud c m
  have hnc : ((4096 / ch : ℕ) : ℤ) * ch ≤ 4096 := by exact_mod_cast Nat.div_mul_le_self 4096 ch
  have hspare : SparesOutput ch (vsCallback f ch buf) 64 (samples + 64 * b * ch) := by
    intro ud c m a h1 h2
    obtain ⟨m1, g1, _, g3⟩ := hspec ud c m
    rw [g1]
    refine g3 a (fun h => ?_)
    omega
  refine ⟨N, ⟨s1, m', k, s.freqPoint + 1⟩, .read (vsCallback f ch buf) dummy N s.calls s.mem r 64 (samples + 64 * b * ch),
    ⟨64, some m', none, k, srcError (some s1), srcGetChannels (some s1)⟩, ?_, ⟨?_, ?_, ?_, ?_, ?_⟩, rfl, ?_, ?_, .cons _ _ _ _ _ _ _ _ _ _ _ hr (by simp [pulledBy]) (.nil _)⟩
  · intro fuel hfuel
    have := vsStep_eq (sin := sin) (f := f) (ch := ch) (buf := buf) (samples := samples) (len := 2048) (dummy := dummy) (fuel := fuel) (outFrames := outFrames)
      (g := ⟨s, 64 * b, false⟩) hout hr (chkI32_ok (by dsimp only; omega) (by norm_num at hfp1; dsimp only; omega)) (chkI32_ok (by dsimp only; omega) (by dsimp only; omega))
      (by unfold VS_BLOCK; dsimp only; omega) (hN fuel hfuel) (by unfold VS_BLOCK; norm_num) (chkI32_ok (by unfold VS_BLOCK; dsimp only; omega) (by unfold VS_BLOCK; dsimp only; omega))
    rw [this]
    have e : 64 * (b : ℤ) + VS_BLOCK = 64 * ((b + 1 : ℕ) : ℤ) := by unfold VS_BLOCK; push_cast; ring
    dsimp only
    rw [e]
    rfl
  · refine run_append_ok I.run (run_one ?_)
    simp only [Op.run, hN N le_rfl, bind, Except.bind, pure, Except.pure, Option.getD_some]
  · intro op hop
    rcases List.mem_append.1 hop with h | h
    · exact I.calls op h
    · rw [List.mem_singleton.1 h]
      exact ⟨hcall N, ⟨q, hq, q1, q2⟩, hnan, hsz⟩
  · refine pulls_snoc I.pulls I.turn _ _ _ _ _ _ _ (vsCallback_hands H.file H.ch1) hspare ?_ e2
    intro i hi
    rw [offered_const, Int.toNat_natCast]
    exact I.holds i hi
  · exact inTurn_snoc (o := ⟨64, some m', none, k, srcError (some s1), srcGetChannels (some s1)⟩) I.turn (fun ud c m => by obtain ⟨m1, g1, _⟩ := hspec ud c m; rw [g1]) _ _ _ _ _ _
  · refine hkeep (fun c m => ∀ i, c = i + 1 → Holds (looped f) ch m buf (i * (4096 / ch)) (4096 / ch)) ?_ ?_ I.holds
    · intro c m _ i hi
      obtain ⟨m1, g1, g2, _⟩ := hspec s.st.userData c m
      rw [g1]
      obtain rfl : c = i := by omega
      exact g2
    · intro c m m2 hJ hw i hi j l hj hl
      rw [hw, hJ i hi j l hj hl]
      have := frame_index hj hl
      have : ((ch * j + l : ℕ) : ℤ) < ((4096 / ch * ch : ℕ) : ℤ) := by exact_mod_cast this
      rw [Nat.cast_mul] at this
      rintro ⟨h1, h2⟩
      omega
  · unfold pulledBy
    dsimp only
    refine List.map_congr_left fun j _ => ?_
    unfold frameOf
    refine List.map_congr_left fun c _ => ?_
    congr 1
    push_cast
    ring
  · refine hkeep (fun c m => ∀ a, samples ≤ a → a < samples + 64 * b * ch → m a = s.mem a) ?_ ?_ (fun _ _ _ => rfl)
    · intro c m hJ a h1 h2
      obtain ⟨m1, g1, _, g3⟩ := hspec s.st.userData c m
      rw [g1, ← hJ a h1 h2]
      refine g3 a (fun h => ?_)
      omega
    · intro c m m2 hJ hw a h1 h2
      rw [hw a (by omega), hJ a h1 h2]

theorem whileM_true {σ : Type} {step : σ → M (Bool × σ)} {s s' : σ} (h : step s = .ok (true, s')) (k : ℕ) : whileM step (1 + k) s = whileM step k s' := by
  rw [add_comm, whileM, h]
  rfl

theorem whileM_false {σ : Type} {step : σ → M (Bool × σ)} {s s' : σ} (h : step s = .ok (false, s')) {k : ℕ} (hk : 1 ≤ k) : whileM step k s = .ok s' := by
  obtain ⟨j, rfl⟩ := Nat.exists_eq_add_of_le' hk
  unfold whileM
  rw [h]
  rfl

theorem whileM_err {σ : Type} {step : σ → M (Bool × σ)} {s : σ} {e : Fault} (h : step s = .error e) {k : ℕ} (hk : 1 ≤ k) : whileM step k s = .error e := by
  obtain ⟨j, rfl⟩ := Nat.exists_eq_add_of_le' hk
  unfold whileM
  rw [h]
  rfl

theorem vsBlocks_ok (H : VsNew cfg f ch type e0 buf dummy st0 stc) (hs : SineLike sin) (hsam : 0 < samples) (hdis : samples + 2048 ≤ buf ∨ buf + 4096 ≤ samples)
    {ops : List Op} {os : List Obs} {s : VsSt} (I : VsInv f ch buf stc ops os s) (hfp0 : 0 ≤ s.freqPoint) {outFrames : ℤ} :
    ∀ b : ℕ, 64 * b * ch ≤ 2048 → (∀ i < b, 64 * (i : ℤ) < outFrames) → s.freqPoint + b ≤ 2 ^ 30 →
    ∃ N s' ops' os', (∀ fuel, N ≤ fuel → ∀ k, whileM (vsStep sin f ch buf samples 2048 dummy fuel outFrames) (b + k) ⟨s, 0, false⟩ =
        whileM (vsStep sin f ch buf samples 2048 dummy fuel outFrames) k ⟨s', 64 * b, false⟩) ∧
      VsInv f ch buf stc (ops ++ ops') (os ++ os') s' ∧ s'.freqPoint = s.freqPoint + b ∧
      (pulled ch (ops ++ ops') (os ++ os') = pulled ch ops os ++ (List.range (64 * b)).map fun j : ℕ => frameOf ch fun c => s'.mem (samples + ((ch * j + c : ℕ) : ℤ))) ∧
      VsReads sin ch s.freqPoint ops' os' ∧ ops'.length = b := by
  intro b
  induction b with
  | zero =>
    intro _ _ _
    refine ⟨0, s, [], [], fun fuel _ k => by simp, by simpa using I, by simp, by simp, .nil _, rfl⟩
  | succ b ih =>
    intro h1 h2 h3
    obtain ⟨N, s1, ops1, os1, g1, g2, g3, g4, g5, g6⟩ := ih (le_trans (by gcongr; omega) h1) (fun i hi => h2 i (by omega)) (by push_cast at h3 ⊢; omega)
    obtain ⟨N2, s2, op, o, k1, k2, k3, k4, k5, k6⟩ := vsStep_ok (sin := sin) (samples := samples) H hs hsam hdis g2 (by rw [g3]; omega) (by rw [g3]; push_cast at h3; omega) (b := b) h1 (h2 b (by omega))
    refine ⟨max N N2, s2, ops1 ++ [op], os1 ++ [o], ?_, ?_, ?_, ?_, vsReads_append g5 k6 (by rw [g3, g6]), by simp [g6]⟩
    · intro fuel hfuel k
      rw [show b + 1 + k = b + (1 + k) by ring, g1 fuel (le_trans (le_max_left _ _) hfuel), whileM_true (k1 fuel (le_trans (le_max_right _ _) hfuel))]
    · rw [← List.append_assoc, ← List.append_assoc]; exact k2
    · rw [k3, g3]; push_cast; ring
    · rw [← List.append_assoc, ← List.append_assoc, pulled_snoc g2.turn, g4, k4, List.append_assoc, show 64 * (b + 1) = 64 * b + 64 by ring, List.range_add, List.map_append,
        List.map_map]
      congr 2
      refine frames_congr fun j c hj hc => ?_
      have : ch * j + c < 64 * b * ch := frame_index hj hc
      have : ((ch * j + c : ℕ) : ℤ) < ((64 * b * ch : ℕ) : ℤ) := by exact_mod_cast this
      push_cast at this
      exact (k5 _ (by omega) (by push_cast; linarith)).symm

/-- A call of `varispeed_get_data` for a whole number of blocks that fit. -/
theorem vsGetData_ok (H : VsNew cfg f ch type e0 buf dummy st0 stc) (hs : SineLike sin) (hsam : 0 < samples) (hdis : samples + 2048 ≤ buf ∨ buf + 4096 ≤ samples)
    {ops : List Op} {os : List Obs} {s : VsSt} (I : VsInv f ch buf stc ops os s) (hfp0 : 0 ≤ s.freqPoint) (b : ℕ) (hb : 64 * b * ch ≤ 2048) (hfp : s.freqPoint + b ≤ 2 ^ 30) :
    ∃ N s' ops' os', (∀ fuel, N ≤ fuel → vsGetData sin f ch buf samples 2048 dummy fuel (64 * b) s = .ok (some (64 * b, s'))) ∧
      VsInv f ch buf stc (ops ++ ops') (os ++ os') s' ∧ s'.freqPoint = s.freqPoint + b ∧
      pulled ch (ops ++ ops') (os ++ os') = pulled ch ops os ++ sfWritef ch s'.mem samples (64 * b) ∧ VsReads sin ch s.freqPoint ops' os' ∧ ops'.length = b := by
  obtain ⟨N, s', ops', os', g1, g2, g3, g4, g5⟩ := vsBlocks_ok (sin := sin) (samples := samples) (outFrames := 64 * b) H hs hsam hdis I hfp0 b hb (fun i hi => by omega) hfp
  refine ⟨N + b + 1, s', ops', os', fun fuel hfuel => ?_, g2, g3, ?_, g5⟩
  · unfold vsGetData
    have : whileM (vsStep sin f ch buf samples 2048 dummy fuel (64 * b)) fuel ⟨s, 0, false⟩ = .ok ⟨s', 64 * b, false⟩ := by
      obtain ⟨k, rfl⟩ : ∃ k, fuel = b + k := ⟨fuel - b, by omega⟩
      rw [g1 _ (by omega)]
      refine whileM_false ?_ (by omega)
      unfold vsStep
      rw [if_pos (by simp)]
      rfl
    rw [this]
    rfl
  · rw [g4]
    congr 1

/-- A call of `varispeed_get_data` whose last block does not fit. -/
theorem vsGetData_oob (H : VsNew cfg f ch type e0 buf dummy st0 stc) (hs : SineLike sin) (hsam : 0 < samples) (hdis : samples + 2048 ≤ buf ∨ buf + 4096 ≤ samples)
    {ops : List Op} {os : List Obs} {s : VsSt} (I : VsInv f ch buf stc ops os s) (hfp0 : 0 ≤ s.freqPoint) (b : ℕ) (hb : 64 * b * ch ≤ 2048) (hb2 : 2048 < 64 * (b + 1) * ch)
    (outFrames : ℤ) (hout : 64 * (b : ℤ) < outFrames) (hfp : s.freqPoint + b < 2 ^ 30) :
    ∃ N, ∀ fuel, N ≤ fuel → vsGetData sin f ch buf samples 2048 dummy fuel outFrames s = .error .oobWrite := by
  obtain ⟨N, s', ops', os', g1, g2, g3, g4⟩ := vsBlocks_ok (sin := sin) (samples := samples) (outFrames := outFrames) H hs hsam hdis I hfp0 b hb (fun i hi => by omega) hfp.le
  refine ⟨N + b + 1, fun fuel hfuel => ?_⟩
  have hcp : (1 : ℤ) ≤ ch := by exact_mod_cast H.ch1
  have hbn : (0 : ℤ) ≤ 64 * b * ch := by positivity
  have hb' : (64 * (b : ℤ)) * ch ≤ 2048 := by exact_mod_cast hb
  have hb2' : (2048 : ℤ) < (64 * ((b : ℤ) + 1)) * ch := by exact_mod_cast hb2
  unfold vsGetData
  have : whileM (vsStep sin f ch buf samples 2048 dummy fuel outFrames) fuel ⟨s, 0, false⟩ = .error .oobWrite := by
    obtain ⟨k, rfl⟩ : ∃ k, fuel = b + k := ⟨fuel - b, by omega⟩
    rw [g1 _ (by omega)]
    refine whileM_err ?_ (by omega)
    obtain ⟨r, q, hr, _⟩ := vsRatio_ok (sin := sin) hs (fp := s'.freqPoint) (by rw [g3]; omega) (by rw [g3]; exact hfp)
    refine vsStep_oob (g := ⟨s', 64 * b, false⟩) hout hr (chkI32_ok (by dsimp only; rw [g3]; omega) (by dsimp only; rw [g3]; norm_num at hfp; omega))
      (chkI32_ok (by dsimp only; omega) (by dsimp only; omega)) ?_
    unfold VS_BLOCK
    dsimp only
    linarith
  rw [this]
  rfl

theorem vsPlay_ok (H : VsNew cfg f ch type e0 buf dummy st0 stc) (hs : SineLike sin) (hsam : 0 < samples) (hdis : samples + 2048 ≤ buf ∨ buf + 4096 ≤ samples) (hch : ch ∣ 32) :
    ∀ (n : ℕ) {ops : List Op} {os : List Obs} {s : VsSt}, VsInv f ch buf stc ops os s → 0 ≤ s.freqPoint → s.freqPoint + ((n * (32 / ch) : ℕ) : ℤ) ≤ 2 ^ 30 →
    ∃ N ws s' ops' os', (∀ fuel, N ≤ fuel → vsPlay sin f ch buf samples dummy fuel n s = .ok (some (ws, s'))) ∧
      VsInv f ch buf stc (ops ++ ops') (os ++ os') s' ∧ s'.freqPoint = s.freqPoint + ((n * (32 / ch) : ℕ) : ℤ) ∧ ws.length = n * (2048 / ch) ∧
      pulled ch (ops ++ ops') (os ++ os') = pulled ch ops os ++ ws ∧ VsReads sin ch s.freqPoint ops' os' := by
  obtain ⟨b, hb⟩ := hch
  have h1 := H.ch1
  have hb1 : 1 ≤ b := by by_contra h; have : b = 0 := by omega
                         subst this; omega
  have hdiv : 32 / ch = b := by rw [hb]; exact Nat.mul_div_cancel_left _ (by omega)
  have hdiv2 : 2048 / ch = 64 * b := by rw [show 2048 = ch * (64 * b) by rw [show ch * (64 * b) = 64 * (ch * b) by ring, ← hb]]; exact Nat.mul_div_cancel_left _ (by omega)
  have hout : Int.tdiv AUDIO_BUFFER_LEN ch = 64 * (b : ℤ) := by
    unfold AUDIO_BUFFER_LEN
    rw [Int.tdiv_eq_ediv_of_nonneg (by norm_num)]
    rw [show ((2048 : ℤ) / (ch : ℤ)) = ((2048 / ch : ℕ) : ℤ) by norm_cast, hdiv2]
    push_cast; ring
  rw [hdiv, hdiv2]
  intro n
  induction n with
  | zero =>
    intro ops os s I _ _
    exact ⟨0, [], s, [], [], fun _ _ => rfl, by simpa using I, by simp, by simp, by simp, .nil _⟩
  | succ n ih =>
    intro ops os s I hfp0 hfp
    push_cast at hfp
    obtain ⟨N, s1, ops1, os1, g1, g2, g3, g4, g5, g6⟩ := vsGetData_ok (sin := sin) (samples := samples) H hs hsam hdis I hfp0 b (by nlinarith) (by nlinarith)
    obtain ⟨N2, ws, s2, ops2, os2, k1, k2, k3, k4, k5, k6⟩ := ih g2 (by rw [g3]; omega) (by rw [g3]; push_cast; linarith)
    refine ⟨max N N2, sfWritef ch s1.mem samples (64 * b) ++ ws, s2, ops1 ++ ops2, os1 ++ os2, ?_, ?_, ?_, ?_, ?_, vsReads_append g5 k6 (by rw [g3, g6])⟩
    · intro fuel hfuel
      unfold vsPlay
      rw [hout, show AUDIO_BUFFER_LEN = 2048 from rfl, g1 fuel (le_trans (le_max_left _ _) hfuel)]
      simp only [bind, Except.bind]
      rw [if_neg (by omega), k1 fuel (le_trans (le_max_right _ _) hfuel)]
      have : (64 * (b : ℤ)).toNat = 64 * b := by omega
      rw [this]
      rfl
    · rw [← List.append_assoc, ← List.append_assoc]; exact k2
    · rw [k3, g3]; push_cast; ring
    · rw [List.length_append, k4]
      simp only [sfWritef, List.length_map, List.length_range]
      ring
    · rw [← List.append_assoc, ← List.append_assoc, k5, g4, List.append_assoc]

theorem vsPlay_over (H : VsNew cfg f ch type e0 buf dummy st0 stc) (hs : SineLike sin) (hsam : 0 < samples) (hdis : samples + 2048 ≤ buf ∨ buf + 4096 ≤ samples) (hch : ch ∣ 32) :
    ∀ (k n : ℕ) {ops : List Op} {os : List Obs} {s : VsSt}, VsInv f ch buf stc ops os s → 0 ≤ s.freqPoint → s.freqPoint + ((k * (32 / ch) : ℕ) : ℤ) = 2 ^ 30 → k < n →
    ∃ N, ∀ fuel, N ≤ fuel → vsPlay sin f ch buf samples dummy fuel n s = .error .intOverflow := by
  obtain ⟨b, hb⟩ := hch
  have h1 := H.ch1
  have hb1 : 1 ≤ b := by by_contra h; have : b = 0 := by omega
                         subst this; omega
  have hdiv : 32 / ch = b := by rw [hb]; exact Nat.mul_div_cancel_left _ (by omega)
  have hdiv2 : 2048 / ch = 64 * b := by rw [show 2048 = ch * (64 * b) by rw [show ch * (64 * b) = 64 * (ch * b) by ring, ← hb]]; exact Nat.mul_div_cancel_left _ (by omega)
  have hout : Int.tdiv AUDIO_BUFFER_LEN ch = 64 * (b : ℤ) := by
    unfold AUDIO_BUFFER_LEN
    rw [Int.tdiv_eq_ediv_of_nonneg (by norm_num)]
    rw [show ((2048 : ℤ) / (ch : ℤ)) = ((2048 / ch : ℕ) : ℤ) by norm_cast, hdiv2]
    push_cast; ring
  rw [hdiv]
  intro k
  induction k with
  | zero =>
    intro n ops os s I hfp0 hfp hn
    refine ⟨1, fun fuel hfuel => ?_⟩
    obtain ⟨j, rfl⟩ := Nat.exists_eq_add_of_le' hn
    unfold vsPlay vsGetData
    rw [hout, whileM_err (vsStep_over (g := ⟨s, 0, false⟩) (by dsimp only; omega) (by dsimp only; rw [← hfp]; simp)) hfuel]
    rfl
  | succ k ih =>
    intro n ops os s I hfp0 hfp hn
    obtain ⟨n, rfl⟩ : ∃ n', n = n' + 1 := ⟨n - 1, by omega⟩
    push_cast at hfp
    obtain ⟨N, s1, ops1, os1, g1, g2, g3, g4, g5, g6⟩ := vsGetData_ok (sin := sin) (samples := samples) H hs hsam hdis I hfp0 b (by nlinarith) (by nlinarith)
    obtain ⟨N2, k1⟩ := ih n g2 (by rw [g3]; omega) (by rw [g3]; push_cast; linarith) (by omega)
    refine ⟨max N N2, fun fuel hfuel => ?_⟩
    unfold vsPlay
    rw [hout, show AUDIO_BUFFER_LEN = 2048 from rfl, g1 fuel (le_trans (le_max_left _ _) hfuel)]
    simp only [bind, Except.bind]
    rw [if_neg (by omega), k1 fuel (le_trans (le_max_right _ _) hfuel)]

end play
end Verif
