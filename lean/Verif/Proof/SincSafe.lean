import Verif.Proof.SincTables
import Verif.Proof.InterpHistory

/-! What every `src_process` call on a sinc handle keeps, in every history that does not fault: no restriction on ratio changes or on
`end_of_input`. -/

namespace Verif
open Spec

/-- Invariant of the sinc filter between and during calls. -/
structure SafeF (N inc B : ℤ) (ch : ℕ) (f : SincFilter) : Prop where
  hN : f.coeffHalfLen = N
  hinc : f.indexInc = inc
  hlen : f.bLen = ch * B + 1
  dvdC : (ch : ℤ) ∣ f.bCurrent
  c0 : 0 ≤ f.bCurrent
  lt : f.bCurrent < f.bLen
  le : f.bCurrent ≤ f.bEnd
  be : f.bEnd ≤ f.bLen
  z : f.bCurrent = 0 → f.bEnd = 0
  dvdE : f.bRealEnd < 0 → (ch : ℤ) ∣ f.bEnd

theorem bufMove_inv {f g : SincFilter} {ch src len : ℤ} (h : bufMove f ch src len = .ok g) :
    0 ≤ len ∧ 0 ≤ src ∧ ∃ b, g = { f with buffer := b } := by
  unfold bufMove at h
  split at h
  · simp [throw, throwThe, MonadExceptOf.throw] at h
  split at h
  · rename_i h1 h2
    exact ⟨by omega, h2.1, _, (ok_inj h).symm⟩
  · simp [throw, throwThe, MonadExceptOf.throw] at h

theorem bufLoad_inv {m : Mem} {d : SrcData} {f g : SincFilter} {ch dst src len : ℤ} (h : bufLoad m d f ch dst src len = .ok g) :
    0 ≤ len ∧ 0 ≤ src ∧ src + len ≤ d.inputFrames * ch ∧ ∃ b, g = { f with buffer := b } := by
  unfold bufLoad at h
  split at h
  · simp [throw, throwThe, MonadExceptOf.throw] at h
  split at h
  · simp [throw, throwThe, MonadExceptOf.throw] at h
  split at h
  · simp [throw, throwThe, MonadExceptOf.throw] at h
  · rename_i h1 h2 h3
    rw [not_not] at h3
    exact ⟨by omega, by omega, by omega, _, (ok_inj h).symm⟩

theorem bufZero_inv {f g : SincFilter} {ch dst len : ℤ} (h : bufZero f ch dst len = .ok g) :
    0 ≤ len ∧ ∃ b, g = { f with buffer := b } := by
  unfold bufZero at h
  split at h
  · simp [throw, throwThe, MonadExceptOf.throw] at h
  split at h
  · rename_i h1 h2
    exact ⟨by omega, _, (ok_inj h).symm⟩
  · simp [throw, throwThe, MonadExceptOf.throw] at h

theorem Mem.setRange_join (m : Mem) (base : ℤ) (ch g : ℕ) (F G : ℕ → F32) :
    ∃ K, (m.setRange base (ch * g) F).setRange (base + ((ch * g : ℕ) : ℤ)) ch G = m.setRange base (ch * (g + 1)) K := by
  refine ⟨fun j => if j < ch * g then F j else G (j - ch * g), ?_⟩
  rw [Nat.mul_add, Nat.mul_one, ← Mem.setRange_append _ _ _ _ _ G (fun i _ => by rw [if_neg (by omega)]; congr 1; omega)]
  congr 1
  funext a
  simp only [Mem.setRange]
  split_ifs with h1 h2
  · rfl
  · exfalso; omega
  · rfl

section
variable {N inc B : ℤ} {ch : ℕ} {H : ℤ} {f g : SincFilter}

theorem SafeF.len_bound (S : SafeF N inc B ch f) (C : SincCtx N inc B ch H) : f.bLen ≤ 128000001 ∧ 3 * (ch * H) < f.bLen ∧ 6 * (ch : ℤ) ≤ ch * H := by
  have h1 := C.geo.bM
  have h2 := C.HB
  have h3 := C.H6
  have hM : (ch : ℤ) ≤ 128 := by exact_mod_cast C.chM
  have h0 : (0 : ℤ) ≤ ch := by positivity
  rw [S.hlen]
  refine ⟨?_, ?_, ?_⟩
  · nlinarith
  · nlinarith
  · nlinarith

theorem SafeF.inHand (S : SafeF N inc B ch f) (C : SincCtx N inc B ch H) : samplesInHand f = .ok (f.bEnd - f.bCurrent) := by
  obtain ⟨hL, -, -⟩ := S.len_bound C
  have hle := S.le
  have hbe := S.be
  have h0 := S.c0
  have hz := S.z
  have hlt := S.lt
  unfold samplesInHand
  rw [chkI32_ok (by omega) (by omega)]
  simp only [bind, Except.bind]
  rw [chkI32_ok (by omega) (by omega)]
  simp only
  rw [modM_ok (by omega), Int.tmod_eq_emod_of_nonneg (by omega)]
  congr 1
  rw [Int.add_emod_right, Int.emod_eq_of_lt (by omega) (by omega)]

/-- Two filters with the same counters. -/
structure SameCount (f g : SincFilter) : Prop where
  inCount : g.inCount = f.inCount
  inUsed : g.inUsed = f.inUsed
  outCount : g.outCount = f.outCount
  outGen : g.outGen = f.outGen

theorem prepRoom_safe (S : SafeF N inc B ch f) (C : SincCtx N inc B ch H) (hr : f.bRealEnd < 0) (hin : f.bEnd - f.bCurrent ≤ ch * H) {n : ℤ}
    (h : prepRoom f ch (ch * H) = .ok (g, n)) :
    SafeF N inc B ch g ∧ SameCount f g ∧ g.bRealEnd = f.bRealEnd ∧ 0 < g.bCurrent ∧ g.bEnd + n ≤ g.bLen := by
  obtain ⟨hL, hL3, hL6⟩ := S.len_bound C
  have hch1 : (1 : ℤ) ≤ ch := by exact_mod_cast C.ch1
  have hle := S.le
  have hbe := S.be
  have h0 := S.c0
  have hdH : (ch : ℤ) ∣ ch * H := Dvd.intro _ rfl
  unfold prepRoom at h
  split at h
  · obtain ⟨len, hlen, h⟩ := bind_ok h
    have hlen := chkI32_eq hlen
    have := ok_inj h; simp only [Prod.mk.injEq] at this
    obtain ⟨rfl, rfl⟩ := this
    refine ⟨⟨S.hN, S.hinc, S.hlen, hdH, ?_, ?_, ?_, ?_, ?_, fun _ => hdH⟩, ⟨rfl, rfl, rfl, rfl⟩, rfl, ?_, ?_⟩ <;> dsimp only <;> omega
  rename_i hc
  obtain ⟨e, he, h⟩ := bind_ok h
  split at h
  · obtain ⟨len, hlen, h⟩ := bind_ok h
    have hlen := chkI32_eq hlen
    have := ok_inj h; simp only [Prod.mk.injEq] at this
    obtain ⟨rfl, rfl⟩ := this
    exact ⟨S, ⟨rfl, rfl, rfl, rfl⟩, rfl, by omega, by omega⟩
  · obtain ⟨len, hlen, h⟩ := bind_ok h
    have hlen := chkI32_eq hlen
    obtain ⟨n1, hn1, h⟩ := bind_ok h
    obtain ⟨f1, h1, h⟩ := bind_ok h
    obtain ⟨-, hs, b, rfl⟩ := bufMove_inv h1
    obtain ⟨len2, hlen2, h⟩ := bind_ok h
    have hlen2 := chkI32_eq hlen2
    have := ok_inj h; simp only [Prod.mk.injEq] at this
    obtain ⟨rfl, rfl⟩ := this
    dsimp only at hlen2
    refine ⟨⟨S.hN, S.hinc, S.hlen, hdH, ?_, ?_, ?_, ?_, ?_, fun hneg => ?_⟩, ⟨rfl, rfl, rfl, rfl⟩, rfl, ?_, ?_⟩ <;> dsimp only <;> try omega
    rw [hlen]
    exact dvd_add hdH (dvd_sub (S.dvdE hr) S.dvdC)

theorem prepRoom_nonneg (S : SafeF N inc B ch f) (C : SincCtx N inc B ch H) {n : ℤ} (h : prepRoom f ch (ch * H) = .ok (g, n)) : 0 ≤ n := by
  obtain ⟨hL, hL3, hL6⟩ := S.len_bound C
  have hch1 : (1 : ℤ) ≤ ch := by exact_mod_cast C.ch1
  unfold prepRoom at h
  split at h
  · obtain ⟨len, hlen, h⟩ := bind_ok h
    have hlen := chkI32_eq hlen
    have := ok_inj h; simp only [Prod.mk.injEq] at this
    omega
  obtain ⟨e, he, h⟩ := bind_ok h
  split at h
  · obtain ⟨len, hlen, h⟩ := bind_ok h
    have := ok_inj h; simp only [Prod.mk.injEq] at this
    omega
  · obtain ⟨len, hlen, h⟩ := bind_ok h
    obtain ⟨n1, hn1, h⟩ := bind_ok h
    obtain ⟨f1, h1, h⟩ := bind_ok h
    obtain ⟨len2, hlen2, h⟩ := bind_ok h
    have := ok_inj h; simp only [Prod.mk.injEq] at this
    omega

theorem tailMove_safe (S : SafeF N inc B ch f) (C : SincCtx N inc B ch H) (hc : 0 < f.bCurrent) (h : tailMove f ch (ch * H) = .ok g) :
    SameCount f g ∧ g.coeffHalfLen = N ∧ g.indexInc = inc ∧ g.bLen = f.bLen ∧ (ch : ℤ) ∣ g.bCurrent ∧ 0 < g.bCurrent ∧ g.bCurrent < g.bLen ∧
      g.bCurrent ≤ g.bEnd ∧ g.bEnd ≤ g.bLen := by
  obtain ⟨hL, hL3, hL6⟩ := S.len_bound C
  have hch1 : (1 : ℤ) ≤ ch := by exact_mod_cast C.ch1
  have hle := S.le
  have hbe := S.be
  have hlt := S.lt
  unfold tailMove at h
  split at h
  · obtain ⟨len, hlen, h⟩ := bind_ok h
    have hlen := chkI32_eq hlen
    obtain ⟨n1, hn1, h⟩ := bind_ok h
    obtain ⟨f1, h1, h⟩ := bind_ok h
    obtain ⟨-, hs, b, rfl⟩ := bufMove_inv h1
    have := ok_inj h; subst this
    refine ⟨⟨rfl, rfl, rfl, rfl⟩, S.hN, S.hinc, rfl, Dvd.intro _ rfl, ?_, ?_, ?_, ?_⟩ <;> dsimp only <;> omega
  · have := ok_inj h; subst this
    exact ⟨⟨rfl, rfl, rfl, rfl⟩, S.hN, S.hinc, rfl, S.dvdC, hc, hlt, hle, hbe⟩

theorem prepTail_safe (S : SafeF N inc B ch f) (C : SincCtx N inc B ch H) (hc : 0 < f.bCurrent) {d : SrcData} (h : prepTail f ch (ch * H) d = .ok g) :
    SafeF N inc B ch g ∧ SameCount f g := by
  unfold prepTail at h
  split at h
  · obtain ⟨f1, h1, h⟩ := bind_ok h
    obtain ⟨k, a1, a2, a3, a4, a5, a6, a7, a8⟩ := tailMove_safe S C hc h1
    dsimp only at h
    obtain ⟨len, hlen, h⟩ := bind_ok h
    obtain ⟨e, he, h⟩ := bind_ok h
    have he := chkI32_eq he
    obtain ⟨f2, h2, h⟩ := bind_ok h
    obtain ⟨hz, b, rfl⟩ := bufZero_inv h2
    have := ok_inj h; subst this
    refine ⟨⟨a1, a2, by rw [← S.hlen]; exact a3, a4, by dsimp only; omega, a6, ?_, ?_, ?_, ?_⟩, ⟨k.inCount, k.inUsed, k.outCount, k.outGen⟩⟩ <;> dsimp only
    · omega
    · split_ifs <;> omega
    · omega
    · omega
  · have := ok_inj h; subst this
    exact ⟨S, ⟨rfl, rfl, rfl, rfl⟩⟩

theorem emod_le {a b : ℤ} (h : 0 ≤ a) : a % b ≤ a := by
  rcases le_total 0 b with hb | hb
  · obtain ⟨x, rfl⟩ := Int.eq_ofNat_of_zero_le h
    obtain ⟨y, rfl⟩ := Int.eq_ofNat_of_zero_le hb
    exact_mod_cast Nat.mod_le x y
  · obtain ⟨x, rfl⟩ := Int.eq_ofNat_of_zero_le h
    obtain ⟨y, hy⟩ := Int.eq_ofNat_of_zero_le (neg_nonneg.2 hb)
    rw [← Int.emod_neg, hy]
    exact_mod_cast Nat.mod_le x y

theorem prepareData_safe (S : SafeF N inc B ch f) (C : SincCtx N inc B ch H) (hin : f.bEnd - f.bCurrent ≤ ch * H) {d : SrcData} {m : Mem} {e : ℤ}
    (hic : f.inCount = d.inputFrames * ch) (hu : (ch : ℤ) ∣ f.inUsed) (hu0 : 0 ≤ f.inUsed) (hu1 : f.inUsed ≤ f.inCount)
    (h : prepareData m f ch d (ch * H) = .ok (e, g)) :
    SafeF N inc B ch g ∧ g.inCount = f.inCount ∧ g.outCount = f.outCount ∧ g.outGen = f.outGen ∧ (ch : ℤ) ∣ g.inUsed ∧ 0 ≤ g.inUsed ∧
      g.inUsed ≤ g.inCount ∧ (e = 0 ∨ (e = 21 ∧ 2147483648 ≤ f.inCount)) := by
  unfold prepareData at h
  split at h
  · have := ok_inj h; simp only [Prod.mk.injEq] at this; obtain ⟨rfl, rfl⟩ := this
    exact ⟨S, rfl, rfl, rfl, hu, hu0, hu1, Or.inl rfl⟩
  split at h
  · have := ok_inj h; simp only [Prod.mk.injEq] at this; obtain ⟨rfl, rfl⟩ := this
    exact ⟨S, rfl, rfl, rfl, hu, hu0, hu1, Or.inl rfl⟩
  rename_i hre _
  obtain ⟨⟨f1, n⟩, h1, h⟩ := bind_ok h
  obtain ⟨S1, k1, hr1, hc1, hn1⟩ := prepRoom_safe S C (by omega) hin h1
  obtain ⟨r, hr, h⟩ := bind_ok h
  obtain ⟨x, hx, h⟩ := bind_ok h
  have hx := chkI32_eq hx
  have hch0 : (ch : ℤ) ≠ 0 := by have := C.ch1; omega
  rw [modM_ok hch0] at hr
  have hr := Except.ok.inj hr
  split at h
  · rename_i hlen
    have := ok_inj h; simp only [Prod.mk.injEq] at this; obtain ⟨rfl, rfl⟩ := this
    refine ⟨S1, k1.inCount, k1.outCount, k1.outGen, by rw [k1.inUsed]; exact hu, by rw [k1.inUsed]; exact hu0,
      by rw [k1.inUsed, k1.inCount]; exact hu1, Or.inr ⟨rfl, ?_⟩⟩
    rw [k1.inCount, k1.inUsed] at hlen hr hx
    by_contra hbig
    have ht : truncI32 (f.inCount - f.inUsed) = f.inCount - f.inUsed := by
      unfold truncI32
      rw [Int.emod_eq_of_lt (by omega) (by omega)]; ring
    rw [ht] at hlen hr hx
    rw [hx] at hlen
    have hn0 : 0 ≤ n := prepRoom_nonneg S C h1
    have hr0 : 0 ≤ r ∧ r ≤ min (f.inCount - f.inUsed) n := by
      rw [← hr]
      have h0 : 0 ≤ min (f.inCount - f.inUsed) n := le_min (by omega) hn0
      exact ⟨Int.tmod_nonneg _ h0, by rw [Int.tmod_eq_emod_of_nonneg h0]; exact emod_le h0⟩
    omega
  rename_i hlen
  obtain ⟨f2, h2, h⟩ := bind_ok h
  obtain ⟨hl0, hsrc, hfit, b, rfl⟩ := bufLoad_inv h2
  obtain ⟨f3, h3, h⟩ := bind_ok h
  have := ok_inj h; simp only [Prod.mk.injEq] at this; obtain ⟨rfl, rfl⟩ := this
  have hdv : (ch : ℤ) ∣ (min (truncI32 (f1.inCount - f1.inUsed)) n - r) := by
    rw [← hr]
    exact ⟨(min (truncI32 (f1.inCount - f1.inUsed)) n).tdiv ch, by have := Int.mul_tdiv_add_tmod (min (truncI32 (f1.inCount - f1.inUsed)) n) ch; omega⟩
  dsimp only at h3
  set len := min (truncI32 (f1.inCount - f1.inUsed)) n - r
  have S2 : SafeF N inc B ch { f1 with buffer := b, bEnd := f1.bEnd + len, inUsed := f1.inUsed + len } :=
    ⟨S1.hN, S1.hinc, S1.hlen, S1.dvdC, S1.c0, S1.lt, by have := S1.le; dsimp only; omega, by dsimp only; omega,
      fun h0 => by dsimp only at h0; omega, fun hneg => dvd_add (S1.dvdE hneg) hdv⟩
  obtain ⟨S3, k3⟩ := prepTail_safe S2 C hc1 h3
  refine ⟨S3, k3.inCount.trans k1.inCount, k3.outCount.trans k1.outCount, k3.outGen.trans k1.outGen, ?_, ?_, ?_, Or.inl rfl⟩
  · rw [k3.inUsed]; exact dvd_add (by rw [k1.inUsed]; exact hu) hdv
  · rw [k3.inUsed]; dsimp only; rw [k1.inUsed]; omega
  · rw [k3.inUsed, k3.inCount]; dsimp only; rw [k1.inCount, hic]; exact hfit

theorem sincNorm_safe (S : SafeF N inc B ch f) (C : SincCtx N inc B ch H) {idx : F64} {T : ℚ} (hv : idx.val = some T) (h0 : 0 ≤ T)
    (h1 : T ≤ 300) (hfit : f.bCurrent + ch * ⌊T⌋ < f.bLen) :
    sincNorm ch f idx = .ok ({ f with bCurrent := f.bCurrent + ch * ⌊T⌋ }, fmodOne idx) ∧ (fmodOne idx).val = some (Int.fract T) := by
  obtain ⟨hL, -, -⟩ := S.len_bound C
  have hc0 := S.c0
  have hfl0 : 0 ≤ ⌊T⌋ := Int.floor_nonneg.2 h0
  have hcf : 0 ≤ (ch : ℤ) * ⌊T⌋ := mul_nonneg (by positivity) hfl0
  refine ⟨?_, fmodOne_val hv h0 (by linarith)⟩
  unfold sincNorm
  simp only
  rw [lrint_sub_fmodOne hv h0 (by linarith), chkI32_ok (by omega) (by omega)]
  simp only [bind, Except.bind]
  rw [chkI32_ok (by omega) (by omega)]
  simp only
  rw [modM_ok (by omega), Int.tmod_eq_of_lt (by omega) hfit]
  rfl

end

/-- What is fixed during one call: the handle, the arguments, the ratios `l` (start) and `t` (target). -/
structure SafeCall (N inc B : ℤ) (ch : ℕ) (st : SrcState) (d : SrcData) (v : SincVariant) (l t : ℚ) (n o : ℕ) : Prop where
  C : SincCtx N inc B ch (sincReach N inc (min l t))
  fits : v.Fits ch
  hch : st.channels = ch
  hl : st.lastRatio.val = some l
  ht : d.srcRatio.val = some t
  vl : ValidRatio l
  vt : ValidRatio t
  hn : d.inputFrames = n
  ho : d.outputFrames = o
  hout : o = 0 ∨ d.dataOut ≠ 0
  hob : ch * o ≤ 2 ^ 52

/-- Invariant of the processing loop: `g` frames generated. -/
structure SafeL (N inc B : ℤ) (ch : ℕ) (m : Mem) (d : SrcData) (l t : ℚ) (n o g : ℕ) (s : SincLoop) : Prop where
  safe : SafeF N inc B ch s.f
  count : s.f.inCount = ((ch * n : ℕ) : ℤ)
  ocount : s.f.outCount = ((ch * o : ℕ) : ℤ)
  udvd : (ch : ℤ) ∣ s.f.inUsed
  u0 : 0 ≤ s.f.inUsed
  u1 : s.f.inUsed ≤ s.f.inCount
  gen : s.f.outGen = ((ch * g : ℕ) : ℤ)
  hg : g ≤ o
  mem : ∃ F, s.mem = m.setRange d.dataOut (ch * g) F
  idx : ∃ i, s.idx.val = some i ∧ 0 ≤ i ∧ i < 1
  ratio : ∃ ρ, s.ratio.val = some ρ ∧ ValidRatio ρ
  same : |r64 (l - t)| ≤ r64 (1 / 10 ^ 10) → s.ratio.val = some l

section
variable {N inc B : ℤ} {ch : ℕ} {m : Mem} {st : SrcState} {d : SrcData} {v : SincVariant} {l t : ℚ} {n o g : ℕ} {s s' : SincLoop} {b : Bool}

theorem sincReload_safe (Q : SafeCall N inc B ch st d v l t n o) (I : SafeL N inc B ch m d l t n o g s)
    (h : sincReload st d (ch * sincReach N inc (min l t)) s = .ok (b, s')) :
    SafeL N inc B ch m d l t n o g s' ∧ (b = false → ch * sincReach N inc (min l t) < s'.f.bEnd - s'.f.bCurrent) ∧
      (s'.stop = s.stop ∨ (s'.stop = 21 ∧ 2147483648 ≤ ch * n)) ∧ (b = false → s'.stop = s.stop) := by
  unfold sincReload at h
  rw [I.safe.inHand Q.C] at h
  obtain ⟨n1, hn1, h⟩ := bind_ok h
  have hn1 : s.f.bEnd - s.f.bCurrent = n1 := by simpa using hn1
  split at h
  · rename_i hle
    obtain ⟨⟨e, f⟩, he, h⟩ := bind_ok h
    rw [Q.hch] at he
    obtain ⟨S1, a1, a2, a3, a4, a5, a6, a7⟩ := prepareData_safe I.safe Q.C (by omega) (by rw [I.count, Q.hn]; push_cast; ring) I.udvd I.u0 I.u1 he
    have I1 : ∀ st' e', SafeL N inc B ch m d l t n o g { s with f := f, error := e', stop := st' } := fun st' e' =>
      ⟨S1, a1.trans I.count, a2.trans I.ocount, a4, a5, a6, a3.trans I.gen, I.hg, I.mem, I.idx, I.ratio, I.same⟩
    dsimp only at h
    split at h
    · rename_i hne
      have h := ok_inj h; simp only [Prod.mk.injEq] at h; obtain ⟨rfl, rfl⟩ := h
      refine ⟨I1 _ _, by simp, Or.inr ?_, by simp⟩
      dsimp only
      have := I.count
      push_cast at this
      omega
    · rw [S1.inHand Q.C] at h
      obtain ⟨n2, hn2, h⟩ := bind_ok h
      have hn2 : f.bEnd - f.bCurrent = n2 := by simpa using hn2
      have h := ok_inj h; simp only [Prod.mk.injEq] at h; obtain ⟨rfl, rfl⟩ := h
      refine ⟨I1 _ _, fun hb => ?_, Or.inl rfl, fun _ => rfl⟩
      have := of_decide_eq_false hb
      dsimp only
      omega
  · rename_i hlt
    have h := ok_inj h; simp only [Prod.mk.injEq] at h; obtain ⟨rfl, rfl⟩ := h
    exact ⟨I, fun _ => by omega, Or.inl rfl, fun _ => rfl⟩

theorem sincStep_safe (Q : SafeCall N inc B ch st d v l t n o) {τ : F64} (I : SafeL N inc B ch m d l t n o g s)
    (h : sincStep v st d (ch * sincReach N inc (min l t)) τ s = .ok (b, s')) :
    (∃ g', SafeL N inc B ch m d l t n o g' s') ∧ (s'.stop = s.stop ∨ (s'.stop = 21 ∧ 2147483648 ≤ ch * n)) := by
  unfold sincStep at h
  split at h
  · have h := ok_inj h; simp only [Prod.mk.injEq] at h; obtain ⟨rfl, rfl⟩ := h
    exact ⟨⟨g, I⟩, Or.inl rfl⟩
  rename_i hgo
  obtain ⟨⟨brk, s1⟩, h1, h⟩ := bind_ok h
  obtain ⟨I1, hroom, hst, hst'⟩ := sincReload_safe Q I h1
  dsimp only at h
  split at h
  · have h := ok_inj h; simp only [Prod.mk.injEq] at h; obtain ⟨rfl, rfl⟩ := h
    exact ⟨⟨g, I1⟩, hst⟩
  rename_i hbrk
  have hroom := hroom (by simpa using hbrk)
  split at h
  · have h := ok_inj h; simp only [Prod.mk.injEq] at h; obtain ⟨rfl, rfl⟩ := h
    exact ⟨⟨g, I1⟩, hst⟩
  have hgo' : g < o := by
    rw [not_not, I.gen, I.ocount] at hgo
    have : ch * g < ch * o := by exact_mod_cast hgo
    exact lt_of_mul_lt_mul_left this (Nat.zero_le _)
  obtain ⟨sum, _, h⟩ := bind_ok h
  obtain ⟨mem, hmem, h⟩ := bind_ok h
  obtain ⟨⟨f1, i1⟩, h2, h⟩ := bind_ok h
  have h := ok_inj h; simp only [Prod.mk.injEq] at h; obtain ⟨rfl, rfl⟩ := h
  refine ⟨⟨g + 1, ?_⟩, by dsimp only; exact hst⟩
  -- the ratio
  obtain ⟨r1, r2, r3⟩ := sincRatio_val (cur := s1.ratio) Q.hl Q.ht Q.vl Q.vt Q.C.ch1 hgo' (Q.hob.trans (by norm_num)) I1.same
  have er : sincRatio st.lastRatio d.srcRatio s1.f.outGen s1.f.outCount s1.ratio = sincRatio st.lastRatio d.srcRatio ((ch * g : ℕ) : ℤ) ((ch * o : ℕ) : ℤ) s1.ratio := by
    rw [I1.gen, I1.ocount]
  rw [er] at h2
  -- the memory
  rw [Q.hch, Q.fits.1, I1.gen, writeOutputs_spec Q.C.ch1 Q.ho hgo' (by have := Q.hout; omega)] at hmem
  have hmem := (Except.ok.inj hmem).symm
  obtain ⟨F, hF⟩ := I1.mem
  -- the position
  obtain ⟨i, hi, i0, i1'⟩ := I1.idx
  have hρ0 : (0 : ℚ) < sincRatioAt l t ch o g := lt_of_lt_of_le (by norm_num) r2.1
  have hinv0 : 0 < 1 / sincRatioAt l t ch o g := by positivity
  have hinv : 1 / sincRatioAt l t ch o g ≤ 256 := by rw [div_le_iff₀ hρ0]; linarith [r2.1]
  have e1 := div64 one64_val r1 hρ0.ne' (by rw [abs_of_pos hinv0]; linarith)
  have hr0 : 0 ≤ r64 (1 / sincRatioAt l t ch o g) := rq_nonneg hinv0.le
  have hr1 : r64 (1 / sincRatioAt l t ch o g) ≤ 256 := rq_le (by simpa using rep64_nat (n := 256) (by norm_num)) hinv
  have e2 := add64 hi e1 (by rw [abs_of_nonneg (by linarith)]; linarith)
  have hT0 : 0 ≤ r64 (i + r64 (1 / sincRatioAt l t ch o g)) := rq_nonneg (by linarith)
  have hT1 : r64 (i + r64 (1 / sincRatioAt l t ch o g)) ≤ 257 := rq_le (by simpa using rep64_nat (n := 257) (by norm_num)) (by linarith)
  have vm := validMin Q.vl Q.vt
  have hstep := Q.C.geo.step_lt vm.1 vm.2 r3 r2.1 i0 i1'
  have hfl0 : 0 ≤ ⌊r64 (i + r64 (1 / sincRatioAt l t ch o g))⌋ := Int.floor_nonneg.2 hT0
  have hmul : (ch : ℤ) * ⌊r64 (i + r64 (1 / sincRatioAt l t ch o g))⌋ ≤ ch * sincReach N inc (min l t) :=
    mul_le_mul_of_nonneg_left (by omega) (by positivity)
  have hmul0 : 0 ≤ (ch : ℤ) * ⌊r64 (i + r64 (1 / sincRatioAt l t ch o g))⌋ := mul_nonneg (by positivity) hfl0
  have S1 := I1.safe
  have S2 : SafeF N inc B ch { s1.f with outGen := ((ch * g : ℕ) : ℤ) + ch } :=
    ⟨S1.hN, S1.hinc, S1.hlen, S1.dvdC, S1.c0, S1.lt, S1.le, S1.be, S1.z, S1.dvdE⟩
  have hbe := S1.be
  have hc0 := S1.c0
  have hz := S1.z
  obtain ⟨n1, n2⟩ := sincNorm_safe S2 Q.C e2 hT0 (by linarith) (by dsimp only; omega)
  rw [Q.hch, Q.fits.1, I1.gen] at h2
  rw [n1] at h2
  have h2 := Except.ok.inj h2
  simp only [Prod.mk.injEq] at h2
  obtain ⟨rfl, rfl⟩ := h2
  have h6 : 0 ≤ (ch : ℤ) * sincReach N inc (min l t) := mul_nonneg (by positivity) (by have := Q.C.H6; omega)
  refine ⟨⟨S1.hN, S1.hinc, S1.hlen, dvd_add S1.dvdC (Dvd.intro _ rfl), by dsimp only; omega, by dsimp only; omega, by dsimp only; omega, S1.be, ?_, S1.dvdE⟩,
    I1.count, I1.ocount, I1.udvd, I1.u0, I1.u1, by dsimp only; push_cast; ring, hgo', ?_, ⟨_, n2, Int.fract_nonneg _, Int.fract_lt_one _⟩, ?_, ?_⟩
  · dsimp only; intro h0; exact hz (by omega)
  · dsimp only
    rw [hmem, hF]
    exact Mem.setRange_join _ _ _ _ _ _
  · exact ⟨_, by rw [er]; exact r1, r2⟩
  · intro hs
    dsimp only
    rw [er]
    unfold sincRatioAt at r1
    rw [if_pos hs] at r1
    exact r1

end

/-- Invariant of a sinc handle between calls. -/
structure SafeS (N inc B : ℤ) (ch : ℕ) (st : SrcState) : Prop where
  geo : Geom N inc B
  hvt : st.vt = sincVt ch
  hch : st.channels = ch
  hch1 : 1 ≤ ch
  hchM : ch ≤ 128
  hpriv : ∃ f, st.priv = .sinc f ∧ SafeF N inc B ch f
  hpos : ∃ i, st.lastPosition.val = some i ∧ 0 ≤ i ∧ i < 1
  hrat : ∃ l, st.lastRatio.val = some l ∧ (l = 0 ∨ ValidRatio l)

section
variable {N inc B : ℤ} {ch : ℕ} {m : Mem} {st : SrcState}

/-- A call that passes the argument checks. -/
theorem sincVari_safe {st : SrcState} {d : SrcData} {l t : ℚ} {n o : ℕ} {f : SincFilter} (Q : SafeCall N inc B ch st d (sincVariantOf ch) l t n o)
    (hnb : ch * n ≤ 2 ^ 52) (hpv : st.priv = .sinc f) (S : SafeF N inc B ch f) {i : ℚ} (hpos : st.lastPosition.val = some i) (hi0 : 0 ≤ i) (hi1 : i < 1)
    {r : ProcRes} (h : sincVariProcess (sincVariantOf ch) m st d = .ok r) :
    ∃ g s, SafeL N inc B ch m d l t n o g s ∧ r.mem = s.mem ∧
      ((r.err = 0 ∧ r.st = { st with priv := .sinc s.f, error := s.error, lastPosition := s.idx, lastRatio := s.ratio } ∧
        r.data = { d with inputFramesUsed := s.f.inUsed.tdiv ch, outputFramesGen := g }) ∨
       (r.err = 21 ∧ 2147483648 ≤ ch * n ∧ r.st = { st with priv := .sinc s.f, error := s.error } ∧ r.data = d)) := by
  unfold sincVariProcess at h
  rw [hpv] at h
  dsimp only at h
  rw [Q.hch, chk64_frames Q.hn hnb, chk64_frames Q.ho Q.hob] at h
  obtain ⟨_, e1, h⟩ := bind_ok h
  obtain ⟨_, e2, h⟩ := bind_ok h
  have e1 := Except.ok.inj e1
  have e2 := Except.ok.inj e2
  subst e1 e2
  rw [if_neg (by rw [(isBad_false_iff Q.hl).2 Q.vl]; decide)] at h
  obtain ⟨half, hh, h⟩ := bind_ok h
  rw [Q.C.geo.half_val (by exact S.hN) (by exact S.hinc) Q.C.ch1 Q.C.chM Q.hl Q.ht Q.vl Q.vt] at hh
  have hh := Except.ok.inj hh
  subst hh
  obtain ⟨⟨f1, i1⟩, h1, h⟩ := bind_ok h
  have hfl : ⌊i⌋ = 0 := Int.floor_eq_zero_iff.2 ⟨hi0, hi1⟩
  have S0 : SafeF N inc B ch { f with inCount := ((ch * n : ℕ) : ℤ), outCount := ((ch * o : ℕ) : ℤ), inUsed := 0, outGen := 0 } :=
    ⟨S.hN, S.hinc, S.hlen, S.dvdC, S.c0, S.lt, S.le, S.be, S.z, S.dvdE⟩
  obtain ⟨n1, n2⟩ := sincNorm_safe S0 Q.C hpos hi0 (by linarith) (by rw [hfl, mul_zero, add_zero]; exact S0.lt)
  rw [hfl, mul_zero, add_zero] at n1
  rw [n1] at h1
  have h1 := Except.ok.inj h1
  simp only [Prod.mk.injEq] at h1
  obtain ⟨rfl, rfl⟩ := h1
  rw [Int.fract_eq_self.2 ⟨hi0, hi1⟩] at n2
  obtain ⟨s, hs, h⟩ := bind_ok h
  have I := whileM_inv (fun s : SincLoop => (∃ g, SafeL N inc B ch m d l t n o g s) ∧ (s.stop = 0 ∨ (s.stop = 21 ∧ 2147483648 ≤ ch * n)))
    (fun s b s' hI h => by
      obtain ⟨⟨g, hI⟩, hst⟩ := hI
      obtain ⟨a, b⟩ := sincStep_safe Q hI h
      exact ⟨a, by omega⟩) _ _ _ (by
      refine ⟨⟨0, ⟨S0, rfl, rfl, dvd_zero _, le_refl _, by positivity, by simp, Nat.zero_le _, ⟨fun _ => zero32, ?_⟩, ⟨i, n2, hi0, hi1⟩, ⟨l, Q.hl, Q.vl⟩,
        fun _ => Q.hl⟩⟩, Or.inl rfl⟩
      rw [Nat.mul_zero, Mem.setRange_zero]) hs
  obtain ⟨⟨g, I⟩, hst⟩ := I
  refine ⟨g, s, I, ?_⟩
  have hch0 : (ch : ℤ) ≠ 0 := by have := Q.C.ch1; omega
  split at h
  · rename_i hne
    have := ok_inj h
    subst this
    refine ⟨rfl, Or.inr ⟨?_, ?_, by rw [Q.hch], rfl⟩⟩
    · dsimp only
      omega
    · omega
  · rw [divM_ok hch0, divM_ok hch0, I.gen] at h
    have := ok_inj h
    subst this
    refine ⟨rfl, Or.inl ⟨rfl, by rw [Q.hch], ?_⟩⟩
    push_cast
    rw [Int.mul_tdiv_cancel_left _ hch0]

/-- Outcome of a `src_process` call on a sinc handle that did not fault. -/
def SincOutcome (ch : ℕ) (m : Mem) (st : SrcState) (x : Option SrcData) (e : ℤ) (m' : Mem) (st' : SrcState) (x' : Option SrcData) : Prop :=
  (ArgError e ∧ m' = m ∧ st' = st) ∨
  (e = 0 ∧ ∃ d d', x = some d ∧ x' = some d' ∧ Accounted d d' ∧ Footprint ch d d' m m' ∧ KeepsArgs d d') ∨
  (e = 21 ∧ ∃ d d', 2147483648 ≤ samples ch d.inputFrames ∧ x = some d ∧ x' = some d' ∧ Footprint ch d { d with outputFramesGen := max d.outputFrames 0 } m m' ∧ KeepsArgs d d')

theorem process_safe (S : SafeS N inc B ch st) (hmode : st.mode = .process) (x : Option SrcData) (hO : ∀ d, x = some d → Ordinary 1 ch d)
    {e : ℤ} {m' : Mem} {st1 : Option SrcState} {x' : Option SrcData} (h : srcProcess m (some st) x = .ok (e, m', st1, x')) :
    ∃ st', st1 = some st' ∧ SafeS N inc B ch st' ∧ st'.mode = .process ∧ SincOutcome ch m st x e m' st' x' := by
  cases x with
  | none =>
    simp only [srcProcess] at h
    rw [if_neg (by simp [hmode])] at h
    have h := ok_inj h
    simp only [Prod.mk.injEq] at h
    obtain ⟨rfl, rfl, rfl, rfl⟩ := h
    exact ⟨st, rfl, S, hmode, Or.inl ⟨Or.inr (Or.inl rfl), rfl, rfl⟩⟩
  | some d =>
    have hO := hO d rfl
    rcases ordinary_cases S.hch hmode hO with ⟨e1, hf⟩ | ⟨_, _, _, t, g⟩
    · obtain ⟨d', hd'⟩ := process_rejects (m := m) hf (by
        rintro s y h1 h2; cases h1; cases h2
        have b1 := hO.inSize
        have b2 := hO.outSize
        rw [S.hch]
        exact ⟨by positivity, by omega, by omega⟩)
      rw [hd'] at h
      have h := Except.ok.inj h
      simp only [Prod.mk.injEq] at h
      obtain ⟨rfl, rfl, rfl, rfl⟩ := h
      exact ⟨st, rfl, S, hmode, Or.inl ⟨firstFailing_arg hf, rfl, rfl⟩⟩
    · obtain ⟨l, hl, vl⟩ := S.hrat
      obtain ⟨i, hpos, hi0, hi1⟩ := S.hpos
      obtain ⟨f, hp, SF⟩ := S.hpriv
      obtain ⟨st1', h1, h2, h3⟩ := process_enters (m := m) hmode S.hch g hl vl
      rw [h1] at h
      obtain ⟨r, hr, h⟩ := bind_ok h
      have h := ok_inj h
      simp only [Prod.mk.injEq] at h
      obtain ⟨rfl, rfl, rfl, rfl⟩ := h
      rw [variProcess_sinc (ch := ch) (by rw [h2]; exact S.hvt)] at hr
      have vs := startRatio_valid vl g.vt
      have hn : ({ clampFrames d with inputFramesUsed := 0, outputFramesGen := 0 } : SrcData).inputFrames = (d.inputFrames.toNat : ℤ) := by
        simp only [clampFrames]; rw [clamp_toNat]
      have ho : ({ clampFrames d with inputFramesUsed := 0, outputFramesGen := 0 } : SrcData).outputFrames = (d.outputFrames.toNat : ℤ) := by
        simp only [clampFrames]; rw [clamp_toNat]
      have Q : SafeCall N inc B ch st1' { clampFrames d with inputFramesUsed := 0, outputFramesGen := 0 } (sincVariantOf ch) (startRatio l t) t
          d.inputFrames.toNat d.outputFrames.toNat :=
        ⟨geom_ctx S.geo S.hch1 S.hchM (validMin vs g.vt), sincVariant_fits S.hchM, by rw [h2]; exact S.hch, h3, g.ht, vs, g.vt, hn, ho, g.hout, g.hob⟩
      obtain ⟨gen, s, I, hm, hres⟩ := sincVari_safe Q g.hnb (by rw [h2]; exact hp) SF (by rw [h2]; exact hpos) hi0 hi1 hr
      have hu := I.udvd
      obtain ⟨u, hu⟩ := hu
      have hchp : (0 : ℤ) < ch := by have := S.hch1; omega
      have hu0 : 0 ≤ u := by
        have := I.u0; rw [hu] at this
        exact nonneg_of_mul_nonneg_right this hchp
      have hu1 : u ≤ (d.inputFrames.toNat : ℤ) := by
        have := I.u1; rw [hu, I.count] at this
        push_cast at this
        exact le_of_mul_le_mul_left this hchp
      have hgo := I.hg
      obtain ⟨F, hF⟩ := I.mem
      have hkeep : ∀ a b : ℤ, KeepsArgs d { clampFrames d with inputFramesUsed := a, outputFramesGen := b } := fun a b => by
        refine ⟨rfl, rfl, ?_, ?_, rfl, rfl⟩
        · simp only [clampFrames]; rw [clamp_eq]
        · simp only [clampFrames]; rw [clamp_eq]
      rcases hres with ⟨a1, a2, a3⟩ | ⟨a1, a0, a2, a3⟩
      · refine ⟨r.st, rfl, ?_, by rw [a2, h2]; exact hmode, Or.inr (Or.inl ⟨a1, d, _, rfl, rfl, ?_, ?_, ?_⟩)⟩
        · obtain ⟨ρ, r1, r2⟩ := I.ratio
          rw [a2]
          exact ⟨S.geo, by rw [h2]; exact S.hvt, by rw [h2]; exact S.hch, S.hch1, S.hchM, ⟨_, rfl, I.safe⟩, I.idx, ⟨ρ, r1, Or.inr r2⟩⟩
        · rw [a3, hu]
          dsimp only
          rw [Int.mul_tdiv_cancel_left _ hchp.ne']
          refine ⟨hu0, ?_, by positivity, ?_⟩ <;> dsimp only <;> omega
        · intro a ha
          rw [hm, hF]
          apply Mem.setRange_out
          rw [a3] at ha
          dsimp only at ha
          push_cast
          rw [mul_comm (ch : ℤ)]
          exact ha
        · rw [a3]; exact hkeep _ _
      · refine ⟨r.st, rfl, ?_, by rw [a2, h2]; exact hmode, Or.inr (Or.inr ⟨a1, d, _, ?_, rfl, rfl, ?_, ?_⟩)⟩
        · rw [a2]
          exact ⟨S.geo, by rw [h2]; exact S.hvt, by rw [h2]; exact S.hch, S.hch1, S.hchM, ⟨_, rfl, I.safe⟩, ⟨i, by rw [h2]; exact hpos, hi0, hi1⟩,
            ⟨_, h3, Or.inr vs⟩⟩
        · unfold samples
          rw [show max d.inputFrames 0 = (d.inputFrames.toNat : ℤ) by omega, mul_comm]
          exact_mod_cast a0
        · intro a ha
          rw [hm, hF]
          apply Mem.setRange_out
          dsimp only at ha ⊢
          have : ((ch * gen : ℕ) : ℤ) ≤ max d.outputFrames 0 * ch := by
            have : (gen : ℤ) * ch ≤ max d.outputFrames 0 * ch := mul_le_mul_of_nonneg_right (by omega) (by positivity)
            push_cast; rw [mul_comm (ch : ℤ)]; exact this
          have e : (clampFrames d).dataOut = d.dataOut := rfl
          rw [e]
          omega
        · rw [a3]; exact hkeep _ _

theorem setRatio_safe (S : SafeS N inc B ch st) {r : F64} (hr : r ≠ .nan) :
    ∃ e st', srcSetRatio (some st) r = (e, some st') ∧ (e = 0 ∨ e = 6) ∧ SafeS N inc B ch st' ∧ st' = { st with lastRatio := st'.lastRatio } := by
  unfold srcSetRatio
  dsimp only
  by_cases hb : isBadSrcRatio r = true
  · rw [if_pos hb]
    exact ⟨_, st, rfl, Or.inr rfl, S, rfl⟩
  · rw [if_neg hb]
    refine ⟨_, _, rfl, Or.inl rfl, ?_, rfl⟩
    rw [isBad_iff] at hb
    cases hr' : r with
    | nan => exact absurd hr' hr
    | inf s => rw [hr'] at hb; exact absurd trivial hb
    | fin q hq =>
      rw [hr'] at hb
      simp only [BadRatio, not_or, not_lt] at hb
      exact ⟨S.geo, S.hvt, S.hch, S.hch1, S.hchM, S.hpriv, S.hpos, ⟨q, rfl, Or.inr ⟨hb.1, hb.2⟩⟩⟩

theorem resetF_safe {f : SincFilter} (hN : f.coeffHalfLen = N) (hinc : f.indexInc = inc) (hlen : f.bLen = ch * B + 1) (hB : 0 ≤ B) :
    SafeF N inc B ch (sincReset ch f) := by
  have hl : 0 < f.bLen := by
    rw [hlen]
    have : 0 ≤ (ch : ℤ) * B := mul_nonneg (by positivity) hB
    omega
  refine ⟨hN, hinc, hlen, dvd_zero _, le_refl _, hl, le_refl _, ?_, fun _ => rfl, fun _ => dvd_zero _⟩
  simp only [sincReset]; omega

theorem reset_safe (S : SafeS N inc B ch st) : SafeS N inc B ch (srcResetState st) := by
  obtain ⟨f, hp, SF⟩ := S.hpriv
  refine ⟨S.geo, S.hvt, S.hch, S.hch1, S.hchM, ⟨sincReset ch f, ?_, resetF_safe SF.hN SF.hinc SF.hlen ?_⟩, ⟨0, zero64_val, le_refl _, by norm_num⟩, ⟨0, zero64_val, Or.inl rfl⟩⟩
  · unfold srcResetState
    dsimp only
    rw [resetPriv_sinc S.hvt hp, S.hch]
  · have h1 := S.geo.room
    have h2 := S.geo.reach_ge (r := 1 / 256) (le_refl _)
    omega

/-- A new sinc handle. -/
theorem new_safe {cfg : Config} {type e : ℤ} {t : CoeffTable} (hT : cfg.table type = some t)
    (hd : (t.increment = 128 ∧ t.count = 2464) ∨ (t.increment = 491 ∧ t.count = 22438) ∨ (t.increment = 2381 ∧ t.count = 340239))
    (h : srcNew cfg type ch = .ok (e, some st)) :
    ∃ B, SafeS (t.count - 2) t.increment B ch st ∧ st.mode = .process := by
  obtain ⟨B, G, hB, hk, hbl⟩ := table_geom hd
  unfold srcNew at h
  rw [hT] at h
  dsimp only at h
  unfold sincStateNew at h
  obtain ⟨u, ha, h⟩ := bind_ok h
  have hp := assertM_true ha
  simp only [gt_iff_lt, decide_eq_true_eq] at hp
  by_cases hM : (ch : ℤ) > 128
  · rw [if_pos hM] at h
    have h := ok_inj h
    simp at h
  rw [if_neg hM] at h
  have hM' : ch ≤ 128 := by exact_mod_cast (not_lt.1 hM)
  rw [hbl ch hM'] at h
  simp only [bind, Except.bind] at h
  have h := ok_inj h
  simp only [Prod.mk.injEq, Option.some.injEq] at h
  rw [← h.2]
  have hB0 : 0 ≤ B := by omega
  refine ⟨B, ⟨G, rfl, rfl, by omega, hM', ⟨_, ?_, resetF_safe (f := sincFilterInit t (ch * B + 1)) rfl rfl rfl hB0⟩,
    ⟨0, zero64_val, le_refl _, by norm_num⟩, ⟨0, zero64_val, Or.inl rfl⟩⟩, rfl⟩
  dsimp only
  rw [resetPriv_sinc (ch := ch) rfl rfl]
  rfl

/-- Observation `o` of a call `op` on a handle of any converter. -/
def SoundObs (ch : ℕ) : Op → Obs → Prop
  | .process m d, o =>
    (ArgError o.ret ∧ o.mem = some m) ∨
    (o.ret = 0 ∧ ∃ x x' m', d = some x ∧ o.data = some x' ∧ o.mem = some m' ∧ Accounted x x' ∧ Footprint ch x x' m m' ∧ KeepsArgs x x') ∨
    (o.ret = 21 ∧ ∃ x x' m', d = some x ∧ o.data = some x' ∧ o.mem = some m' ∧ 2147483648 ≤ samples ch x.inputFrames ∧
      Footprint ch x { x with outputFramesGen := max x.outputFrames 0 } m m' ∧ KeepsArgs x x')
  | .setRatio _, o => o.ret = 0 ∨ o.ret = 6
  | .reset, o => o.ret = 0
  | .read .., _ => True

theorem op_safe (S : SafeS N inc B ch st) (hmode : st.mode = .process) {op : Op} (hO : OrdinaryOp 1 ch op) {o : Obs} {st1 : SrcState}
    (h : op.run st = .ok (o, st1)) : SoundObs ch op o ∧ SafeS N inc B ch st1 ∧ st1.mode = .process := by
  cases hO with
  | process m d hd =>
    obtain ⟨⟨e, m', s1, d'⟩, h1, h⟩ := bind_ok h
    obtain ⟨s', rfl, S', hm', hR⟩ := process_safe S hmode d hd h1
    have h := ok_inj h
    simp only [Prod.mk.injEq] at h
    obtain ⟨rfl, rfl⟩ := h
    refine ⟨?_, S', hm'⟩
    rcases hR with ⟨a, b, c⟩ | ⟨a, d0, d1, b, c, d2, d3, d4⟩ | ⟨a, d0, d1, b, c, d2, d3, d4⟩
    · exact Or.inl ⟨a, by rw [b]⟩
    · exact Or.inr (Or.inl ⟨a, d0, d1, m', b, c, rfl, d2, d3, d4⟩)
    · exact Or.inr (Or.inr ⟨a, d0, d1, m', c, d2, rfl, b, d3, d4⟩)
  | setRatio r hr =>
    obtain ⟨e, st', h1, h2, h3, h4⟩ := setRatio_safe S hr
    simp only [Op.run, h1] at h
    have h := ok_inj h
    simp only [Prod.mk.injEq] at h
    obtain ⟨rfl, rfl⟩ := h
    refine ⟨h2, h3, ?_⟩
    show st'.mode = _
    rw [h4]; exact hmode
  | reset =>
    have h := ok_inj h
    simp only [Prod.mk.injEq] at h
    obtain ⟨rfl, rfl⟩ := h
    exact ⟨rfl, reset_safe S, hmode⟩

/-- Every ordinary history of a sinc handle that does not fault. -/
theorem history_safe : ∀ (ops : List Op) {st : SrcState}, SafeS N inc B ch st → st.mode = .process → (∀ op ∈ ops, OrdinaryOp 1 ch op) →
    ∀ {os : List Obs} {st1 : SrcState}, run ops st = .ok (os, st1) → List.Forall₂ (SoundObs ch) ops os ∧ SafeS N inc B ch st1 ∧ st1.mode = .process := by
  intro ops
  induction ops with
  | nil =>
    intro st S hm _ os st1 h
    have h := ok_inj h; simp only [Prod.mk.injEq] at h
    obtain ⟨rfl, rfl⟩ := h
    exact ⟨.nil, S, hm⟩
  | cons op ops ih =>
    intro st S hm hO os st1 h
    obtain ⟨⟨o, s1⟩, h1, h⟩ := bind_ok h
    obtain ⟨⟨os', s2⟩, h2, h⟩ := bind_ok h
    have h := ok_inj h; simp only [Prod.mk.injEq] at h
    obtain ⟨rfl, rfl⟩ := h
    obtain ⟨a1, a2, a3⟩ := op_safe S hm (hO op (by simp)) h1
    obtain ⟨b1, b2, b3⟩ := ih a2 a3 (fun o ho => hO o (by simp [ho])) h2
    exact ⟨.cons a1 b1, b2, b3⟩

end
end Verif
