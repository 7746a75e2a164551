import Verif.Proof.Varispeed
import Verif.Props.Endless
import Verif.Props.Callback
import Verif.Props.Sinc
import Verif.Props.Stream

/-! C61: the example `varispeed-play.c` plays the file in an endless loop. -/

namespace Verif
open Spec

section
variable {cfg : Config} {type e : ℤ} {ch : ℕ} {f : SndFile} {buf samples dummy : ℤ} {sin : F64 → F64} {st : SrcState}

theorem vsNew_of (hL : LibraryTables cfg) (ht : SincType type ∨ type = SRC_ZERO_ORDER_HOLD) (hf : 1 ≤ f.len) (h1 : 1 ≤ ch) (h2 : ch ≤ 2048) (hbuf : 0 < buf)
    (hst : srcCallbackNew cfg (some 1) type ch 0 = .ok (e, some st)) : ∃ st0, VsNew cfg f ch type e buf dummy st0 st := by
  obtain ⟨st0, h0, E, L, hm, hfn⟩ := ready_new buf 4096 hst
  refine ⟨st0, hL, hf, h1, h2, h0, E, L, hm, hfn, hbuf, ?_⟩
  intro ops os st1 calls hO hr hT m ratio data hop
  have hcnt : Counts (fun _ => ((4096 / ch : ℕ) : ℤ)) (vsCallback f ch buf) := fun ud c m => by
    obtain ⟨m1, g1, _⟩ := vsCallback_spec (f := f) (ch := ch) (buf := buf) hf h1 ud c m
    rw [g1]
  rcases ht with ht | rfl
  · exact C59_sinc cfg hL 1 type e ht ch 0 st st1 (by omega) hst buf 4096 hbuf _ ops os calls hO hr hT _ hcnt dummy m ratio 64 data hop
  · exact C59_zoh cfg hL 1 e ch 0 st st1 (by omega) hst buf 4096 hbuf ops os hO hr _ dummy calls m ratio 64 data hop

theorem vsInv_new {m : Mem} : VsInv f ch buf st [] [] { st, mem := m, calls := 0, freqPoint := 0 } :=
  ⟨rfl, fun op h => absurd h (by simp), .nil _, .nil _, fun i h => by simp at h⟩

/-- The output of the first `n` rounds, as the output of a history of `src_process` calls that feeds the looped file to a new handle. -/
theorem varispeed_explained (hL : LibraryTables cfg) (ht : SincType type ∨ type = SRC_ZERO_ORDER_HOLD) (hf : 1 ≤ f.len) (hch : ch ∣ 32) (hbuf : 0 < buf)
    (hst : srcCallbackNew cfg (some 1) type ch 0 = .ok (e, some st)) (hs : SineLike sin) (hsam : 0 < samples)
    (hdis : samples + 2048 ≤ buf ∨ buf + 4096 ≤ samples) (m : Mem) (n : ℕ) (hn : n * (32 / ch) ≤ 2 ^ 30) :
    ∃ N ws, (∀ fuel, N ≤ fuel → varispeedPlay cfg sin f m buf samples dummy type ch n fuel = .ok (some ws)) ∧ ws.length = n * (2048 / ch) ∧
      ∃ st0 ps qs p V, srcNew cfg type ch = .ok (e, some st0) ∧ run ps st0 = .ok (qs, p) ∧ FedTo (looped f) ch none 0 ps qs V ∧ Fed (looped f) ch 0 ps qs V ∧
        ws = outputs ch qs ∧ InBlocks ch (speedAt sin) 64 0 ps qs ∧ ∀ q ∈ ps, SizedOp ch q ∧ RatioIn (1 / 2) (3 / 2) q ∧ OrdinaryOp 1 ch q ∧ SmallOut ch q := by
  have h1 : 1 ≤ ch := Nat.pos_of_dvd_of_pos hch (by norm_num)
  have h2 : ch ≤ 32 := Nat.le_of_dvd (by norm_num) hch
  obtain ⟨st0, H⟩ := vsNew_of (f := f) (dummy := dummy) hL ht hf h1 (by omega) hbuf hst
  obtain ⟨N, ws, s', ops, os, g1, g2, g3, g4, g5, g6⟩ := vsPlay_ok (sin := sin) (samples := samples) H hs hsam hdis hch n (vsInv_new (m := m)) le_rfl
    (by dsimp only; rw [zero_add]; exact_mod_cast hn)
  refine ⟨N, ws, fun fuel hfuel => ?_, g4, ?_⟩
  · unfold varispeedPlay
    rw [hst]
    simp only [bind, Except.bind]
    rw [g1 fuel hfuel]
    rfl
  rw [List.nil_append, List.nil_append] at g2
  simp only [List.nil_append, pulled] at g5
  obtain ⟨_, st0', h0, e1⟩ := callbackNew_inv hst
  have hcnt : ∀ _ : ℕ, Spec.samples ch (((4096 / ch : ℕ) : ℤ)) ≤ 2 ^ 31 - 1 := fun _ => by
    have hnc : ((4096 / ch : ℕ) : ℤ) * ch ≤ 4096 := by exact_mod_cast Nat.div_mul_le_self 4096 ch
    unfold Spec.samples
    rw [max_eq_left (by positivity)]
    exact le_trans hnc (by norm_num)
  have hrun := g2.run
  subst e1
  obtain ⟨ps, qs, p, V, c, P, E, hW⟩ := history_pull hL (by omega) h0 (bi := 2 ^ 31 - 1) (bo := 2 ^ 50) (by norm_num) (by norm_num)
    hcnt (by norm_num) g2.pulls (callback_pulled h0 (some 1) 0) (fun op h => (g2.calls op h).2.2) hrun
  have hB := P.back
  simp only [List.nil_append] at hB
  have hn1 : (1 : ℤ) ≤ ((4096 / ch : ℕ) : ℤ) := by exact_mod_cast (Nat.one_le_div_iff h1).2 (by omega)
  have hI := explained_in E (fun op h => (g2.calls op h).2.1)
  refine ⟨st0', ps, qs, p, V, h0, hB.run, explained_fedTo (fun i hi => by omega) E, explained_fed E, by rw [← explained_outputs E, g5], explained_blocks E 0 g6, fun op ho => ⟨?_, hI op ho, hB.ord op ho, ?_⟩⟩
  · rcases hW op ho with ⟨r, m, d, rfl, _, h2, h3⟩ | ⟨r, rfl⟩
    · cases hB.ord _ ho with
      | process _ _ hd => exact ⟨(hd d rfl).ratio, by omega, h3⟩
    · cases hB.ord _ ho with
      | setRatio _ hn => exact hn
  · rcases hW op ho with ⟨r, m, d, rfl, _, h2, h3⟩ | ⟨r, rfl⟩
    · exact h3
    · trivial

end

/-- C61 for the sinc converters: for a file that is not empty and has 1, 2, 4, 8, 16 or 32 channels, the program plays for `n` rounds of 2048 samples, `n` arbitrary up to the bound given by the
overflow of `freq_point`, without exiting and without touching memory out of bounds; what it plays is the filter's response to the endlessly
repeated file, at ratios that are all between 1/2 and 3/2. -/
theorem C61_sinc (cfg : Config) (hL : LibraryTables cfg) (type e : ℤ) (ht : SincType type) (ch : ℕ) (hch : ch ∣ 32) (st : SrcState)
    (hst : srcCallbackNew cfg (some 1) type ch 0 = .ok (e, some st)) (sin : F64 → F64) (hs : SineLike sin) (f : SndFile) (hf : 1 ≤ f.len) (m : Mem) (buf samples dummy : ℤ)
    (hbuf : 0 < buf) (hsam : 0 < samples) (hdis : samples + 2048 ≤ buf ∨ buf + 4096 ≤ samples) (n : ℕ) (hn : n * (32 / ch) ≤ 2 ^ 30) :
    ∃ N ws, (∀ fuel, N ≤ fuel → varispeedPlay cfg sin f m buf samples dummy type ch n fuel = .ok (some ws)) ∧ ws.length = n * (2048 / ch) ∧
      ∃ (t : CoeffTable) (ρ : ℕ → ℚ) (D : ℕ → ℤ), cfg.table type = some t ∧
        (∀ j < ws.length, 1 / 2 ≤ ρ j ∧ ρ j ≤ 3 / 2 ∧ sincReach (t.count - 2) t.increment 1 ≤ D j ∧ (1 ≤ ρ j → D j = allHistory t)) ∧
        ws = (List.range ws.length).map fun j => frameOf ch (sincIdeal t (looped f) (D j) (ρ j) (timeAt ρ j)) := by
  obtain ⟨N, ws, g1, g2, st0, ps, qs, p, V, h0, hr, hF, _, rfl, _, hO⟩ := varispeed_explained (dummy := dummy) hL (Or.inl ht) hf hch hbuf hst hs hsam hdis m n hn
  obtain ⟨t, ρ, D, a1, a2, a3, _, a5, _⟩ := C24_sinc cfg hL type ht ch e st0 p h0 (looped f) none (fun n h => by cases h) ps qs V (fun q hq => (hO q hq).1) hr hF
  refine ⟨N, _, g1, g2, t, ρ, D, a1, fun j hj => ?_, a5⟩
  obtain ⟨b1, b2⟩ := a3 (1 / 2) (3 / 2) (fun q hq => (hO q hq).2.1) j hj
  obtain ⟨_, _, c3, c4⟩ := a2 j hj
  exact ⟨b1, b2, c3, fun h => c4 (Or.inl h)⟩

/-- C61 for zero order hold. -/
theorem C61_zoh (cfg : Config) (hL : LibraryTables cfg) (e : ℤ) (ch : ℕ) (hch : ch ∣ 32) (st : SrcState)
    (hst : srcCallbackNew cfg (some 1) SRC_ZERO_ORDER_HOLD ch 0 = .ok (e, some st)) (sin : F64 → F64) (hs : SineLike sin) (f : SndFile) (hf : 1 ≤ f.len) (m : Mem)
    (buf samples dummy : ℤ) (hbuf : 0 < buf) (hsam : 0 < samples) (hdis : samples + 2048 ≤ buf ∨ buf + 4096 ≤ samples) (n : ℕ) (hn : n * (32 / ch) ≤ 2 ^ 30) :
    ∃ N ws, (∀ fuel, N ≤ fuel → varispeedPlay cfg sin f m buf samples dummy SRC_ZERO_ORDER_HOLD ch n fuel = .ok (some ws)) ∧ ws.length = n * (2048 / ch) ∧
      ∃ ρ : ℕ → ℚ, (∀ j < ws.length, 1 / 2 ≤ ρ j ∧ ρ j ≤ 3 / 2) ∧
        ws = (List.range ws.length).map fun j => frameOf ch (idealAt SRC_ZERO_ORDER_HOLD (looped f) (timeAt ρ j)) := by
  have h2 : ch ≤ 32 := Nat.le_of_dvd (by norm_num) hch
  obtain ⟨N, ws, g1, g2, st0, ps, qs, p, V, h0, hr, _, hF, rfl, _, hO⟩ := varispeed_explained (dummy := dummy) hL (Or.inr rfl) hf hch hbuf hst hs hsam hdis m n hn
  obtain ⟨ρ, _, a2, _, a4, _⟩ := C24_interp cfg SRC_ZERO_ORDER_HOLD (Or.inl rfl) ch (by omega) e st0 p h0 (looped f) ps qs V (fun q hq => (hO q hq).2.2.1) hr hF
  exact ⟨N, _, g1, g2, ρ, a2 (1 / 2) (3 / 2) (fun q hq => ⟨(hO q hq).2.1, (hO q hq).2.2.2⟩), a4⟩

/-- The other side of C61: with any other number of channels, up to 128, the first round writes past the end of the array of 2048 samples. -/
theorem C61_channels (cfg : Config) (hL : LibraryTables cfg) (type e : ℤ) (ht : SincType type ∨ type = SRC_ZERO_ORDER_HOLD) (ch : ℕ) (h1 : 1 ≤ ch) (h2 : ch ≤ 128) (hch : ¬ ch ∣ 32)
    (st : SrcState) (hst : srcCallbackNew cfg (some 1) type ch 0 = .ok (e, some st)) (sin : F64 → F64) (hs : SineLike sin) (f : SndFile) (hf : 1 ≤ f.len) (m : Mem) (buf samples dummy : ℤ)
    (hbuf : 0 < buf) (hsam : 0 < samples) (hdis : samples + 2048 ≤ buf ∨ buf + 4096 ≤ samples) (n : ℕ) (hn : 1 ≤ n) :
    ∃ N, ∀ fuel, N ≤ fuel → varispeedPlay cfg sin f m buf samples dummy type ch n fuel = .error .oobWrite := by
  obtain ⟨st0, H⟩ := vsNew_of (f := f) (dummy := dummy) hL ht hf h1 (by omega) hbuf hst
  have hmod : 32 % ch ≠ 0 := fun h => hch (Nat.dvd_of_mod_eq_zero h)
  have hdm := Nat.div_add_mod 32 ch
  have hlt : 32 % ch < ch := Nat.mod_lt _ h1
  have hout : Int.tdiv AUDIO_BUFFER_LEN ch = ((2048 / ch : ℕ) : ℤ) := by
    unfold AUDIO_BUFFER_LEN
    rw [Int.tdiv_eq_ediv_of_nonneg (by norm_num)]
    norm_cast
  have hbig : 64 * (32 / ch) + 1 ≤ 2048 / ch := by
    rw [Nat.le_div_iff_mul_le h1]
    have : (64 * (32 / ch) + 1) * ch = 64 * (ch * (32 / ch)) + ch := by ring
    rw [this]
    rcases lt_or_ge 64 ch with h | h
    · rw [Nat.div_eq_of_lt (by omega)]; omega
    · omega
  obtain ⟨N, hN⟩ := vsGetData_oob (sin := sin) (samples := samples) H hs hsam hdis (vsInv_new (m := m)) le_rfl (32 / ch)
    (by have : 64 * (32 / ch) * ch = 64 * (ch * (32 / ch)) := by ring
        omega)
    (by have : 64 * (32 / ch + 1) * ch = 64 * (ch * (32 / ch)) + 64 * ch := by ring
        omega) ((2048 / ch : ℕ) : ℤ) (by omega)
    (by have : ((32 / ch : ℕ) : ℤ) ≤ 32 := by exact_mod_cast Nat.div_le_self 32 ch
        dsimp only
        rw [zero_add]
        exact lt_of_le_of_lt this (by norm_num))
  refine ⟨N, fun fuel hfuel => ?_⟩
  obtain ⟨j, rfl⟩ := Nat.exists_eq_add_of_le' hn
  unfold varispeedPlay vsPlay
  rw [hst]
  simp only [bind, Except.bind]
  rw [hout, show AUDIO_BUFFER_LEN = 2048 from rfl, hN fuel hfuel]

/-- The other side of C61: after `2^30` blocks the product `freq_point * 2` overflows. -/
theorem C61_long (cfg : Config) (hL : LibraryTables cfg) (type e : ℤ) (ht : SincType type ∨ type = SRC_ZERO_ORDER_HOLD) (ch : ℕ) (hch : ch ∣ 32)
    (st : SrcState) (hst : srcCallbackNew cfg (some 1) type ch 0 = .ok (e, some st)) (sin : F64 → F64) (hs : SineLike sin) (f : SndFile) (hf : 1 ≤ f.len) (m : Mem) (buf samples dummy : ℤ)
    (hbuf : 0 < buf) (hsam : 0 < samples) (hdis : samples + 2048 ≤ buf ∨ buf + 4096 ≤ samples) (n : ℕ) (hn : 2 ^ 30 < n * (32 / ch)) :
    ∃ N, ∀ fuel, N ≤ fuel → varispeedPlay cfg sin f m buf samples dummy type ch n fuel = .error .intOverflow := by
  have h1 : 1 ≤ ch := Nat.pos_of_dvd_of_pos hch (by norm_num)
  have h2 : ch ≤ 32 := Nat.le_of_dvd (by norm_num) hch
  obtain ⟨st0, H⟩ := vsNew_of (f := f) (dummy := dummy) hL ht hf h1 (by omega) hbuf hst
  obtain ⟨k, hk⟩ : 32 / ch ∣ 2 ^ 30 := dvd_trans (Nat.div_dvd_of_dvd hch) (by norm_num)
  have hkn : k < n := by
    rw [hk, mul_comm] at hn
    exact lt_of_mul_lt_mul_right hn (Nat.zero_le _)
  obtain ⟨N, hN⟩ := vsPlay_over (sin := sin) (samples := samples) H hs hsam hdis hch k n (vsInv_new (m := m)) le_rfl
    (by dsimp only; rw [zero_add, mul_comm, ← hk]; norm_num) hkn
  refine ⟨N, fun fuel hfuel => ?_⟩
  unfold varispeedPlay
  rw [hst]
  simp only [bind, Except.bind]
  rw [hN fuel hfuel]

/-- The other side of C61: for an empty file the input callback of the program never returns. -/
theorem C61_empty (f : SndFile) (hf : f.len = 0) (ch : ℕ) (h1 : 1 ≤ ch) (h2 : ch ≤ 4096) (buf : ℤ) (m : Mem) (fuel : ℕ) :
    vsFill f ch buf 0 m fuel = .error .outOfFuel := vsFill_empty hf h1 h2 m fuel

/-- A file of one stereo frame, and a constant in place of `sin`. -/
def oneFrame : SndFile := ⟨1, fun _ _ => zero32⟩

theorem sineLike_const : SineLike fun _ => zero64 := fun _ => ⟨0, (show zero64.val = some 0 by decide +kernel), by norm_num, by norm_num⟩

/-- Non-vacuity of C61: a stereo file played with the fastest sinc converter. -/
example : ∃ e st, srcCallbackNew fastCfg (some 1) SRC_SINC_FASTEST (2 : ℕ) 0 = .ok (e, some st) ∧
    ∃ N ws, (∀ fuel, N ≤ fuel → varispeedPlay fastCfg (fun _ => zero64) oneFrame (fun _ => zero32) 1 5000 1 SRC_SINC_FASTEST (2 : ℕ) 1000 fuel = .ok (some ws)) ∧
      ws.length = 1024000 := by
  obtain ⟨st0, h0⟩ := sinc_new_ok fastCfg_tables (type := SRC_SINC_FASTEST) (Or.inr (Or.inr rfl)) (t := _) rfl (ch := 2) (by norm_num) (by norm_num)
  have hst : ∃ st, srcCallbackNew fastCfg (some 1) SRC_SINC_FASTEST (2 : ℕ) 0 = .ok (0, some st) := by
    unfold srcCallbackNew
    rw [if_neg (by simp), h0]
    exact ⟨_, rfl⟩
  obtain ⟨st, hst⟩ := hst
  obtain ⟨N, ws, g1, g2, _⟩ := C61_sinc fastCfg fastCfg_tables SRC_SINC_FASTEST 0 (Or.inr (Or.inr rfl)) 2 (by norm_num) st hst _ sineLike_const oneFrame le_rfl (fun _ => zero32)
    1 5000 1 (by norm_num) (by norm_num) (by norm_num) 1000 (by norm_num)
  exact ⟨0, st, hst, N, ws, g1, by rw [g2]⟩

end Verif
