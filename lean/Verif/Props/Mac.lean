import Verif.Props.Device

/-! C82: what is played on Mac OS X. -/

namespace Verif
open Spec

/-- C82 for a block: the buffer of the device holds `F` frames of `ch` samples, of which `k` have been supplied.  A complete block is played as it is.  After an incomplete one playing ends; the silence is put after the
first `k` samples instead of after the first `k` frames, and is `F - k` samples long instead of `F - k` frames. -/
theorem C82 (m : Mem) (buffer : ℤ) (F k ch : ℕ) (hk : k ≤ F) (done : ℤ) :
    ∃ m' done', macFill m buffer k F done = .ok (m', done') ∧ (k = F → m' = m ∧ done' = done) ∧
      (k < F → done' = 1 ∧ (∀ a, a < buffer + k ∨ buffer + F ≤ a → m' a = m a) ∧
        (∀ i : ℕ, k ≤ i → i < F → m' (buffer + i) = zero32) ∧
        (ch = 1 → sfWritef ch m' buffer F = sfWritef ch m buffer k ++ List.replicate (F - k) [zero32]) ∧
        (∀ j c : ℕ, j < k → c < ch → k ≤ ch * j + c → ch * j + c < F → (sfWritef ch m' buffer F)[j]?.bind (fun fr => fr[c]?) = some zero32)) := by
  unfold macFill
  by_cases h : k < F
  · rw [if_pos (by exact_mod_cast h), if_neg (by omega)]
    have hz : ∀ i : ℕ, k ≤ i → i < F → (if buffer + k ≤ buffer + (i : ℤ) ∧ buffer + (i : ℤ) < buffer + k + ((F : ℤ) - k) then zero32 else m (buffer + i)) = zero32 :=
      fun i h1 h2 => if_pos ⟨by omega, by omega⟩
    refine ⟨_, _, rfl, fun e => by omega, fun _ => ⟨rfl, fun a ha => if_neg (by omega), hz, ?_, ?_⟩⟩
    · rintro rfl
      apply List.ext_getElem
      · simp [sfWritef]; omega
      · intro i h1 h2
        simp only [sfWritef, List.length_map, List.length_range] at h1
        by_cases hi : i < k
        · rw [List.getElem_append_left (by simpa [sfWritef] using hi)]
          simp only [sfWritef, List.getElem_map, List.getElem_range]
          apply List.map_congr_left
          intro c hc
          have hc : c = 0 := by simpa using hc
          subst hc
          rw [if_neg]
          push_cast
          omega
        · rw [List.getElem_append_right (by simpa [sfWritef] using hi)]
          simp only [sfWritef, List.getElem_map, List.getElem_range, List.getElem_replicate]
          have := hz i (by omega) h1
          simpa using this
    · intro j c h1 h2 h3 h4
      have hj : j < F := by omega
      simp only [sfWritef, List.getElem?_map, List.getElem?_range hj, Option.map_some, Option.bind_some]
      rw [List.getElem?_range (by simpa using h2)]
      simp only [Option.map_some]
      have h3' : (k : ℤ) ≤ ch * j + c := by exact_mod_cast h3
      have h4' : (ch : ℤ) * j + c < F := by exact_mod_cast h4
      rw [if_pos ⟨by linarith, by linarith⟩]
  · rw [if_neg (by exact_mod_cast h)]
    exact ⟨_, _, rfl, fun _ => ⟨rfl, rfl⟩, fun e => absurd e h⟩

theorem vsMac_play {sin : F64 → F64} {f : SndFile} {ch : ℕ} {buf samples dummy : ℤ} {fuel : ℕ} (h1 : 1 ≤ ch) (h2 : ch ≤ 2048) :
    ∀ (n : ℕ) (s : VsSt) (ws : List (List F32)) (s' : VsSt), vsPlay sin f ch buf samples dummy fuel n s = .ok (some (ws, s')) →
      vsMac sin f ch buf samples 8192 dummy fuel n s 0 = .ok (some (ws, s', 0)) := by
  have hpos : 1 ≤ 2048 / ch := (Nat.one_le_div_iff h1).2 h2
  have hout : Int.tdiv AUDIO_BUFFER_LEN ch = ((2048 / ch : ℕ) : ℤ) := by
    unfold AUDIO_BUFFER_LEN
    rw [Int.tdiv_eq_ediv_of_nonneg (by norm_num)]
    norm_cast
  have hmac : macFrames 8192 ch = ((2048 / ch : ℕ) : ℤ) := by rw [← hout]; rfl
  intro n
  induction n with
  | zero =>
    intro s ws s' h
    simp only [vsPlay, pure, Except.pure, Except.ok.injEq, Option.some.injEq, Prod.mk.injEq] at h
    obtain ⟨rfl, rfl⟩ := h
    rfl
  | succ n ih =>
    intro s ws s' h
    unfold vsPlay at h
    unfold vsMac
    rw [if_neg (by simp), hmac, show Int.tdiv 8192 4 = AUDIO_BUFFER_LEN from rfl]
    rw [hout] at h
    simp only [bind, Except.bind] at h ⊢
    split at h
    · cases h
    rename_i v hv
    obtain _ | ⟨k, s1⟩ := v
    · cases h
    dsimp only at h
    have hk : k = ((2048 / ch : ℕ) : ℤ) := by
      unfold vsGetData at hv
      simp only [bind, Except.bind] at hv
      split at hv
      · cases hv
      · split at hv
        · cases hv
        · cases hv; rfl
    subst hk
    dsimp only
    have hf : macFill s1.mem samples ((2048 / ch : ℕ) : ℤ) ((2048 / ch : ℕ) : ℤ) 0 = .ok (s1.mem, 0) := if_neg (lt_irrefl _)
    rw [hf]
    dsimp only
    rw [if_neg (by omega)] at h
    split at h
    · cases h
    rename_i w hw
    obtain _ | ⟨ws1, s2⟩ := w
    · cases h
    cases h
    rw [show ({ s1 with mem := s1.mem } : VsSt) = s1 from rfl, ih s1 ws1 s' hw]
    rfl

/-- C82 for the player: a Mac OS X device with a buffer of 2048 samples plays exactly the frames that C61 is about, in order, and playing does not end. -/
theorem C82_played (cfg : Config) (hL : LibraryTables cfg) (type e : ℤ) (ht : SincType type ∨ type = SRC_ZERO_ORDER_HOLD) (ch : ℕ) (hch : ch ∣ 32) (st : SrcState)
    (hst : srcCallbackNew cfg (some 1) type ch 0 = .ok (e, some st)) (sin : F64 → F64) (hs : SineLike sin) (f : SndFile) (hf : 1 ≤ f.len) (m : Mem) (buf samples dummy : ℤ)
    (hbuf : 0 < buf) (hsam : 0 < samples) (hdis : samples + 2048 ≤ buf ∨ buf + 4096 ≤ samples) (n : ℕ) (hn : n * (32 / ch) ≤ 2 ^ 30) :
    ∃ N ws, ws.length = n * (2048 / ch) ∧ ∀ fuel, N ≤ fuel → varispeedPlay cfg sin f m buf samples dummy type ch n fuel = .ok (some ws) ∧
      varispeedMac cfg sin f m buf samples 8192 dummy type ch n fuel = .ok (some (ws, 0)) := by
  have h1 : 1 ≤ ch := Nat.pos_of_dvd_of_pos hch (by norm_num)
  have h2 : ch ≤ 32 := Nat.le_of_dvd (by norm_num) hch
  obtain ⟨N, ws, hN, hlen⟩ : ∃ N ws, (∀ fuel, N ≤ fuel → varispeedPlay cfg sin f m buf samples dummy type ch n fuel = .ok (some ws)) ∧ ws.length = n * (2048 / ch) := by
    rcases ht with ht | rfl
    · obtain ⟨N, ws, h, h', _⟩ := C61_sinc cfg hL type e ht ch hch st hst sin hs f hf m buf samples dummy hbuf hsam hdis n hn
      exact ⟨N, ws, h, h'⟩
    · obtain ⟨N, ws, h, h', _⟩ := C61_zoh cfg hL e ch hch st hst sin hs f hf m buf samples dummy hbuf hsam hdis n hn
      exact ⟨N, ws, h, h'⟩
  refine ⟨N, ws, hlen, fun fuel hfuel => ⟨hN fuel hfuel, ?_⟩⟩
  have hP := hN fuel hfuel
  unfold varispeedPlay at hP
  unfold varispeedMac
  rw [hst] at hP ⊢
  simp only [bind, Except.bind] at hP ⊢
  split at hP
  · cases hP
  rename_i v hv
  split at hP
  · cases hP
  rename_i ws1 s1
  cases hP
  rw [vsMac_play h1 (by omega) n _ ws s1 hv]
  rfl

/-- The case of `C82` in which sound is lost: 4 stereo frames of which 3 were supplied.  The fourth sample, which is part of the second frame, is silenced. -/
example (m : Mem) : ∃ m' done', macFill m 100 (3 : ℕ) (4 : ℕ) 0 = .ok (m', done') ∧ done' = 1 ∧ (sfWritef (2 : ℕ) m' 100 4)[1]?.bind (fun fr => fr[1]?) = some zero32 := by
  obtain ⟨m', d', e1, -, e2⟩ := C82 m 100 4 3 2 (by norm_num) 0
  obtain ⟨g1, -, -, -, g5⟩ := e2 (by norm_num)
  exact ⟨m', d', e1, g1, g5 1 1 (by norm_num) (by norm_num) (by norm_num) (by norm_num)⟩

end Verif
