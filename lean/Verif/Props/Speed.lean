import Verif.Props.Varispeed
import Verif.Props.Glide

/-! C61: the speed at which `varispeed-play.c` plays. -/

namespace Verif
open Spec

section
variable {ε : ℚ} {ch n : ℕ} {r : ℕ → F64}

theorem run_process_mem : ∀ {ps : List Op} {qs : List Obs} {st st' : SrcState}, run ps st = .ok (qs, st') → (∀ p ∈ ps, ∃ m d, p = Op.process m (some d)) →
    ∀ q ∈ qs, ∃ m, q.mem = some m := by
  intro ps
  induction ps with
  | nil =>
    intro qs st st' h _ q hq
    have h := ok_inj h
    simp only [Prod.mk.injEq] at h
    rw [← h.1] at hq
    cases hq
  | cons p ps ih =>
    intro qs st st' hr hp q hq
    unfold run at hr
    obtain ⟨⟨o1, st1⟩, hr1, hr⟩ := bind_ok hr
    obtain ⟨⟨os2, st2⟩, hr2, hr⟩ := bind_ok hr
    have hr := ok_inj hr
    simp only [Prod.mk.injEq] at hr
    obtain ⟨rfl, -⟩ := hr
    rcases List.mem_cons.1 hq with rfl | hq
    · obtain ⟨m, d, rfl⟩ := hp p (by simp)
      obtain ⟨a, _, h1⟩ := bind_ok hr1
      have h1 := ok_inj h1
      simp only [Prod.mk.injEq] at h1
      rw [← h1.1]
      exact ⟨_, rfl⟩
    · exact ih hr2 (fun p h => hp p (by simp [h])) q hq

theorem blocks_process {k : ℕ} {ps : List Op} {qs : List Obs} (h : InBlocks ch r n k ps qs) : ∀ p ∈ ps, ∃ m d, p = Op.process m (some d) := by
  induction h with
  | nil => simp
  | block k ps qs ps' qs' _ h1 _ _ ih =>
    intro p hp
    rcases List.mem_append.1 hp with hp | hp
    · obtain ⟨m, d, e, _⟩ := h1 p hp
      exact ⟨m, d, e⟩
    · exact ih p hp

/-- The ratios of the calls `ps` that all ask for `q` stay in any interval that contains `q` and the ratio before. -/
theorem glides_segment {q lo hi : ℚ} (hlo : 0 < lo) (h1 : lo ≤ q) (h2 : q ≤ hi) {ps' : List Op} {qs' : List Obs} : ∀ {ps : List Op} {qs : List Obs} {l : ℚ} {a : List ℚ},
    ps.length = qs.length → (∀ p ∈ ps, ∃ m d, p = Op.process m (some d) ∧ d.srcRatio.val = some q) → (∀ o ∈ qs, ∃ m, o.mem = some m) →
    Glides ε l (ps ++ ps') (qs ++ qs') a → (l = 0 ∨ (lo ≤ l ∧ l ≤ hi)) →
    ∃ a1 a2 l', a = a1 ++ a2 ∧ a1.length = (outputs ch qs).length ∧ (∀ x ∈ a1, lo ≤ x ∧ x ≤ hi) ∧ Glides ε l' ps' qs' a2 ∧ (l ≠ 0 → l' = a1.getLast?.getD l) ∧ (a1 ≠ [] → a1.getLast? = some l') := by
  intro ps
  induction ps with
  | nil =>
    intro qs l a hl _ _ hG _
    cases qs with
    | nil => exact ⟨[], a, l, rfl, rfl, by simp, hG, fun _ => rfl, fun h => absurd rfl h⟩
    | cons => simp at hl
  | cons p ps ih =>
    intro qs l a hl hp hm hG hlb
    cases qs with
    | nil => simp at hl
    | cons o qs =>
      obtain ⟨m, d, rfl, hd⟩ := hp p (by simp)
      obtain ⟨mo, hmo⟩ := hm o (by simp)
      rw [List.cons_append, List.cons_append] at hG
      cases hG with
      | call _ _ _ d' _ t a b _ _ e1 e2 e3 e4 e5 e6 =>
        rw [hd] at e3
        cases e3
        have hL : lo ≤ (if l = 0 then q else l) ∧ (if l = 0 then q else l) ≤ hi := by
          split_ifs with h
          · exact ⟨h1, h2⟩
          · exact hlb.resolve_left h
        have ha : ∀ x ∈ a, lo ≤ x ∧ x ≤ hi := fun x hx => by
          obtain ⟨b1, b2⟩ := e5.between x hx
          exact ⟨(le_min hL.1 h1).trans b1, b2.trans (max_le hL.2 h2)⟩
        have hnext : lo ≤ a.getLast?.getD (if l = 0 then q else l) ∧ a.getLast?.getD (if l = 0 then q else l) ≤ hi := by
          rcases hla : a.getLast? with _ | x
          · exact hL
          · exact ha x (List.mem_of_getLast? hla)
        obtain ⟨a1, a2, l', g1, g2, g3, g4, g5, -⟩ := ih (by simpa using hl) (fun p h => hp p (by simp [h])) (fun o h => hm o (by simp [h])) e6 (Or.inr hnext)
        have hlen : (outOf ch o).length = a.length := by
          unfold outOf
          rw [hmo, e2]
          simp
          omega
        have g5 := g5 (lt_of_lt_of_le hlo hnext.1).ne'
        have hlast : l' = (a ++ a1).getLast?.getD (if l = 0 then q else l) := by
          rw [g5, List.getLast?_append]
          rcases a1.getLast? with _ | x <;> simp
        refine ⟨a ++ a1, a2, l', by rw [g1, List.append_assoc], ?_, ?_, g4, fun h => by rw [hlast, if_neg h], fun h => ?_⟩
        · rw [List.length_append, g2]
          unfold outputs
          rw [List.flatMap_cons, List.length_append, hlen]
        · intro x hx
          rcases List.mem_append.1 hx with h | h
          · exact ha x h
          · exact g3 x h
        · rw [hlast]
          rcases hla : (a ++ a1).getLast? with _ | x
          · exact absurd (List.getLast?_eq_none_iff.1 hla) h
          · rfl

/-- Over all blocks: in block `k` the ratio stays between the last one of the block before and the one the block asks for. -/
theorem glides_blocks (hn : 1 ≤ n) (hr : ∀ k, ∃ q, (r k).val = some q ∧ 0 < q) {k : ℕ} {ps : List Op} {qs : List Obs} (h : InBlocks ch r n k ps qs) :
    ∀ {l : ℚ} {a : List ℚ}, (∀ o ∈ qs, ∃ m, o.mem = some m) → Glides ε l ps qs a → 0 ≤ l → ∀ j x, a[j]? = some x → ∃ q, (r (k + j / n)).val = some q ∧
      (l = 0 → j < n → x = q) ∧ (∀ y, (if j < n then (if l = 0 then none else some l) else a[n * (j / n) - 1]?) = some y → min y q ≤ x ∧ x ≤ max y q) := by
  induction h with
  | nil k =>
    intro l a _ hG _ j x hx
    cases hG
    simp at hx
  | block k ps qs ps' qs' e1 e2 e3 hB ih =>
    intro l a hm hG hl0 j x hx
    obtain ⟨q, hq, hq0⟩ := hr k
    have hlo : 0 < (if l = 0 then q else min l q) := by
      split_ifs with h
      · exact hq0
      · exact lt_min (lt_of_le_of_ne hl0 (Ne.symm h)) hq0
    obtain ⟨a1, a2, l', rfl, g2, g3, g4, -, g6⟩ := glides_segment (ch := ch) (q := q) (lo := if l = 0 then q else min l q) (hi := if l = 0 then q else max l q) hlo
      (by split_ifs; exacts [le_rfl, min_le_right _ _]) (by split_ifs; exacts [le_rfl, le_max_right _ _]) e1
      (fun p hp => by obtain ⟨m, d, h1, h2⟩ := e2 p hp; exact ⟨m, d, h1, by rw [h2, hq]⟩) (fun o ho => hm o (by simp [ho])) hG
      (by by_cases h : l = 0
          · exact Or.inl h
          · right; rw [if_neg h, if_neg h]; exact ⟨min_le_left _ _, le_max_left _ _⟩)
    rw [e3] at g2
    have hne : a1 ≠ [] := by rintro rfl; simp at g2; omega
    have g6 := g6 hne
    rcases lt_or_ge j n with hj | hj
    · rw [Nat.div_eq_of_lt hj, add_zero]
      rw [List.getElem?_append_left (by omega)] at hx
      have hx' := g3 x (List.mem_of_getElem? hx)
      refine ⟨q, hq, fun h _ => ?_, fun y hy => ?_⟩
      · rw [if_pos h, if_pos h] at hx'
        exact le_antisymm hx'.2 hx'.1
      · rw [if_pos hj] at hy
        split_ifs at hy with h
        cases hy
        rw [if_neg h, if_neg h] at hx'
        exact hx'
    · rw [List.getElem?_append_right (by omega), g2] at hx
      have hl' : 0 < l' := by
        have := g3 l' (List.mem_of_getLast? g6)
        exact lt_of_lt_of_le hlo this.1
      obtain ⟨q', hq', h1, h2⟩ := ih (fun o ho => hm o (by simp [ho])) g4 hl'.le (j - n) x hx
      have hdiv : j / n = (j - n) / n + 1 := by rw [Nat.div_eq_sub_div hn hj]
      refine ⟨q', by rw [hdiv, show k + ((j - n) / n + 1) = k + 1 + (j - n) / n by ring]; exact hq', fun _ h => absurd h (by omega), fun y hy => h2 y ?_⟩
      rw [if_neg (by omega)] at hy
      rcases lt_or_ge (j - n) n with h | h
      · rw [if_pos h, if_neg hl'.ne']
        rw [hdiv, Nat.div_eq_of_lt h, zero_add, mul_one, List.getElem?_append_left (by omega)] at hy
        rw [List.getLast?_eq_getElem?, g2] at g6
        rw [← g6, hy]
      · rw [if_neg (by omega)]
        have h3 : 1 ≤ (j - n) / n := (Nat.one_le_div_iff hn).2 h
        have h4 : n ≤ n * ((j - n) / n) := Nat.le_mul_of_pos_right _ h3
        rw [hdiv, Nat.mul_add, mul_one, List.getElem?_append_right (by omega), g2] at hy
        rw [← hy]
        congr 1
        omega

theorem speedAt_pos {sin : F64 → F64} (hs : SineLike sin) (k : ℕ) : ∃ q, (speedAt sin k).val = some q ∧ 1 / 2 ≤ q ∧ q ≤ 3 / 2 := speed_val hs _

/-- The consequence for the blocks of 64 frames of the program. -/
theorem speed_blocks {sin : F64 → F64} (hs : SineLike sin) {ps : List Op} {qs : List Obs} {st st' : SrcState} {ρ : ℕ → ℚ} {G : ℕ} (hr : run ps st = .ok (qs, st'))
    (hB : InBlocks ch (speedAt sin) 64 0 ps qs) (hG : Glides ε 0 ps qs ((List.range G).map ρ)) : ∀ j < G, ∃ q, (speedAt sin (j / 64)).val = some q ∧
      (j < 64 → ρ j = q) ∧ (64 ≤ j → min (ρ (64 * (j / 64) - 1)) q ≤ ρ j ∧ ρ j ≤ max (ρ (64 * (j / 64) - 1)) q) := by
  intro j hj
  obtain ⟨q, h1, h2, h3⟩ := glides_blocks (by norm_num) (fun k => by obtain ⟨q, a, b, _⟩ := speedAt_pos hs k; exact ⟨q, a, by linarith⟩) hB
    (run_process_mem hr (blocks_process hB)) hG le_rfl j (ρ j) (by rw [List.getElem?_map, List.getElem?_range hj]; rfl)
  rw [zero_add] at h1
  refine ⟨q, h1, fun h => h2 rfl h, fun h => h3 _ ?_⟩
  rw [if_neg (by omega), List.getElem?_map, List.getElem?_range (by omega)]
  rfl
end

/-- C61, the speed, for the sinc converters: the frames played are the filter's response to the endlessly repeated file at ratios `ρ` that follow the program's sine.  The program's
reads amount to a history of `src_process` calls on a new handle that falls into blocks of 64 output frames, all calls of block `k` asking for the ratio
`speedAt sin k = 1 - 0.5 * sin (2 * k * pi / 20000)`, and the ratio moves as `Glides` says: linearly, within each call, from the one reached before towards the one asked for.  So the
first block is played at the ratio of block 0, and in a later block the ratio stays between the last one of the block before and the one of this block. -/
theorem C61_speed_sinc (cfg : Config) (hL : LibraryTables cfg) (type e : ℤ) (ht : SincType type) (ch : ℕ) (hch : ch ∣ 32) (st : SrcState)
    (hst : srcCallbackNew cfg (some 1) type ch 0 = .ok (e, some st)) (sin : F64 → F64) (hs : SineLike sin) (f : SndFile) (hf : 1 ≤ f.len) (m : Mem) (buf samples dummy : ℤ)
    (hbuf : 0 < buf) (hsam : 0 < samples) (hdis : samples + 2048 ≤ buf ∨ buf + 4096 ≤ samples) (n : ℕ) (hn : n * (32 / ch) ≤ 2 ^ 30) :
    ∃ N ws, (∀ fuel, N ≤ fuel → varispeedPlay cfg sin f m buf samples dummy type ch n fuel = .ok (some ws)) ∧ ws.length = n * (2048 / ch) ∧
      ∃ (t : CoeffTable) (ρ : ℕ → ℚ) (D : ℕ → ℤ) (st0 p : SrcState) (ps : List Op) (qs : List Obs) (V : ℕ), cfg.table type = some t ∧
        ws = ((List.range ws.length).map fun j => frameOf ch (sincIdeal t (looped f) (D j) (ρ j) (timeAt ρ j))) ∧
        srcNew cfg type ch = .ok (e, some st0) ∧ run ps st0 = .ok (qs, p) ∧ FedTo (looped f) ch none 0 ps qs V ∧ ws = outputs ch qs ∧
        InBlocks ch (speedAt sin) 64 0 ps qs ∧ Glides (1 / 10 ^ 9) 0 ps qs ((List.range ws.length).map ρ) ∧
        ∀ j < ws.length, ∃ q, (speedAt sin (j / 64)).val = some q ∧ (j < 64 → ρ j = q) ∧
          (64 ≤ j → min (ρ (64 * (j / 64) - 1)) q ≤ ρ j ∧ ρ j ≤ max (ρ (64 * (j / 64) - 1)) q) := by
  obtain ⟨N, ws, g1, g2, st0, ps, qs, p, V, h0, hr, hF, _, rfl, hB, hO⟩ := varispeed_explained (dummy := dummy) hL (Or.inl ht) hf hch hbuf hst hs hsam hdis m n hn
  obtain ⟨t, ρ, D, a1, a2, a3⟩ := C54_sinc cfg hL type ht ch e st0 p h0 (looped f) none (fun n h => by cases h) ps qs V (fun q hq => (hO q hq).1) hr hF
  exact ⟨N, _, g1, g2, t, ρ, D, st0, p, ps, qs, V, a1, a3, h0, hr, hF, rfl, hB, a2, speed_blocks hs hr hB a2⟩

/-- C61, the speed, for zero order hold. -/
theorem C61_speed_zoh (cfg : Config) (hL : LibraryTables cfg) (e : ℤ) (ch : ℕ) (hch : ch ∣ 32) (st : SrcState)
    (hst : srcCallbackNew cfg (some 1) SRC_ZERO_ORDER_HOLD ch 0 = .ok (e, some st)) (sin : F64 → F64) (hs : SineLike sin) (f : SndFile) (hf : 1 ≤ f.len) (m : Mem)
    (buf samples dummy : ℤ) (hbuf : 0 < buf) (hsam : 0 < samples) (hdis : samples + 2048 ≤ buf ∨ buf + 4096 ≤ samples) (n : ℕ) (hn : n * (32 / ch) ≤ 2 ^ 30) :
    ∃ N ws, (∀ fuel, N ≤ fuel → varispeedPlay cfg sin f m buf samples dummy SRC_ZERO_ORDER_HOLD ch n fuel = .ok (some ws)) ∧ ws.length = n * (2048 / ch) ∧
      ∃ (ρ : ℕ → ℚ) (st0 p : SrcState) (ps : List Op) (qs : List Obs) (V : ℕ),
        ws = ((List.range ws.length).map fun j => frameOf ch (idealAt SRC_ZERO_ORDER_HOLD (looped f) (timeAt ρ j))) ∧
        srcNew cfg SRC_ZERO_ORDER_HOLD ch = .ok (e, some st0) ∧ run ps st0 = .ok (qs, p) ∧ Fed (looped f) ch 0 ps qs V ∧ ws = outputs ch qs ∧
        InBlocks ch (speedAt sin) 64 0 ps qs ∧ Glides (1 / 2 ^ 41) 0 ps qs ((List.range ws.length).map ρ) ∧
        ∀ j < ws.length, ∃ q, (speedAt sin (j / 64)).val = some q ∧ (j < 64 → ρ j = q) ∧
          (64 ≤ j → min (ρ (64 * (j / 64) - 1)) q ≤ ρ j ∧ ρ j ≤ max (ρ (64 * (j / 64) - 1)) q) := by
  have h2 : ch ≤ 32 := Nat.le_of_dvd (by norm_num) hch
  obtain ⟨N, ws, g1, g2, st0, ps, qs, p, V, h0, hr, _, hF, rfl, hB, hO⟩ := varispeed_explained (dummy := dummy) hL (Or.inr rfl) hf hch hbuf hst hs hsam hdis m n hn
  obtain ⟨ρ, a2, a3⟩ := C54_interp cfg SRC_ZERO_ORDER_HOLD (Or.inl rfl) ch (by omega) e st0 p h0 (looped f) ps qs V (fun q hq => ⟨(hO q hq).2.2.1, (hO q hq).2.2.2⟩) hr hF
  exact ⟨N, _, g1, g2, ρ, st0, p, ps, qs, V, a3, h0, hr, hF, rfl, hB, a2, speed_blocks hs hr hB a2⟩

/-- Non-vacuity: a mono file of one frame played with zero order hold. -/
example : ∃ e st, srcCallbackNew fastCfg (some 1) SRC_ZERO_ORDER_HOLD (1 : ℕ) 0 = .ok (e, some st) ∧ ∃ N ws,
    (∀ fuel, N ≤ fuel → varispeedPlay fastCfg (fun _ => zero64) oneFrame (fun _ => zero32) 1 5000 1 SRC_ZERO_ORDER_HOLD (1 : ℕ) 3 fuel = .ok (some ws)) ∧ ws.length = 6144 := by
  obtain ⟨st, hst⟩ : ∃ st, srcCallbackNew fastCfg (some 1) SRC_ZERO_ORDER_HOLD (1 : ℕ) 0 = .ok (0, some st) := ⟨_, rfl⟩
  obtain ⟨N, ws, g1, g2, _⟩ := C61_speed_zoh fastCfg fastCfg_tables 0 1 (by norm_num) st hst _ sineLike_const oneFrame le_rfl (fun _ => zero32) 1 5000 1 (by norm_num) (by norm_num) (by norm_num) 3 (by norm_num)
  exact ⟨0, st, hst, N, ws, g1, by rw [g2]⟩

end Verif
