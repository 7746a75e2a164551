import Verif.Props.All
import Verif.Proof.LevelInterp

/-! Silence (C41) and sample magnitudes (C50). -/

namespace Verif
open Spec

theorem table_within {cfg : Config} (hW : TablesWithin cfg) {type : ℤ} {t : CoeffTable} (h : cfg.table type = some t) :
    ∀ i, 0 ≤ i → i < t.count → Within 1 (t.coeffs i) := by
  unfold Config.table at h
  split_ifs at h
  · exact hW t (Or.inr (Or.inr h))
  · exact hW t (Or.inr (Or.inl h))
  · exact hW t (Or.inl h)

theorem sinc_level {cfg : Config} (hL : LibraryTables cfg) (hW : TablesWithin cfg) {type e : ℤ} {ch : ℕ} {st st1 : SrcState}
    (h : srcNew cfg type ch = .ok (e, some st)) (ht : SincType type) {u : ℚ} (hu : Lev u) {ops : List Op} (hO : ∀ op ∈ ops, OrdinaryOp 1 ch op)
    (hI : ∀ op ∈ ops, InputWithin u ch op) {os : List Obs} (hr : run ops st = .ok (os, st1)) :
    List.Forall₂ (OutputWithin (2 ^ 11 * u) ch) ops os := by
  obtain ⟨t, hT, hd⟩ := sinc_table hL ht h
  obtain ⟨B, S, hm⟩ := new_safe hT hd h
  exact sinc_history_lev hu ops S (new_lev hu hT (table_within hW hT) h) hm hO hI hr

theorem interp_level {cfg : Config} {type e : ℤ} {ch : ℕ} (hc : ch ≤ 8355967) {st st1 : SrcState}
    (h : srcNew cfg type ch = .ok (e, some st)) (ht : type = SRC_ZERO_ORDER_HOLD ∨ type = SRC_LINEAR) {u : ℚ} {ops : List Op}
    (hO : ∀ op ∈ ops, OrdinaryOp 1 ch op) (hI : ∀ op ∈ ops, InputWithin u ch op) {os : List Obs} (hr : run ops st = .ok (os, st1)) :
    List.Forall₂ (OutputWithin u ch) ops os := by
  obtain ⟨K, rfl⟩ := kind_of ht
  obtain ⟨V, hm, _⟩ := new_view (K := K) h (by cases K <;> rfl) (by exact_mod_cast hc)
  rw [Int.toNat_natCast] at V
  exact interp_history_lev ops ⟨_, _, _, V, fun _ h => by cases h⟩ hm hO hI hr

/-- C41: if every input sample of every call is zero, every output sample of every successful call is zero, for every converter and
every ordinary history that does not fault. -/
theorem C41 (cfg : Config) (hL : LibraryTables cfg) (hW : TablesWithin cfg) (type e : ℤ) (ch : ℕ) (hc : ch ≤ 8355967) (st st1 : SrcState)
    (h : srcNew cfg type ch = .ok (e, some st)) (ops : List Op) (hO : ∀ op ∈ ops, OrdinaryOp 1 ch op)
    (hI : ∀ op ∈ ops, InputWithin 0 ch op) (os : List Obs) (hr : run ops st = .ok (os, st1)) :
    List.Forall₂ (OutputWithin 0 ch) ops os := by
  rcases new_type h with ht | ht
  · exact interp_level hc h ht hO hI hr
  · have := sinc_level hL hW h ht (Or.inl rfl) hO hI hr
    rwa [mul_zero] at this

/-- C50, zero order hold and linear: the output is never larger than the input. -/
theorem C50_interp (cfg : Config) (type e : ℤ) (ht : type = SRC_ZERO_ORDER_HOLD ∨ type = SRC_LINEAR) (ch : ℕ) (hc : ch ≤ 8355967) (st st1 : SrcState)
    (h : srcNew cfg type ch = .ok (e, some st)) (u : ℚ) (ops : List Op) (hO : ∀ op ∈ ops, OrdinaryOp 1 ch op)
    (hI : ∀ op ∈ ops, InputWithin u ch op) (os : List Obs) (hr : run ops st = .ok (os, st1)) :
    List.Forall₂ (OutputWithin u ch) ops os :=
  interp_level hc h ht hO hI hr

/-- C50, sinc: input samples of magnitude at most `2^k`, `k ≤ 64`, give finite output samples, of magnitude at most `2^(11+k)`. -/
theorem C50_sinc (cfg : Config) (hL : LibraryTables cfg) (hW : TablesWithin cfg) (type e : ℤ) (ht : SincType type) (ch : ℕ) (st st1 : SrcState)
    (h : srcNew cfg type ch = .ok (e, some st)) (k : ℕ) (hk : k ≤ 64) (ops : List Op) (hO : ∀ op ∈ ops, OrdinaryOp 1 ch op)
    (hI : ∀ op ∈ ops, InputWithin (2 ^ k) ch op) (os : List Obs) (hr : run ops st = .ok (os, st1)) :
    List.Forall₂ (OutputWithin (2 ^ (11 + k)) ch) ops os := by
  have := sinc_level hL hW h ht (Or.inr ⟨k, by omega, by omega, (p2_natCast k).symm⟩ : Lev ((2 : ℚ) ^ k)) hO hI hr
  rwa [pow_add]

/-- The hypotheses are satisfiable: a call of the fast sinc converter that puts out at least 98 frames. -/
example : ∃ (st st1 : SrcState) (os : List Obs), LibraryTables fastCfg ∧ TablesWithin fastCfg ∧ srcNew fastCfg SRC_SINC_FASTEST (2 : ℕ) = .ok (0, some st) ∧
    (∀ op ∈ [Op.process (fun a => Fl.ofInt f32 (a % 2)) (some sincCall)], OrdinaryOp 1 (2 : ℕ) op) ∧
    (∀ op ∈ [Op.process (fun a => Fl.ofInt f32 (a % 2)) (some sincCall)], InputWithin (2 ^ 0) (2 : ℕ) op) ∧
    run [.process (fun a => Fl.ofInt f32 (a % 2)) (some sincCall)] st = .ok (os, st1) ∧
    ∃ o d', os = [o] ∧ o.ret = 0 ∧ o.data = some d' ∧ 98 ≤ d'.outputFramesGen := by
  obtain ⟨st, o, st1, d', h1, h2, h3, h4, -, -, h7⟩ := sinc_one_call
  have hr : run [.process (fun _ => zero32) (some sincCall)] st = .ok ([o], st1) := by
    simp only [run, h2]; rfl
  obtain ⟨os', st1', hr', hs⟩ := C17 fastCfg st (.new _ _ _ _ h1) _ [.process (fun a => Fl.ofInt f32 (a % 2)) (some sincCall)]
    (.cons (.process _ _ _) .nil) _ _ hr
  cases hs with
  | cons hs hnil =>
  cases hnil
  refine ⟨st, st1', _, fastCfg_tables, ?_, h1, ?_, ?_, hr', _, d', rfl, by rw [hs.ret]; exact h3, by rw [hs.data]; exact h4, h7⟩
  · rintro t (ht | ht | ht) i _ _
    · cases ht
      exact ⟨1, by simpa using Fl.val_ofInt (f := f32) (n := 1) (by norm_num [f32]), by norm_num⟩
    · cases ht
    · cases ht
  · intro op hop
    rw [List.mem_singleton] at hop
    subst hop
    refine .process _ _ (fun x hx => ?_)
    cases hx
    exact ⟨sincCall_sized.ratio, sincCall_sized.inSize.le.trans (by norm_num), sincCall_sized.outSize.trans (by norm_num),
      Or.inr (by norm_num [sincCall])⟩
  · intro op hop
    rw [List.mem_singleton] at hop
    subst hop
    rintro m d hop i _ _
    cases hop
    have h0 : 0 ≤ (sincCall.dataIn + i) % 2 := Int.emod_nonneg _ (by norm_num)
    have h2 : (sincCall.dataIn + i) % 2 < 2 := Int.emod_lt_of_pos _ (by norm_num)
    have habs : |(((sincCall.dataIn + i) % 2 : ℤ) : ℚ)| ≤ 2 ^ 0 := by
      rw [abs_of_nonneg (by exact_mod_cast h0)]
      have : (sincCall.dataIn + i) % 2 ≤ 1 := by omega
      norm_num
      exact_mod_cast this
    refine ⟨_, Fl.val_ofInt (f := f32) ?_, habs⟩
    rw [abs_of_nonneg h0]
    exact (by omega : (sincCall.dataIn + i) % 2 ≤ 1).trans (by norm_num [f32])

end Verif
