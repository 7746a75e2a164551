import Verif.Proof.Convert

/-! C25–C28: the array conversion functions. -/

namespace Verif

/-- the values of C `short` -/
def IsShort (s : ℤ) : Prop := -32768 ≤ s ∧ s ≤ 32767
/-- the values of C `int` -/
def IsInt (n : ℤ) : Prop := -2147483648 ≤ n ∧ n ≤ 2147483647

/-- `C28`: "The four array conversion functions convert elementwise, write exactly out[0..len), and do nothing for
len ≤ 0."  `conv` is any of the four functions; element `i` of the result is a function `g` of element `i` of the input
alone, the length of the output buffer and its elements from `len` on are unchanged. -/
def Elementwise {α β : Type} (conv : List α → List β → ℤ → M (List β)) : Prop :=
  ∃ g : α → β, ∀ inp out len, len ≤ inp.length → len ≤ out.length →
    ∃ out', conv inp out len = .ok out' ∧ out'.length = out.length ∧
      (∀ i : ℕ, (i : ℤ) < len → out'[i]? = inp[i]?.map g) ∧ (∀ i : ℕ, len ≤ i → out'[i]? = out[i]?) ∧
      (len ≤ 0 → out' = out)

theorem elementwise {α β : Type} (f : α → β) : Elementwise (convLoop f) := by
  refine ⟨f, fun inp out len h1 h2 => ?_⟩
  obtain ⟨o, ho, h3, h4, h5⟩ := convLoop_spec f inp out len h1 h2
  refine ⟨o, ho, h3, h4, h5, fun h => ?_⟩
  apply List.ext_getElem?
  intro i
  exact h5 i (by omega)

/-- See `Elementwise`. -/
theorem C28 : Elementwise srcShortToFloatArray ∧ Elementwise srcFloatToShortArray ∧ Elementwise srcIntToFloatArray ∧
    ∀ clipsPos clipsNeg, Elementwise (srcFloatToIntArray clipsPos clipsNeg) :=
  ⟨elementwise _, elementwise _, elementwise _, fun _ _ => elementwise _⟩

/-- a call the hypotheses of `C28` allow: three of the four elements of the output are written -/
example : ∃ o, srcShortToFloatArray [1, -2, 3] [zero32, zero32, zero32, Fl.inf false] 3 = .ok o ∧ o[3]? = some (Fl.inf false) := by
  obtain ⟨g, h⟩ := C28.1
  obtain ⟨o, h1, -, -, h2, -⟩ := h [1, -2, 3] [zero32, zero32, zero32, Fl.inf false] 3 (by simp) (by simp)
  exact ⟨o, h1, h2 3 (by simp)⟩

/-- `C25`: "src_float_to_short_array(src_short_to_float_array(x)) = x for every array of shorts": whatever the two
output buffers held, converting a whole array there and back succeeds and gives the array again. -/
theorem C25 (x : List ℤ) (hx : ∀ s ∈ x, IsShort s) (buf : List F32) (hb : buf.length = x.length) (back : List ℤ)
    (hk : back.length = x.length) :
    ∃ y, srcShortToFloatArray x buf x.length = .ok y ∧ srcFloatToShortArray y back x.length = .ok x := by
  obtain ⟨y, h1, h2, h3, -⟩ := convLoop_spec shortToFloat x buf x.length le_rfl (by omega)
  refine ⟨y, h1, ?_⟩
  obtain ⟨z, k1, k2, k3, -⟩ := convLoop_spec floatToShort y back x.length (by omega) (by omega)
  have : z = x := by
    apply List.ext_getElem?
    intro i
    by_cases hi : i < x.length
    · rw [k3 i (by omega), h3 i (by omega), List.getElem?_eq_getElem hi]
      have := hx _ (List.getElem_mem hi)
      simp [short_roundtrip this.1 this.2]
    · rw [List.getElem?_eq_none (by omega), List.getElem?_eq_none (by omega)]
  rw [this] at k1
  exact k1

example : ∀ s ∈ [-32768, -1, 0, 1, 32767], IsShort s := by simp [IsShort]

/-- `C26`: "src_float_to_short_array gives for every non-NaN float v the integer nearest to 32768*v (ties to even)
clipped to [-32768, 32767]; the map is monotone." -/
theorem C26 (inp : List F32) (out : List ℤ) (len : ℤ) (h1 : len ≤ inp.length) (h2 : len ≤ out.length) :
    ∃ out', srcFloatToShortArray inp out len = .ok out' ∧
      (∀ i : ℕ, (i : ℤ) < len → ∃ v n, inp[i]? = some v ∧ out'[i]? = some n ∧ Quantised 32768 (-32768) 32767 v n) ∧
      (∀ i j : ℕ, (i : ℤ) < len → (j : ℤ) < len → ∀ v w m n, inp[i]? = some v → inp[j]? = some w →
        out'[i]? = some m → out'[j]? = some n → Fl.le v w = true → m ≤ n) := by
  obtain ⟨o, ho, -, h4, -⟩ := convLoop_spec floatToShort inp out len h1 h2
  refine ⟨o, ho, ?_, ?_⟩
  · intro i hi
    refine ⟨inp[i], floatToShort inp[i], List.getElem?_eq_getElem (by omega), ?_, floatToShort_quantised _⟩
    rw [h4 i hi, List.getElem?_eq_getElem (by omega)]; rfl
  · intro i j hi hj v w m n hv hw hm hn hle
    rw [h4 i hi, hv] at hm
    rw [h4 j hj, hw] at hn
    simp only [Option.map_some, Option.some.injEq] at hm hn
    subst hm hn
    exact (floatToShort_quantised v).mono (by norm_num) (by norm_num) (floatToShort_quantised w) hle

/-- The specification used by `C26` leaves no choice for numbers and infinities. -/
theorem quantised_unique {s : ℚ} {lo hi : ℤ} {x : F32} (hx : x ≠ .nan) {a b : ℤ} (ha : Quantised s lo hi x a)
    (hb : Quantised s lo hi x b) : a = b := by
  match x with
  | .nan => exact absurd rfl hx
  | .inf _ => simp only [Quantised] at ha hb; omega
  | .fin q _ =>
    obtain ⟨k, hk, rfl⟩ := ha
    obtain ⟨l, hl, rfl⟩ := hb
    rw [nearestEven_unique hk hl]

/-- `C27`: "src_float_to_int_array clips to [-2^31, 2^31-1], rounds to nearest and is monotone; int → float → int
changes a value by at most 64 and not at all if |x| ≤ 2^24."  For builds with `CPU_CLIPS_POSITIVE` = 0 (what
cmake/ClipMode.cmake finds for SSE2) and either value of `CPU_CLIPS_NEGATIVE`. -/
theorem C27 (clipsNeg : Bool) :
    (∀ (inp : List F32) (out : List ℤ) (len : ℤ), len ≤ inp.length → len ≤ out.length →
      ∃ out', srcFloatToIntArray false clipsNeg inp out len = .ok out' ∧
        (∀ i : ℕ, (i : ℤ) < len →
          ∃ v n, inp[i]? = some v ∧ out'[i]? = some n ∧ Quantised 2147483648 (-2147483648) 2147483647 v n) ∧
        (∀ i j : ℕ, (i : ℤ) < len → (j : ℤ) < len → ∀ v w m n, inp[i]? = some v → inp[j]? = some w →
          out'[i]? = some m → out'[j]? = some n → Fl.le v w = true → m ≤ n)) ∧
    (∀ (x : List ℤ), (∀ n ∈ x, IsInt n) → ∀ buf : List F32, buf.length = x.length → ∀ back : List ℤ,
      back.length = x.length → ∃ y z, srcIntToFloatArray x buf x.length = .ok y ∧
        srcFloatToIntArray false clipsNeg y back x.length = .ok z ∧ z.length = x.length ∧
        ∀ i : ℕ, ∀ a b, x[i]? = some a → z[i]? = some b → |b - a| ≤ 64 ∧ (|a| ≤ 2 ^ 24 → b = a)) := by
  refine ⟨?_, ?_⟩
  · intro inp out len h1 h2
    obtain ⟨o, ho, -, h4, -⟩ := convLoop_spec (floatToInt false clipsNeg) inp out len h1 h2
    refine ⟨o, ho, ?_, ?_⟩
    · intro i hi
      refine ⟨inp[i], floatToInt false clipsNeg inp[i], List.getElem?_eq_getElem (by omega), ?_,
        floatToInt_quantised _ _⟩
      rw [h4 i hi, List.getElem?_eq_getElem (by omega)]; rfl
    · intro i j hi hj v w m n hv hw hm hn hle
      rw [h4 i hi, hv] at hm
      rw [h4 j hj, hw] at hn
      simp only [Option.map_some, Option.some.injEq] at hm hn
      subst hm hn
      exact (floatToInt_quantised clipsNeg v).mono (by norm_num) (by norm_num) (floatToInt_quantised clipsNeg w) hle
  · intro x hx buf hb back hk
    obtain ⟨y, h1, h2, h3, -⟩ := convLoop_spec intToFloat x buf x.length le_rfl (by omega)
    obtain ⟨z, k1, k2, k3, -⟩ := convLoop_spec (floatToInt false clipsNeg) y back x.length (by omega) (by omega)
    refine ⟨y, z, h1, k1, by omega, ?_⟩
    intro i a b ha hb'
    have hi : i < x.length := by
      by_contra h
      rw [List.getElem?_eq_none (by omega)] at ha
      cases ha
    have hm := hx a (List.mem_of_getElem? ha)
    rw [k3 i (by omega), h3 i (by omega), ha] at hb'
    simp only [Option.map_some, Option.some.injEq] at hb'
    subst hb'
    exact ⟨int_roundtrip_near _ hm.1 hm.2, fun h => int_roundtrip_exact _ (by simpa using h)⟩

/-- With `CPU_CLIPS_POSITIVE` wrongly set, SSE2 turns the loudest positive sample into the loudest negative one, so the
hypothesis of `C27` on the build configuration is needed. -/
theorem C27_needs_clip (clipsNeg : Bool) : floatToInt true clipsNeg (Fl.ofInt f32 1) = -2147483648 := by
  have h1 : (Fl.ofInt f32 1).val = some 1 := by
    have := Fl.val_ofInt (f := f32) (n := 1) (by norm_num [f32]); simpa using this
  have hr : Rep0 f64 (1 * 2147483648 : ℚ) := by
    have := rep0_int (f := f64) (n := 2147483648) (by norm_num [f64]); simpa using this
  have hv := Fl.val_mul (Fl.val_conv64 h1) dbl_2147483648 (by
    rw [rq_of_rep hr]
    have : (p2 31 : ℚ) < p2 f64.emax := p2_lt (by decide)
    rw [show p2 31 = 2147483648 by norm_num [p2]] at this
    norm_num; exact this)
  rw [rq_of_rep hr, one_mul] at hv
  unfold floatToInt
  simp only [Bool.not_true, Bool.false_and, Bool.false_eq_true, if_false]
  have hB := Fl.le_val hv dbl_m2147483648
  have h2 : ¬ (2147483648 : ℚ) ≤ -2147483648 := by norm_num
  simp only [hB, h2, decide_false, Bool.and_false, Bool.false_eq_true, if_false]
  obtain ⟨r, e⟩ := Fl.eq_fin_of_val hv
  rw [e]
  have : rne 2147483648 = 2147483648 := rne_ofNat 2147483648
  simp only [lrint, this]
  norm_num

end Verif
