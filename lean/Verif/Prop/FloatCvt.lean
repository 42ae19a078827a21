import Verif.Lemma.FloatCvt2
import Verif.Prop.SseInt

/-!
C55: conversions between floating-point and integer vectors, and between float and double.

A conversion to integers is right (`ConvertsToInt`) if a number whose integral part the result type can hold
becomes that integral part; the C++ standard leaves all other conversions undefined, and nothing is claimed
about them.  A conversion from integers gives the nearest floating-point number.
-/

namespace Vc.Prop

open Vc.Model Vc.Lemma Vc.Spec

/-- Lane `i` of the concatenation of two vectors with `k` lanes. -/
def lane2 (w k : Nat) {n : Nat} (a b : BitVec n) (i : Nat) : BitVec w :=
  if i < k then Model.lane w a i else Model.lane w b (i - k)

/-- Lane `i` of the concatenation of four vectors with `k` lanes. -/
def lane4 (w k : Nat) {n : Nat} (a b c d : BitVec n) (i : Nat) : BitVec w :=
  if i < 2 * k then lane2 w k a b i else lane2 w k c d (i - 2 * k)

/-! ### To int -/

/-- float_v to int_v, SSE and AVX. -/
theorem C55_float_int {n : Nat} (x : BitVec n) {i : Nat} (hi : 32 * (i + 1) ≤ n) :
    ConvertsToInt f32 true (Model.lane 32 x i) (Model.lane 32 (cvttps x) i) := by
  rw [lane_cvttps x hi]; exact cvtt_spec _

/-- double_v to int_v: one SSE or AVX vector, two SSE vectors (with or without AVX), two AVX vectors. -/
theorem C55_double_int (avx : Bool) (x0 x1 : M128) (y0 y1 : M256) :
    (∀ i, i < 2 → ConvertsToInt f64 true (Model.lane 64 x0 i) (Model.lane 32 (cvttpd x0) i)) ∧
    (∀ i, i < 4 → ConvertsToInt f64 true (Model.lane 64 y0 i) (Model.lane 32 (cvttpd256 y0) i)) ∧
    (∀ i, i < 4 → ConvertsToInt f64 true (lane2 64 2 x0 x1 i) (Model.lane 32 (cvtDoubleInt2 avx x0 x1) i)) ∧
    (∀ i, i < 8 → ConvertsToInt f64 true (lane2 64 4 y0 y1 i) (Model.lane 32 (simdCastDoubleInt2 y0 y1) i)) := by
  refine ⟨fun i hi => ?_, fun i hi => ?_, fun i hi => ?_, fun i hi => ?_⟩
  · rw [lane_cvttpd _ hi]; exact cvtt_spec _
  · rw [lane_cvttpd256 _ hi]; exact cvtt_spec _
  · rw [lane_cvtDoubleInt2 _ _ _ hi]; exact cvtt_spec _
  · unfold simdCastDoubleInt2 lane2
    rw [concat128_32 _ _ hi]
    by_cases h : i < 4
    · rw [if_pos h, if_pos h, lane_cvttpd256 _ h]; exact cvtt_spec _
    · rw [if_neg h, if_neg h, lane_cvttpd256 _ (by omega)]; exact cvtt_spec _

/-! ### To unsigned int -/

/-- float_v to uint_v: SSE with any instruction set, AVX and AVX2 with either way of comparing. -/
theorem C55_float_uint (I : Isa) (avx2 : Bool) (B : CmpBuild) (x : M128) (y : M256) :
    (∀ i, i < 4 → ConvertsToInt f32 false (Model.lane 32 x i) (Model.lane 32 (cvtFloatUint I x) i)) ∧
    (∀ i, i < 8 → ConvertsToInt f32 false (Model.lane 32 y i) (Model.lane 32 (cvtFloatUintAvx avx2 B y) i) ∧
      ConvertsToInt f32 false (Model.lane 32 y i) (Model.lane 32 (simdCastFloatUintAvx2 B y) i)) := by
  refine ⟨fun i hi => ?_, fun i hi => ⟨fun hx => ?_, fun hx => ?_⟩⟩
  · rw [lane_cvtFloatUint I x hi]; exact f2u_spec .single isTwo31f _
  · rw [lane_cvtFloatUintAvx avx2 B y hi hx]; exact f2u_spec .single isTwo31f _ hx
  · rw [lane_simdCastFloatUintAvx2 B y hi hx]; exact f2u_spec .single isTwo31f _ hx

/-- double_v to uint_v with AVX: one AVX vector, two of them, two SSE vectors. -/
theorem C55_double_uint_avx (I : Isa) (x0 x1 : M128) (y0 y1 : M256) :
    (∀ i, i < 4 → ConvertsToInt f64 false (Model.lane 64 y0 i) (Model.lane 32 (cvtDoubleUintAvx y0) i)) ∧
    (∀ i, i < 8 → ConvertsToInt f64 false (lane2 64 4 y0 y1 i) (Model.lane 32 (simdCastDoubleUint2 y0 y1) i)) ∧
    (∀ i, i < 4 → ConvertsToInt f64 false (lane2 64 2 x0 x1 i) (Model.lane 32 (cvtDoubleUint2 I true x0 x1) i)) := by
  refine ⟨fun i hi => ?_, fun i hi => ?_, fun i hi => ?_⟩
  · rw [lane_cvtDoubleUintAvx _ hi]; exact d2u_spec _
  · unfold simdCastDoubleUint2 lane2
    rw [concat128_32 _ _ hi]
    by_cases h : i < 4
    · rw [if_pos h, if_pos h, lane_cvtDoubleUintAvx _ h]; exact d2u_spec _
    · rw [if_neg h, if_neg h, lane_cvtDoubleUintAvx _ (by omega)]; exact d2u_spec _
  · unfold cvtDoubleUint2
    rw [if_pos rfl, lane_cvtDoubleUintAvx _ hi, concat128_64 _ _ hi]
    exact d2u_spec _

/-- The number is at least 2^31. -/
def Big (x : BitVec 64) : Prop := isNaN f64 x = false ∧ 2 ^ (oneExp f64 + 31) ≤ fval f64 x

private theorem big_iff (x : BitVec 64) : fLe f64 two31d x = true ↔ Big x := by
  have e : fval f64 two31d = 2 ^ (oneExp f64 + 31) := by decide +kernel
  have hn : isNaN f64 two31d = false := by decide +kernel
  unfold fLe Big
  rw [e, hn]
  simp only [Bool.not_false, Bool.true_and, Bool.and_eq_true, Bool.not_eq_true', decide_eq_true_eq]

/-- double_v to uint_v with SSE, one vector.  Missing: lane 1 without SSE4.1, if exactly one of the two
numbers is at least 2^31. -/
theorem C55_double_uint_sse_partial (I : Isa) (x : M128) {i : Nat} (hi : i < 2)
    (h : I.sse41 = true ∨ i = 0 ∨ (Big (Model.lane 64 x 0) ↔ Big (Model.lane 64 x 1))) :
    ConvertsToInt f64 false (Model.lane 64 x i) (Model.lane 32 (cvtDoubleUint I x) i) := by
  rw [lane_cvtDoubleUint I x hi]
  by_cases h41 : I.sse41 = true
  · rw [if_pos h41]; exact d2u_spec _
  · rw [if_neg h41]
    have hb : fLe f64 two31d (Model.lane 64 x 0) = fLe f64 two31d (Model.lane 64 x i) := by
      rcases h with h | h | h
      · exact absurd h h41
      · rw [h]
      · have : i = 0 ∨ i = 1 := by omega
        rcases this with rfl | rfl
        · rfl
        · rw [Bool.eq_iff_iff, big_iff, big_iff]; exact h
    rw [hb]
    exact f2u_spec .double isTwo31d _

/-- The same for two vectors of an SSE program. -/
theorem C55_double_uint2_sse_partial (I : Isa) (x0 x1 : M128) {i : Nat} (hi : i < 4)
    (h : I.sse41 = true ∨ i % 2 = 0 ∨ (Big (lane2 64 2 x0 x1 (i - 1)) ↔ Big (lane2 64 2 x0 x1 i))) :
    ConvertsToInt f64 false (lane2 64 2 x0 x1 i) (Model.lane 32 (cvtDoubleUint2 I false x0 x1) i) := by
  unfold cvtDoubleUint2
  rw [if_neg (by decide), lane_unpacklo64 _ _ hi]
  unfold lane2 at *
  by_cases h2 : i < 2
  · rw [if_pos h2, if_pos h2]
    rw [if_pos h2, if_pos (by omega)] at h
    apply C55_double_uint_sse_partial I x0 h2
    rcases h with h | h | h
    · exact .inl h
    · exact .inr (.inl (by omega))
    · have : i = 0 ∨ i = 1 := by omega
      rcases this with rfl | rfl
      · exact .inr (.inl rfl)
      · exact .inr (.inr h)
  · rw [if_neg h2, if_neg h2]
    rw [if_neg h2] at h
    apply C55_double_uint_sse_partial I x1 (by omega)
    have : i = 2 ∨ i = 3 := by omega
    rcases this with rfl | rfl
    · exact .inr (.inl rfl)
    · rcases h with h | h | h
      · exact .inl h
      · omega
      · exact .inr (.inr h)

/-- {1, 3000000000} and {3000000000, 1.5} as double. -/
def exSmallBig : M128 := 0x41e65a0bc0000000#64 ++ 0x3ff0000000000000#64
def exBigSmall : M128 := 0x3ff8000000000000#64 ++ 0x41e65a0bc0000000#64

/-- "double_v converts to uint_v" is false for SSE2 and SSE3: the comparison result is not narrowed to the
32-bit lanes, so that the first number decides for the second one, too.  {1, 3000000000} becomes
{1, 2147483648} and {3000000000, 1.5} becomes {3000000000, 2}. -/
theorem C55_double_uint_sse_violated :
    ¬ ∀ (x : M128) (i : Nat), i < 2 →
      ConvertsToInt f64 false (Model.lane 64 x i) (Model.lane 32 (cvtDoubleUint sse2 x) i) := by
  intro h
  have h0 := h exSmallBig 1 (by decide) (by decide +kernel) 3000000000 (by unfold IsTrunc; decide +kernel)
    (by unfold InRange; decide)
  exact absurd h0 (by decide +kernel)

example : (Model.lane 32 (cvtDoubleUint sse2 exSmallBig) 1).toNat = 2147483648 ∧
    (Model.lane 32 (cvtDoubleUint sse2 exBigSmall) 0).toNat = 3000000000 ∧
    (Model.lane 32 (cvtDoubleUint sse2 exBigSmall) 1).toNat = 2 ∧
    (Model.lane 32 (cvtDoubleUint sse42 exBigSmall) 1).toNat = 1 := by
  rw [lane_cvtDoubleUint _ _ (by decide), lane_cvtDoubleUint _ _ (by decide), lane_cvtDoubleUint _ _ (by decide),
    lane_cvtDoubleUint _ _ (by decide)]
  decide +kernel

example : Big (Model.lane 64 exBigSmall 0) ∧ ¬ Big (Model.lane 64 exBigSmall 1) := by
  unfold Big; decide +kernel

/-! ### To short and unsigned short -/

/-- float_v and double_v to short_v and ushort_v with SSE: one, two and four vectors. -/
theorem C55_short_sse (avx : Bool) (x0 x1 x2 x3 : M128) :
    (∀ i, i < 4 → ConvertsToInt f32 true (Model.lane 32 x0 i) (Model.lane 16 (cvtFloatShort x0) i) ∧
      ConvertsToInt f32 false (Model.lane 32 x0 i) (Model.lane 16 (cvtFloatUshort x0) i)) ∧
    (∀ i, i < 2 → ConvertsToInt f64 true (Model.lane 64 x0 i) (Model.lane 16 (cvtDoubleShort x0) i) ∧
      ConvertsToInt f64 false (Model.lane 64 x0 i) (Model.lane 16 (cvtDoubleUshort x0) i)) ∧
    (∀ i, i < 8 → ConvertsToInt f32 true (lane2 32 4 x0 x1 i) (Model.lane 16 (cvtFloatShort2 x0 x1) i) ∧
      ConvertsToInt f32 false (lane2 32 4 x0 x1 i) (Model.lane 16 (cvtFloatUshort2 x0 x1) i)) ∧
    (∀ i, i < 4 → ConvertsToInt f64 true (lane2 64 2 x0 x1 i) (Model.lane 16 (cvtDoubleShort2 avx x0 x1) i) ∧
      ConvertsToInt f64 false (lane2 64 2 x0 x1 i) (Model.lane 16 (cvtDoubleUshort2 avx x0 x1) i)) ∧
    (∀ i, i < 8 → ConvertsToInt f64 true (lane4 64 2 x0 x1 x2 x3 i)
        (Model.lane 16 (cvtDoubleShort4 avx x0 x1 x2 x3) i) ∧
      ConvertsToInt f64 false (lane4 64 2 x0 x1 x2 x3 i) (Model.lane 16 (cvtDoubleUshort4 avx x0 x1 x2 x3) i)) := by
  refine ⟨fun i hi => ⟨?_, ?_⟩, fun i hi => ⟨?_, ?_⟩, fun i hi => ⟨?_, ?_⟩, fun i hi => ⟨?_, ?_⟩,
    fun i hi => ⟨?_, ?_⟩⟩
  · unfold cvtFloatShort
    rw [lane_packs16 _ _ (by omega), if_pos hi, lane_cvttps _ (by omega)]
    exact conv_satSigned (cvtt_spec _)
  · unfold cvtFloatUshort
    rw [lane_convertIntUshort _ (by omega), if_pos hi, lane_cvttps _ (by omega)]
    exact conv_setWidth (.inl rfl) (cvtt_spec _)
  · unfold cvtDoubleShort
    rw [lane_packs16 _ _ (by omega), if_pos (by omega), lane_cvttpd _ hi]
    exact conv_satSigned (cvtt_spec _)
  · unfold cvtDoubleUshort
    rw [lane_convertIntUshort _ (by omega), if_pos (by omega), lane_cvttpd _ hi]
    exact conv_setWidth (.inl rfl) (cvtt_spec _)
  · unfold cvtFloatShort2 lane2
    rw [lane_packs16 _ _ hi]
    apply conv_satSigned
    by_cases h : i < 4
    · rw [if_pos h, if_pos h, lane_cvttps _ (by omega)]; exact cvtt_spec _
    · rw [if_neg h, if_neg h, lane_cvttps _ (by omega)]; exact cvtt_spec _
  · unfold cvtFloatUshort2 lane2
    rw [lane_convertInt32ToInt16 _ _ hi]
    apply conv_setWidth (.inl rfl)
    by_cases h : i < 4
    · rw [if_pos h, if_pos h, lane_cvttps _ (by omega)]; exact cvtt_spec _
    · rw [if_neg h, if_neg h, lane_cvttps _ (by omega)]; exact cvtt_spec _
  · unfold cvtDoubleShort2
    rw [lane_packs16 _ _ (by omega), if_pos hi, lane_cvtDoubleInt2 _ _ _ hi]
    exact conv_satSigned (cvtt_spec _)
  · unfold cvtDoubleUshort2
    rw [lane_convertInt32ToInt16 _ _ (by omega), if_pos hi, lane_cvtDoubleInt2 _ _ _ hi]
    exact conv_setWidth (.inl rfl) (cvtt_spec _)
  · unfold cvtDoubleShort4 lane4
    rw [lane_packs16 _ _ hi]
    apply conv_satSigned
    by_cases h : i < 4
    · rw [if_pos h, if_pos h, lane_cvtDoubleInt2 _ _ _ h]; exact cvtt_spec _
    · rw [if_neg h, if_neg h, lane_cvtDoubleInt2 _ _ _ (by omega)]; exact cvtt_spec _
  · unfold cvtDoubleUshort4 lane4
    rw [lane_convertInt32ToInt16 _ _ hi]
    apply conv_setWidth (.inl rfl)
    by_cases h : i < 4
    · rw [if_pos h, if_pos h, lane_cvtDoubleInt2 _ _ _ h]; exact cvtt_spec _
    · rw [if_neg h, if_neg h, lane_cvtDoubleInt2 _ _ _ (by omega)]; exact cvtt_spec _

/-- One AVX float_v or double_v to short_v and ushort_v: the constructor and `simd_cast`. -/
theorem C55_short_avx (avx2 : Bool) (B : CmpBuild) (x : M256) :
    (∀ i, i < 8 → ConvertsToInt f32 true (Model.lane 32 x i) (Model.lane 16 (cvtFloatShortAvx avx2 x) i) ∧
      ConvertsToInt f32 false (Model.lane 32 x i) (Model.lane 16 (cvtFloatUshortAvx avx2 B x) i) ∧
      ConvertsToInt f32 true (Model.lane 32 x i) (Model.lane 16 (simdCastFloatShort x) i) ∧
      ConvertsToInt f32 false (Model.lane 32 x i) (Model.lane 16 (simdCastFloatUshort x) i)) ∧
    (∀ i, i < 4 → ConvertsToInt f64 true (Model.lane 64 x i) (Model.lane 16 (cvtDoubleShortAvx x) i) ∧
      ConvertsToInt f64 false (Model.lane 64 x i) (Model.lane 16 (cvtDoubleUshortAvx x) i) ∧
      ConvertsToInt f64 true (Model.lane 64 x i) (Model.lane 16 (simdCastDoubleShort x) i) ∧
      ConvertsToInt f64 false (Model.lane 64 x i) (Model.lane 16 (simdCastDoubleUshort x) i)) := by
  have halves : ∀ i, i < 8 → (if i < 4 then Model.lane 32 (lo128 (cvttps x)) i
      else Model.lane 32 (hi128 (cvttps x)) (i - 4)) = cvttF2I f32 (Model.lane 32 x i) := fun i hi => by
    by_cases h : i < 4
    · rw [if_pos h, lo128_32 _ h, lane_cvttps _ (by omega)]
    · rw [if_neg h, hi128_32 _ (by omega), lane_cvttps _ (by omega), show 4 + (i - 4) = i by omega]
  refine ⟨fun i hi => ⟨?_, ?_, ?_, ?_⟩, fun i hi => ⟨?_, ?_, ?_, ?_⟩⟩
  · unfold cvtFloatShortAvx
    rw [lane_cvtIntShortAvx _ _ hi, lane_cvttps _ (by omega)]
    exact conv_setWidth (.inl rfl) (cvtt_spec _)
  · unfold cvtFloatUshortAvx
    rw [lane_cvtIntUshortAvx _ hi]
    exact conv_setWidth (.inr rfl) ((C55_float_uint sse2 avx2 B 0 x).2 i hi).1
  · unfold simdCastFloatShort
    rw [lane_packs16 _ _ hi, halves i hi]
    exact conv_satSigned (cvtt_spec _)
  · unfold simdCastFloatUshort
    rw [lane_packus16 _ _ hi, halves i hi]
    exact conv_satUnsigned (cvtt_spec _)
  · unfold cvtDoubleShortAvx convertIntShort
    rw [lane_packs16 _ _ (by omega), if_pos hi, lane_cvttpd256 _ hi]
    exact conv_satSigned (cvtt_spec _)
  · unfold cvtDoubleUshortAvx
    rw [lane_convertIntUshort _ (by omega), if_pos hi]
    exact conv_setWidth (.inr rfl) ((C55_double_uint_avx sse2 0 0 x x).1 i hi)
  · unfold simdCastDoubleShort
    rw [lane_packs16 _ _ (by omega), if_pos hi, lane_cvttpd256 _ hi]
    exact conv_satSigned (cvtt_spec _)
  · unfold simdCastDoubleUshort
    rw [lane_packus16 _ _ (by omega), if_pos hi, lane_cvttpd256 _ hi]
    exact conv_satUnsigned (cvtt_spec _)

/-- Two and four AVX2 vectors. -/
theorem C55_short_avx2 (x0 x1 x2 x3 : M256) :
    (∀ i, i < 8 → ConvertsToInt f64 true (lane2 64 4 x0 x1 i) (Model.lane 16 (simdCastDoubleShort2 x0 x1) i) ∧
      ConvertsToInt f64 false (lane2 64 4 x0 x1 i) (Model.lane 16 (simdCastDoubleUshort2 x0 x1) i)) ∧
    (∀ i, i < 16 → ConvertsToInt f64 true (lane4 64 4 x0 x1 x2 x3 i)
        (Model.lane 16 (simdCastDoubleShort4 x0 x1 x2 x3) i) ∧
      ConvertsToInt f64 false (lane4 64 4 x0 x1 x2 x3 i) (Model.lane 16 (simdCastDoubleUshort4 x0 x1 x2 x3) i)) ∧
    (∃ r, simdCastFloatShort2 x0 x1 = some r ∧
      ∀ i, i < 16 → ConvertsToInt f32 true (lane2 32 8 x0 x1 i) (Model.lane 16 r i)) ∧
    (∃ r, simdCastFloatUshort2 x0 x1 = some r ∧
      ∀ i, i < 16 → ConvertsToInt f32 false (lane2 32 8 x0 x1 i) (Model.lane 16 r i)) := by
  have two : ∀ (x0 x1 : M256) i, i < 8 →
      ConvertsToInt f64 true (lane2 64 4 x0 x1 i) (Model.lane 16 (packs 16 (cvttpd256 x0) (cvttpd256 x1)) i) ∧
      ConvertsToInt f64 false (lane2 64 4 x0 x1 i) (Model.lane 16 (packus 16 (cvttpd256 x0) (cvttpd256 x1)) i) := by
    intro x0 x1 i hi
    rw [lane_packs16 _ _ hi, lane_packus16 _ _ hi]
    unfold lane2
    by_cases h : i < 4
    · rw [if_pos h, if_pos h, lane_cvttpd256 _ h]
      exact ⟨conv_satSigned (cvtt_spec _), conv_satUnsigned (cvtt_spec _)⟩
    · rw [if_neg h, if_neg h, lane_cvttpd256 _ (by omega)]
      exact ⟨conv_satSigned (cvtt_spec _), conv_satUnsigned (cvtt_spec _)⟩
  have flt : ∀ i, i < 16 → (if i < 8 then Model.lane 32 (cvttps x0) i else Model.lane 32 (cvttps x1) (i - 8)) =
      cvttF2I f32 (lane2 32 8 x0 x1 i) := fun i hi => by
    unfold lane2
    by_cases h : i < 8
    · rw [if_pos h, if_pos h, lane_cvttps _ (by omega)]
    · rw [if_neg h, if_neg h, lane_cvttps _ (by omega)]
  refine ⟨two x0 x1, fun i hi => ?_, ?_, ?_⟩
  · unfold simdCastDoubleShort4 simdCastDoubleUshort4 lane4
    rw [concat128_16 _ _ hi, concat128_16 _ _ hi]
    by_cases h : i < 8
    · rw [if_pos h, if_pos h, if_pos h]; exact two x0 x1 i h
    · rw [if_neg h, if_neg h, if_neg h]; exact two x2 x3 (i - 8) (by omega)
  · obtain ⟨r, hr, hl⟩ := lane_simdCastIntShort2 (cvttps x0) (cvttps x1)
    refine ⟨r, hr, fun i hi => ?_⟩
    rw [hl i hi, flt i hi]
    exact conv_setWidth (.inl rfl) (cvtt_spec _)
  · obtain ⟨r, hr, hl⟩ := lane_simdCastIntUshort2 (cvttps x0) (cvttps x1)
    refine ⟨r, hr, fun i hi => ?_⟩
    rw [hl i hi, flt i hi]
    exact conv_setWidth (.inl rfl) (cvtt_spec _)

/-- -40.75 becomes -40, 65535.5 becomes 65535, 3000000000 stays. -/
example : IsTrunc (fval f32 0xc2230000#32) (2 ^ oneExp f32) (-40) ∧ InRange true 16 (-40) ∧
    IsTrunc (fval f32 0x477fff80#32) (2 ^ oneExp f32) 65535 ∧ InRange false 16 65535 ∧
    IsTrunc (fval f64 0x41e65a0bc0000000#64) (2 ^ oneExp f64) 3000000000 ∧ InRange false 32 3000000000 := by
  unfold IsTrunc InRange; decide +kernel

/-! ### From integers -/

/-- int_v to float_v gives the nearest float, int_v to double_v is exact. -/
theorem C55_from_int {n : Nat} (x : BitVec n) (y : M128) :
    (∀ i, 32 * (i + 1) ≤ n → RoundedInt f32 (val true (Model.lane 32 x i)) (Model.lane 32 (cvtepi32PsN x) i)) ∧
    (∀ i, i < 2 → ExactInt f64 (val true (Model.lane 32 y i)) (Model.lane 64 (cvtIntDouble y) i)) ∧
    (∀ i, i < 4 → ExactInt f64 (val true (Model.lane 32 y i)) (Model.lane 64 (cvtIntDoubleAvx y) i)) := by
  refine ⟨fun i hi => ?_, fun i hi => ?_, fun i hi => ?_⟩
  · unfold cvtepi32PsN
    rw [lane_map1 _ _ hi]; exact cvtI2F_nearest .single _
  · unfold cvtIntDouble cvtepi32Pd
    rw [lane_ofLanes _ (by omega)]; exact cvtI2F_double _
  · unfold cvtIntDoubleAvx cvtepi32Pd256
    rw [lane_ofLanes _ (by omega)]; exact cvtI2F_double _

/-- uint_v to float_v gives the nearest float (the two roundings of the sum do no harm), uint_v to double_v is
exact. -/
theorem C55_from_uint (I : Isa) (avx2 : Bool) (x : M128) (y : M256) :
    (∀ i, i < 4 → RoundedInt f32 (val false (Model.lane 32 x i)) (Model.lane 32 (cvtUintFloat I x) i)) ∧
    (∀ i, i < 8 → RoundedInt f32 (val false (Model.lane 32 y i)) (Model.lane 32 (cvtUintFloatAvx avx2 y) i)) ∧
    (∀ i, i < 2 → ExactInt f64 (val false (Model.lane 32 x i)) (Model.lane 64 (cvtUintDouble x) i)) ∧
    (∀ i, i < 4 → ExactInt f64 (val false (Model.lane 32 x i)) (Model.lane 64 (cvtUintDoubleAvx x) i) ∧
      ExactInt f64 (val false (Model.lane 32 x i)) (Model.lane 64 (simdCastUintDouble x) i)) := by
  have hv : ∀ a : BitVec 32, val false a = (a.toNat : Int) := fun a => rfl
  refine ⟨fun i hi => ?_, fun i hi => ?_, fun i hi => ?_, fun i hi => ⟨?_, ?_⟩⟩
  · have e : Model.lane 32 (cvtUintFloat I x) i = u2fLane (Model.lane 32 x i) := by
      have h := (by omega : 32 * (i + 1) ≤ 128)
      unfold cvtUintFloat u2fLane cvtepi32PsN
      rw [lane_blendv I (w := 32) (v := 32) (c := 1) rfl (by decide) h _ _ _ (lane_cmpltEpi h _ _), lane_zero,
        lane_map1 _ _ h, lane_map2 _ _ _ h, lane_map2 _ _ _ h, lane_map1 _ _ h, lane_map1 _ _ h, lane_set1 _ h, lane_and,
        lane_and, lane_set1 _ h, lane_set1 _ h]
      simp only [decide_eq_true_eq, BitVec.toInt_zero]
    rw [e, hv]; exact u2f_spec _
  · have e : Model.lane 32 (cvtUintFloatAvx avx2 y) i = u2fLane (Model.lane 32 y i) := by
      have h := (by omega : 32 * (i + 1) ≤ 256)
      unfold cvtUintFloatAvx u2fLane cvtepi32PsN
      have hm : Model.lane 32 (avx2op avx2 (cmpgtEpi 32) (cmpgtEpi 32) 0#256 y) i = _ :=
        lane_avx2op (k := 4) rfl (fun a b => laneMask (decide (b.toInt < a.toInt))) avx2 0#256 y hi
      rw [lane_blendvIntr _ _ _ h, hm, laneMask_msb (by decide), lane_zero,
        lane_map1 _ _ h, lane_map2 _ _ _ h, lane_map2 _ _ _ h, lane_map1 _ _ h, lane_map1 _ _ h, lane_set1 _ h, lane_and,
        lane_and, lane_set1 _ h, lane_set1 _ h]
      simp only [decide_eq_true_eq, BitVec.toInt_zero]
    rw [e, hv]; exact u2f_spec _
  · have e : Model.lane 64 (cvtUintDouble x) i = u2dLane (Model.lane 32 x i) := by
      unfold cvtUintDouble u2dLane cvtepi32Pd
      rw [lane_map2 _ _ _ (by omega), lane_ofLanes _ (by omega), lane_xor, lane_setmin (by omega), lane_set1 _ (by omega)]
      rfl
    rw [e, hv]; exact u2d_spec _
  · have e : Model.lane 64 (cvtUintDoubleAvx x) i = u2dLane (Model.lane 32 x i) := by
      unfold cvtUintDoubleAvx u2dLane cvtepi32Pd256
      rw [lane_map2 _ _ _ (by omega), lane_ofLanes _ (by omega), lane_xor, lane_set1 _ (by omega), lane_set1 _ (by omega)]
    rw [e, hv]; exact u2d_spec _
  · have e : Model.lane 64 (simdCastUintDouble x) i = u2dLane (Model.lane 32 x i) := by
      unfold simdCastUintDouble u2dLane cvtepi32Pd256
      rw [lane_map2 _ _ _ (by omega), lane_ofLanes _ (by omega), show Model.lane 32 (subEpi 32 x (set1 32 0x80000000#32)) i =
        _ from lane_map2 _ _ _ (by omega), lane_set1 _ (by omega), lane_set1 _ (by omega), sub_sign]
    rw [e, hv]; exact u2d_spec _

/-- short_v and ushort_v to float_v and double_v are exact. -/
theorem C55_from_short (I : Isa) (avx2 : Bool) (x : M128) :
    (∀ i, i < 4 → ExactInt f32 (val true (Model.lane 16 x i)) (Model.lane 32 (cvtShortFloat I x) i) ∧
      ExactInt f32 (val false (Model.lane 16 x i)) (Model.lane 32 (cvtUshortFloat I x) i)) ∧
    (∀ i, i < 8 → ExactInt f32 (val true (Model.lane 16 x i)) (Model.lane 32 (cvtShortFloatAvx avx2 x) i) ∧
      ExactInt f32 (val false (Model.lane 16 x i)) (Model.lane 32 (cvtUshortFloatAvx avx2 x) i)) ∧
    (∀ i, i < 2 → ExactInt f64 (val true (Model.lane 16 x i)) (Model.lane 64 (cvtShortDouble I x) i) ∧
      ExactInt f64 (val false (Model.lane 16 x i)) (Model.lane 64 (cvtUshortDouble I x) i)) ∧
    (∀ i, i < 4 → ExactInt f64 (val true (Model.lane 16 x i)) (Model.lane 64 (cvtShortDoubleAvx I x) i) ∧
      ExactInt f64 (val false (Model.lane 16 x i)) (Model.lane 64 (cvtUshortDoubleAvx I x) i)) := by
  have sx : ∀ {F : Fmt} {w : Nat} (h : FmtW F w) (a : BitVec 16),
      ExactInt F (val true a) (cvtI2F F w (a.signExtend 32)) := fun {F w} h a => by
    have e : (a.signExtend 32).toInt = a.toInt := BitVec.toInt_signExtend_of_le (by decide)
    have h1 := BitVec.le_toInt a
    have h2 := BitVec.toInt_lt (x := a)
    have := cvtI2F_small h (a.signExtend 32) (by rw [e]; simp only [Nat.reduceSub] at h1 h2; omega)
    rw [e] at this; exact this
  have zx : ∀ {F : Fmt} {w : Nat} (h : FmtW F w) (a : BitVec 16),
      ExactInt F (val false a) (cvtI2F F w (a.zeroExtend 32)) := fun {F w} h a => by
    have := a.isLt
    have e : (a.zeroExtend 32).toInt = a.toNat := by
      rw [BitVec.toInt_eq_toNat_cond, BitVec.toNat_setWidth]
      rw [if_pos (by omega)]; omega
    have := cvtI2F_small h (a.zeroExtend 32) (by rw [e]; omega)
    rw [e] at this; exact this
  refine ⟨fun i hi => ⟨?_, ?_⟩, fun i hi => ⟨?_, ?_⟩, fun i hi => ⟨?_, ?_⟩, fun i hi => ⟨?_, ?_⟩⟩
  · unfold cvtShortFloat cvtepi32PsN
    rw [lane_map1 _ _ (by omega), lane_convertShortInt _ _ hi]; exact sx .single _
  · unfold cvtUshortFloat cvtepi32PsN
    rw [lane_map1 _ _ (by omega), lane_convertUshortInt _ _ hi]; exact zx .single _
  · unfold cvtShortFloatAvx cvtepi32PsN
    rw [lane_map1 _ _ (by omega), (lane_cvtShortIntAvx _ _ hi).1]; exact sx .single _
  · unfold cvtUshortFloatAvx cvtepi32PsN
    rw [lane_map1 _ _ (by omega), (lane_cvtShortIntAvx _ _ hi).2]; exact zx .single _
  · unfold cvtShortDouble cvtepi32Pd
    rw [lane_ofLanes _ (by omega), lane_convertShortInt _ _ (by omega)]; exact sx .double _
  · unfold cvtUshortDouble cvtepi32Pd
    rw [lane_ofLanes _ (by omega), lane_convertUshortInt _ _ (by omega)]; exact zx .double _
  · unfold cvtShortDoubleAvx cvtepi32Pd256
    rw [lane_ofLanes _ (by omega), lane_convertShortInt _ _ hi]; exact sx .double _
  · unfold cvtUshortDoubleAvx cvtepi32Pd256
    rw [lane_ofLanes _ (by omega), lane_convertUshortInt _ _ hi]; exact zx .double _

/-- 2^32 - 128 is a tie and becomes 2^32; 4294967041 = 2^32 - 255 becomes 2^32 - 256. -/
example : u2fLane 0xffffff80#32 = 0x4f800000#32 ∧ u2fLane 0xffffff01#32 = 0x4f7fffff#32 ∧
    u2dLane 0xffffff01#32 = 0x41efffffe0200000#64 := by decide +kernel

/-! ### Float and double -/

/-- double_v to float_v: the nearest float, infinities and NaN included. -/
theorem C55_double_float (avx : Bool) (x0 x1 : M128) (y0 y1 : M256) :
    (∀ i, i < 2 → Reformatted f64 f32 (Model.lane 64 x0 i) (Model.lane 32 (cvtpdPs x0) i)) ∧
    (∀ i, i < 4 → Reformatted f64 f32 (Model.lane 64 y0 i) (Model.lane 32 (cvtpdPs256 y0) i)) ∧
    (∀ i, i < 4 → Reformatted f64 f32 (lane2 64 2 x0 x1 i) (Model.lane 32 (cvtDoubleFloat2 avx x0 x1) i)) ∧
    (∀ i, i < 8 → Reformatted f64 f32 (lane2 64 4 y0 y1 i) (Model.lane 32 (simdCastDoubleFloat2 y0 y1) i)) := by
  have l2 : ∀ (x : M128) i, i < 2 → Model.lane 32 (cvtpdPs x) i = cvtF2F f64 f32 32 (Model.lane 64 x i) :=
    fun x i hi => by unfold cvtpdPs; rw [lane_ofLanes _ (by omega), if_pos hi]
  have l4 : ∀ (x : M256) i, i < 4 → Model.lane 32 (cvtpdPs256 x) i = cvtF2F f64 f32 32 (Model.lane 64 x i) :=
    fun x i hi => by unfold cvtpdPs256; rw [lane_ofLanes _ (by omega)]
  refine ⟨fun i hi => ?_, fun i hi => ?_, fun i hi => ?_, fun i hi => ?_⟩
  · rw [l2 _ _ hi]; exact cvtF2F_spec .single _
  · rw [l4 _ _ hi]; exact cvtF2F_spec .single _
  · unfold cvtDoubleFloat2 lane2
    cases avx
    · rw [if_neg Bool.false_ne_true, lane_movelh32 _ _ hi]
      by_cases h : i < 2
      · rw [if_pos h, if_pos h, l2 _ _ h]; exact cvtF2F_spec .single _
      · rw [if_neg h, if_neg h, l2 _ _ (by omega)]; exact cvtF2F_spec .single _
    · rw [if_pos rfl, l4 _ _ hi, concat128_64 _ _ hi]; exact cvtF2F_spec .single _
  · unfold simdCastDoubleFloat2 lane2
    rw [concat128_32 _ _ hi]
    by_cases h : i < 4
    · rw [if_pos h, if_pos h, l4 _ _ h]; exact cvtF2F_spec .single _
    · rw [if_neg h, if_neg h, l4 _ _ (by omega)]; exact cvtF2F_spec .single _

/-- float_v to double_v: the same number, infinities and NaN included. -/
theorem C55_float_double (x : M128) :
    (∀ i, i < 2 → Reformatted f32 f64 (Model.lane 32 x i) (Model.lane 64 (cvtpsPd x) i) ∧
      (isFinite f32 (Model.lane 32 x i) = true → isFinite f64 (Model.lane 64 (cvtpsPd x) i) = true ∧
        fval f64 (Model.lane 64 (cvtpsPd x) i) * 2 ^ oneExp f32 = fval f32 (Model.lane 32 x i) * 2 ^ oneExp f64)) ∧
    (∀ i, i < 4 → Reformatted f32 f64 (Model.lane 32 x i) (Model.lane 64 (cvtpsPd256 x) i) ∧
      (isFinite f32 (Model.lane 32 x i) = true → isFinite f64 (Model.lane 64 (cvtpsPd256 x) i) = true ∧
        fval f64 (Model.lane 64 (cvtpsPd256 x) i) * 2 ^ oneExp f32 =
          fval f32 (Model.lane 32 x i) * 2 ^ oneExp f64)) := by
  refine ⟨fun i hi => ?_, fun i hi => ?_⟩
  · unfold cvtpsPd
    rw [lane_ofLanes _ (by omega)]
    exact ⟨cvtF2F_spec .double _, cvtF2F_exact⟩
  · unfold cvtpsPd256
    rw [lane_ofLanes _ (by omega)]
    exact ⟨cvtF2F_spec .double _, cvtF2F_exact⟩

/-- 0.1 rounds up, 1e39 becomes infinity; a small float becomes a normal double. -/
example : cvtF2F f64 f32 32 0x3fb999999999999a#64 = 0x3dcccccd#32 ∧
    cvtF2F f64 f32 32 0x48078287f49c4a1d#64 = 0x7f800000#32 ∧
    cvtF2F f32 f64 64 0x00000001#32 = 0x36a0000000000000#64 ∧
    isNaN f32 (cvtF2F f64 f32 32 0x7ff0000000000001#64) = true := by decide +kernel

/-! ### C52: integer conversions of AVX -/

/-- int_v and uint_v to short_v and ushort_v with AVX (constructor and `simd_cast` of two vectors): the
`static_cast`. -/
theorem C52_avx_narrow (avx2 sgn sgn' : Bool) (x0 x1 : M256) :
    (∀ i, i < 8 → val sgn' (Model.lane 16 (cvtIntShortAvx avx2 x0) i) = cast16 sgn' (val sgn (Model.lane 32 x0 i)) ∧
      val sgn' (Model.lane 16 (cvtIntUshortAvx x0) i) = cast16 sgn' (val sgn (Model.lane 32 x0 i))) ∧
    (∃ r, simdCastIntShort2 x0 x1 = some r ∧
      ∀ i, i < 16 → val sgn' (Model.lane 16 r i) = cast16 sgn' (val sgn (lane2 32 8 x0 x1 i))) ∧
    (∃ r, simdCastIntUshort2 x0 x1 = some r ∧
      ∀ i, i < 16 → val sgn' (Model.lane 16 r i) = cast16 sgn' (val sgn (lane2 32 8 x0 x1 i))) := by
  have key : ∀ b : BitVec 32, val sgn' (b.setWidth 16) = cast16 sgn' (val sgn b) := fun b => by
    have := b.isLt
    unfold val cast16
    rw [BitVec.toInt_eq_toNat_cond, BitVec.toInt_eq_toNat_cond, BitVec.toNat_setWidth]
    cases sgn <;> cases sgn' <;> simp only [Bool.false_eq_true, if_false, if_true] <;> (repeat' split) <;> omega
  refine ⟨fun i hi => ⟨?_, ?_⟩, ?_, ?_⟩
  · rw [lane_cvtIntShortAvx _ _ hi]; exact key _
  · rw [lane_cvtIntUshortAvx _ hi]; exact key _
  · obtain ⟨r, hr, hl⟩ := lane_simdCastIntShort2 x0 x1
    exact ⟨r, hr, fun i hi => by rw [hl i hi]; exact key _⟩
  · obtain ⟨r, hr, hl⟩ := lane_simdCastIntUshort2 x0 x1
    exact ⟨r, hr, fun i hi => by rw [hl i hi]; exact key _⟩

/-- short_v and ushort_v to int_v with AVX. -/
theorem C52_avx_widen (avx2 : Bool) (x : M128) {i : Nat} (hi : i < 8) :
    val true (Model.lane 32 (cvtShortIntAvx avx2 x) i) = val true (Model.lane 16 x i) ∧
    val true (Model.lane 32 (cvtUshortIntAvx avx2 x) i) = val false (Model.lane 16 x i) := by
  rw [(lane_cvtShortIntAvx avx2 x hi).1, (lane_cvtShortIntAvx avx2 x hi).2]
  generalize Model.lane 16 x i = a
  have := a.isLt
  constructor
  · simp [val, BitVec.toInt_signExtend_of_le]
  · simp only [val, if_true, Bool.false_eq_true, if_false]
    rw [BitVec.toInt_eq_toNat_cond, BitVec.toNat_setWidth]
    rw [if_pos (by omega)]; omega

example : val true (Model.lane 16 (cvtIntShortAvx true (set1 32 0xfffffff9#32)) 6) = -7 := by
  rw [((C52_avx_narrow true true true _ 0).1 6 (by decide)).1, lane_set1 _ (by decide)]
  decide

end Vc.Prop
