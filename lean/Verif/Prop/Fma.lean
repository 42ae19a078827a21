import Verif.Lemma.Fma2
import Verif.Prop.SseInt
import Verif.Spec.Fma

/-!
C64: `fma(a, b, c)` is `a * b + c` without rounding between the multiplication and the addition.

The full statement is `FusedMulAdd` for all finite operands and `FmaSpecial` for all others.  The emulations (used
whenever the target has no FMA instructions, and by SSE even if it has FMA3) do not satisfy it.
-/

namespace Vc.Prop

open Vc.Model Vc.Spec Vc.Lemma

/-- What the emulation guarantees for one float. -/
theorem fma_float_lane (a b c : BitVec 32) : FmaSpecial f32 a b c (fmaLane32 a b c) ∧
    (isFinite f32 a = true → isFinite f32 b = true → isFinite f32 c = true →
      Faithful f32 (fmaExact f32 a b c) (2 ^ oneExp f32) (fmaLane32 a b c) ∧
      FusedUnlessMidway a b c (fmaLane32 a b c)) := by
  refine ⟨fmaLane32_special a b c, fun ha hb hc => ⟨fmaLane32_faithful ha hb hc, ?_⟩⟩
  obtain ⟨-, hn⟩ := wide_nearest ha hb hc
  exact ⟨wide a b c, hn, fun hm => scale_exact.mp (double_rounding hn (fmaLane32_nearest ha hb hc) hm)⟩

/-- `fma` of float vectors.  Infinities and NaN are handled as IEEE-754 prescribes, there is never a float between
the exact result and the returned one, and the returned one is the nearest unless the sum rounded to double
precision is inexact and exactly midway between two floats.
Missing: the fused result in that case (see `C64_float_violated`). -/
theorem C64_float_partial :
    (∀ (a b c : M128) i, i < 4 →
      FmaSpecial f32 (Model.lane 32 a i) (Model.lane 32 b i) (Model.lane 32 c i) (Model.lane 32 (sseFmaPs a b c) i) ∧
      (isFinite f32 (Model.lane 32 a i) = true → isFinite f32 (Model.lane 32 b i) = true →
        isFinite f32 (Model.lane 32 c i) = true →
        Faithful f32 (fmaExact f32 (Model.lane 32 a i) (Model.lane 32 b i) (Model.lane 32 c i)) (2 ^ oneExp f32)
          (Model.lane 32 (sseFmaPs a b c) i) ∧
        FusedUnlessMidway (Model.lane 32 a i) (Model.lane 32 b i) (Model.lane 32 c i)
          (Model.lane 32 (sseFmaPs a b c) i))) ∧
    (∀ (a b c : M256) i, i < 8 →
      FmaSpecial f32 (Model.lane 32 a i) (Model.lane 32 b i) (Model.lane 32 c i) (Model.lane 32 (avxFmaPs a b c) i) ∧
      (isFinite f32 (Model.lane 32 a i) = true → isFinite f32 (Model.lane 32 b i) = true →
        isFinite f32 (Model.lane 32 c i) = true →
        Faithful f32 (fmaExact f32 (Model.lane 32 a i) (Model.lane 32 b i) (Model.lane 32 c i)) (2 ^ oneExp f32)
          (Model.lane 32 (avxFmaPs a b c) i) ∧
        FusedUnlessMidway (Model.lane 32 a i) (Model.lane 32 b i) (Model.lane 32 c i)
          (Model.lane 32 (avxFmaPs a b c) i))) := by
  refine ⟨fun a b c i hi => ?_, fun a b c i hi => ?_⟩
  · rw [lane_sseFmaPs a b c hi]; exact fma_float_lane _ _ _
  · rw [lane_avxFmaPs a b c hi]; exact fma_float_lane _ _ _

/-- The operands `1 + 2^-23`, `1 - 2^-23`, `-1` have the result `-2^-46`, which rounding the product to float
would lose; all are finite, and the exact sum is a double, so the theorem says that the result is fused. -/
example : isFinite f32 (0x3f800001#32) = true ∧ isFinite f32 (0x3f7ffffe#32) = true ∧
    isFinite f32 (0xbf800000#32) = true ∧
    fval f64 (up 0xa8800000#32) = fmaExact f32 (0x3f800001#32) (0x3f7ffffe#32) (0xbf800000#32) * 2 ^ 776 ∧
    fmaLane32 0x3f800001#32 0x3f7ffffe#32 0xbf800000#32 = 0xa8800000#32 ∧
    fAdd f32 (fMul f32 0x3f800001#32 0x3f7ffffe#32) 0xbf800000#32 = 0#32 := by
  decide +kernel

/-- `(1 + 2^-12)² + 2^-80` is just above the middle of `1 + 2^-11` and `1 + 2^-11 + 2^-23`, but the sum in double
precision is that middle and is rounded down. -/
theorem C64_float_violated : ∃ a b c : BitVec 32,
    isFinite f32 a = true ∧ isFinite f32 b = true ∧ isFinite f32 c = true ∧
    ¬FusedMulAdd f32 a b c (Model.lane 32 (sseFmaPs (set1 32 a) (set1 32 b) (set1 32 c)) 0) ∧
    ¬FusedMulAdd f32 a b c (Model.lane 32 (avxFmaPs (set1 32 a) (set1 32 b) (set1 32 c)) 0) := by
  refine ⟨0x3f800800#32, 0x3f800800#32, 0x17800000#32, by decide +kernel, by decide +kernel, by decide +kernel, ?_⟩
  have key : ¬FusedMulAdd f32 0x3f800800#32 0x3f800800#32 0x17800000#32
      (fmaLane32 0x3f800800#32 0x3f800800#32 0x17800000#32) := by
    have e : fmaLane32 0x3f800800#32 0x3f800800#32 0x17800000#32 = 0x3f801000#32 := by decide +kernel
    rw [e]
    intro h
    have := (h.2 0x3f801001#32 (by decide +kernel)).1
    revert this
    decide +kernel
  rw [lane_sseFmaPs _ _ _ (by decide), lane_avxFmaPs _ _ _ (by decide)]
  simp only [lane_set1 (n := 128) (w := 32) _ (i := 0) (by decide), lane_set1 (n := 256) (w := 32) _ (i := 0) (by decide)]
  exact ⟨key, key⟩

/-- `fma` of double vectors, if the low halves of the mantissas of both factors are zero and the product is a
double: the fused result.  A NaN operand gives NaN.
Missing: all other operands (see `C64_double_violated`). -/
theorem C64_double_partial :
    (∀ (I : Isa) (a b c : M128) i, i < 2 →
      (isNaN f64 (Model.lane 64 a i) = true ∨ isNaN f64 (Model.lane 64 b i) = true ∨
        isNaN f64 (Model.lane 64 c i) = true → isNaN f64 (Model.lane 64 (sseFmaPd I a b c) i) = true) ∧
      ∀ p : BitVec 64, (Model.lane 64 a i).toNat % 2 ^ 27 = 0 → (Model.lane 64 b i).toNat % 2 ^ 27 = 0 →
        isFinite f64 (Model.lane 64 a i) = true → isFinite f64 (Model.lane 64 b i) = true →
        isFinite f64 (Model.lane 64 c i) = true → isFinite f64 p = true →
        fval f64 p * 2 ^ oneExp f64 = fval f64 (Model.lane 64 a i) * fval f64 (Model.lane 64 b i) →
        FusedMulAdd f64 (Model.lane 64 a i) (Model.lane 64 b i) (Model.lane 64 c i)
          (Model.lane 64 (sseFmaPd I a b c) i)) ∧
    (∀ (a b c : M256) i, i < 4 →
      (isNaN f64 (Model.lane 64 a i) = true ∨ isNaN f64 (Model.lane 64 b i) = true ∨
        isNaN f64 (Model.lane 64 c i) = true → isNaN f64 (Model.lane 64 (avxFmaPd a b c) i) = true) ∧
      ∀ p : BitVec 64, (Model.lane 64 a i).toNat % 2 ^ 27 = 0 → (Model.lane 64 b i).toNat % 2 ^ 27 = 0 →
        isFinite f64 (Model.lane 64 a i) = true → isFinite f64 (Model.lane 64 b i) = true →
        isFinite f64 (Model.lane 64 c i) = true → isFinite f64 p = true →
        fval f64 p * 2 ^ oneExp f64 = fval f64 (Model.lane 64 a i) * fval f64 (Model.lane 64 b i) →
        FusedMulAdd f64 (Model.lane 64 a i) (Model.lane 64 b i) (Model.lane 64 c i)
          (Model.lane 64 (avxFmaPd a b c) i)) := by
  refine ⟨fun I a b c i hi => ?_, fun a b c i hi => ?_⟩
  · rw [lane_sseFmaPd I a b c hi]
    exact ⟨fmaLane64_nan, fun p ha hb fa fb fc fp hp => fmaLane64_fused ha hb fa fb fc fp hp⟩
  · rw [lane_avxFmaPd a b c hi]
    exact ⟨fmaLane64_nan, fun p ha hb fa fb fc fp hp => fmaLane64_fused ha hb fa fb fc fp hp⟩

/-- `(1 + 2^-25) * (1 - 2^-24) + (-1)` meets the hypotheses. -/
example : (0x3ff0000008000000#64).toNat % 2 ^ 27 = 0 ∧ (0x3feffffff0000000#64).toNat % 2 ^ 27 = 0 ∧
    isFinite f64 (0x3ff0000008000000#64) = true ∧ isFinite f64 (0x3feffffff0000000#64) = true ∧
    isFinite f64 (0xbff0000000000000#64) = true ∧
    isFinite f64 (fMul f64 0x3ff0000008000000#64 0x3feffffff0000000#64) = true ∧
    fval f64 (fMul f64 0x3ff0000008000000#64 0x3feffffff0000000#64) * 2 ^ oneExp f64 =
      fval f64 (0x3ff0000008000000#64) * fval f64 (0x3feffffff0000000#64) := by
  decide +kernel

/-- `(1 + 2^-52)² - (1 + 2^-51)` is `2^-104`; the emulation returns zero.  And `inf * 1 + 0` is NaN in the
emulation. -/
theorem C64_double_violated :
    (∃ a b c : BitVec 64, isFinite f64 a = true ∧ isFinite f64 b = true ∧ isFinite f64 c = true ∧
      (∀ I, ¬FusedMulAdd f64 a b c (Model.lane 64 (sseFmaPd I (set1 64 a) (set1 64 b) (set1 64 c)) 0)) ∧
      ¬FusedMulAdd f64 a b c (Model.lane 64 (avxFmaPd (set1 64 a) (set1 64 b) (set1 64 c)) 0)) ∧
    (∃ a b c : BitVec 64,
      (∀ I, ¬FmaSpecial f64 a b c (Model.lane 64 (sseFmaPd I (set1 64 a) (set1 64 b) (set1 64 c)) 0)) ∧
      ¬FmaSpecial f64 a b c (Model.lane 64 (avxFmaPd (set1 64 a) (set1 64 b) (set1 64 c)) 0)) := by
  refine ⟨⟨0x3ff0000000000001#64, 0x3ff0000000000001#64, 0xbff0000000000002#64, by decide +kernel,
    by decide +kernel, by decide +kernel, ?_⟩, ⟨0x7ff0000000000000#64, 0x3ff0000000000000#64, 0#64, ?_⟩⟩
  · have key : ¬FusedMulAdd f64 0x3ff0000000000001#64 0x3ff0000000000001#64 0xbff0000000000002#64
        (fmaLane64 0x3ff0000000000001#64 0x3ff0000000000001#64 0xbff0000000000002#64) := by
      have e : fmaLane64 0x3ff0000000000001#64 0x3ff0000000000001#64 0xbff0000000000002#64 = 0#64 := by
        decide +kernel
      rw [e]
      intro h
      have := (h.2 0x3970000000000000#64 (by decide +kernel)).1
      revert this
      decide +kernel
    refine ⟨fun I => ?_, ?_⟩
    · rw [lane_sseFmaPd I _ _ _ (by decide)]
      simp only [lane_set1 (n := 128) (w := 64) _ (i := 0) (by decide)]
      exact key
    · rw [lane_avxFmaPd _ _ _ (by decide)]
      simp only [lane_set1 (n := 256) (w := 64) _ (i := 0) (by decide)]
      exact key
  · have key : ¬FmaSpecial f64 0x7ff0000000000000#64 0x3ff0000000000000#64 0#64
        (fmaLane64 0x7ff0000000000000#64 0x3ff0000000000000#64 0#64) := by
      intro h
      have := ((h.2.2.1 (by decide +kernel) (by decide +kernel) (by decide +kernel) (by decide +kernel)
        (.inl (by decide +kernel))).1 (by decide +kernel)).1
      revert this
      decide +kernel
    refine ⟨fun I => ?_, ?_⟩
    · rw [lane_sseFmaPd I _ _ _ (by decide)]
      simp only [lane_set1 (n := 128) (w := 64) _ (i := 0) (by decide)]
      exact key
    · rw [lane_avxFmaPd _ _ _ (by decide)]
      simp only [lane_set1 (n := 256) (w := 64) _ (i := 0) (by decide)]
      exact key

/-- `fma` of integer vectors is the product plus the third operand modulo `2 ^ w`. -/
theorem C64_int (sgn : Bool) {w : Nat} (hw : IntWidth w) :
    (∀ (I : Isa) (a b c : M128) i, w * (i + 1) ≤ 128 → Model.lane w (sseFmaInt I w a b c) i =
      BitVec.ofInt w (val sgn (Model.lane w a i) * val sgn (Model.lane w b i) + val sgn (Model.lane w c i))) ∧
    (∀ (avx2 : Bool) (a b c : M256) i, w * (i + 1) ≤ 256 → Model.lane w (avxFmaInt avx2 w a b c) i =
      BitVec.ofInt w (val sgn (Model.lane w a i) * val sgn (Model.lane w b i) + val sgn (Model.lane w c i))) := by
  have key : ∀ x y z : BitVec w, x * y + z = BitVec.ofInt w (val sgn x * val sgn y + val sgn z) := by
    intro x y z
    rw [BitVec.ofInt_add, BitVec.ofInt_mul, ofInt_val, ofInt_val, ofInt_val]
  refine ⟨fun I a b c i hi => ?_, fun avx2 a b c i hi => ?_⟩
  · unfold sseFmaInt addEpi
    rw [lane_map2 _ _ _ hi, lane_vMul I hw hi]
    exact key _ _ _
  · have hk : ∃ k, w * k = 128 ∧ i < 2 * k := by
      rcases hw with rfl | rfl
      · exact ⟨8, rfl, by omega⟩
      · exact ⟨4, rfl, by omega⟩
    obtain ⟨k, hk, hik⟩ := hk
    have e1 : ∀ x y : M256, Model.lane w (avxAdd avx2 w x y) i = Model.lane w x i + Model.lane w y i :=
      fun x y => lane_avx2op hk (fun a b => a + b) avx2 x y hik
    have e2 : ∀ x y : M256, Model.lane w (avxMul avx2 w x y) i = Model.lane w x i * Model.lane w y i :=
      fun x y => lane_avx2op hk (fun a b => a * b) avx2 x y hik
    unfold avxFmaInt
    rw [e1, e2]
    exact key _ _ _

/-- `-3 * 5 + 7`. -/
example : Model.lane 32 (sseFmaInt sse2 32 (set1 32 (-3)) (set1 32 5#32) (set1 32 7#32)) 2 = -8#32 := by
  rw [(C64_int true (.inr rfl)).1 _ _ _ _ 2 (by decide)]
  simp only [lane_set1 (n := 128) (w := 32) _ (i := 2) (by decide)]
  decide

end Vc.Prop
