import Verif.Spec.Recip
import Verif.Lemma.Recip

/-!
C84: square root, reciprocal and reciprocal square root.
-/

namespace Vc.Prop
open Vc.Model Vc.Spec Vc.Lemma

theorem sqrt_ok {F : Fmt} {w : Nat} (h : FmtW F w) (x : BitVec w) : IsRoot F x (fSqrt F x) := by
  refine ⟨fSqrt_nan, fun h0 hs => fSqrt_neg h hs h0, fSqrt_zero h, fSqrt_inf, fun hf h0 => ⟨?_, fun y hy => fSqrt_nearest h hf h0 hy⟩⟩
  refine (fSqrt_rel h (k := ((2 ^ (F.e - 2) : Nat) : Int) + 1) (by cases h <;> decide) hf h0 ?_).1
  rw [add_sub_cancel_right, zpow_natCast, Real.sqrt_le_left (by positivity), ← pow_mul]
  refine le_trans (finite_lt h hf).le (le_of_eq ?_)
  congr 1; cases h <;> decide

theorem recip_ok {F : Fmt} {w : Nat} (h : FmtW F w) (x : BitVec w) : IsReciprocal F x (sReciprocal F x) := by
  refine ⟨recip_nan h, fun h0 => (recip_zero h h0).1, fun hi => (recip_inf h hi).1, fun hn => ?_, fun hf h0 y hy => recip_real h hf h0 hy⟩
  by_cases h0 : fmag F x = 0
  · have := recip_zero h h0
    exact ⟨(isInf_not_nan this.1).1, this.2⟩
  · cases hi : isInf F x with
    | true =>
      have := recip_inf h hi
      refine ⟨?_, this.2⟩
      unfold isNaN; rw [this.1]; exact decide_eq_false (by omega)
    | false =>
      have hf : isFinite F x = true := by
        unfold isNaN at hn; unfold isInf at hi; unfold isFinite
        have := of_decide_eq_false hn; have := of_decide_eq_false hi
        exact decide_eq_true (by omega)
      have hv : fval F x ≠ 0 := fun c => h0 ((fval_eq_zero x).mp c)
      exact ⟨(recip_nearest h hf hv).1, recip_sign h hf hv⟩

theorem rsqrt_ok {F : Fmt} {w : Nat} (h : FmtW F w) (x : BitVec w) : IsRecipRoot F 2.001 x (sRsqrt F x) := by
  have e : sRsqrt F x = sReciprocal F (fSqrt F x) := rfl
  refine ⟨fun hn => ?_, fun h0 hs => ?_, fun h0 => ?_, fun hi hs => ?_, fun hf h0 => ?_⟩
  · rw [e]; exact recip_nan h (fSqrt_nan hn)
  · rw [e]; exact recip_nan h (fSqrt_neg h hs h0)
  · rw [e, fSqrt_zero h h0]; exact recip_zero h h0
  · rw [e, fSqrt_inf hi hs]
    have := recip_inf h hi
    exact ⟨this.1, this.2.trans hs⟩
  · obtain ⟨f, r⟩ := rsqrt_rel h hf h0
    refine within_of_rel (c := 2.001) (d := 0) f (by norm_num) (by norm_num) ?_ (by norm_num)
    refine le_trans r ?_
    split <;> simp

/-- `sqrt`: every entry of the result is the correctly rounded square root of that entry, for `float_v` and `double_v` of SSE
(`n = 128`) and AVX (`n = 256`). -/
theorem C84_sqrt {n i : Nat} (x : BitVec n) :
    (32 * (i + 1) ≤ n → IsRoot f32 (lane 32 x i) (lane 32 (vSqrt f32 32 x) i)) ∧
    (64 * (i + 1) ≤ n → IsRoot f64 (lane 64 x i) (lane 64 (vSqrt f64 64 x) i)) := by
  constructor <;> intro hi <;> unfold vSqrt <;> rw [lane_map1 _ _ hi]
  · exact sqrt_ok .single _
  · exact sqrt_ok .double _

/-- `reciprocal` of `double_v`: every entry is the correctly rounded reciprocal. -/
theorem C84_reciprocal {n i : Nat} (hi : 64 * (i + 1) ≤ n) (x : BitVec n) :
    IsReciprocal f64 (lane 64 x i) (lane 64 (vReciprocal x) i) := by
  unfold vReciprocal
  rw [lane_map2 _ _ _ hi, lane_set1 _ hi]
  exact recip_ok .double _

/-- `rsqrt` of `double_v`: every entry is within 2.001 units in the last place of the reciprocal square root. -/
theorem C84_rsqrt {n i : Nat} (hi : 64 * (i + 1) ≤ n) (x : BitVec n) :
    IsRecipRoot f64 2.001 (lane 64 x i) (lane 64 (vRsqrt x) i) := by
  unfold vRsqrt
  rw [lane_map2 _ _ _ hi, lane_set1 _ hi, vSqrt, lane_map1 _ _ hi]
  exact rsqrt_ok .double _

/-- The `Scalar` implementation, `float` and `double`. -/
theorem C84_scalar (x : BitVec 32) (y : BitVec 64) :
    IsReciprocal f32 x (sReciprocal f32 x) ∧ IsReciprocal f64 y (sReciprocal f64 y) ∧
    IsRecipRoot f32 2.001 x (sRsqrt f32 x) ∧ IsRecipRoot f64 2.001 y (sRsqrt f64 y) :=
  ⟨recip_ok .single x, recip_ok .double y, rsqrt_ok .single x, rsqrt_ok .double y⟩

/-! Concrete cases: 1/3, 1/√4, the reciprocal of the smallest denormal number is infinite. -/
example : sReciprocal f64 0x4008000000000000#64 = 0x3fd5555555555555#64 ∧ sRsqrt f64 0x4010000000000000#64 = 0x3fe0000000000000#64 ∧
    sReciprocal f64 0x8000000000000001#64 = 0xfff0000000000000#64 ∧ fSqrt f64 0x4000000000000000#64 = 0x3ff6a09e667f3bcd#64 ∧
    sRsqrt f64 0x8000000000000000#64 = 0xfff0000000000000#64 := by decide +kernel
example : isFinite f64 0x4008000000000000#64 = true ∧ rval f64 0x4008000000000000#64 = 3 :=
  ⟨by decide, rval_lit false 1024 (2 ^ 51) (-51) (by norm_num) (by decide) (by decide) (by decide) (by decide) (by norm_num [f64])⟩

end Vc.Prop
