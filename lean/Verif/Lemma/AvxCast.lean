import Verif.Model.AvxCast
import Verif.Spec.IntCast
import Verif.Lemma.FloatCvt2
import Verif.Lemma.AvxMask

/-!
Lanes of the integer casts of AVX.
-/

namespace Vc.Lemma

open Vc.Model Vc.Spec

/-- Entry `z` of the result, as a bit pattern. -/
theorem val_ofInt {w : Nat} (hw : w = 16 ∨ w = 32) (sgn : Bool) (z : Int) :
    val sgn (BitVec.ofInt w z) = castInt w sgn z := by
  rcases hw with rfl | rfl <;> cases sgn <;>
    simp only [val, castInt, Bool.false_eq_true, if_false, if_true, BitVec.toInt_ofInt, BitVec.toNat_ofInt,
      Int.bmod, Nat.reducePow, Nat.reduceSub, Int.reducePow] <;> (try split) <;> omega

theorem ofInt_val_self {w : Nat} (ss : Bool) (a : BitVec w) : BitVec.ofInt w (val ss a) = a := by
  cases ss <;> simp [val]

theorem widen_s (a : BitVec 16) : a.signExtend 32 = BitVec.ofInt 32 (val true a) := by
  simp [val, BitVec.signExtend]

theorem widen_u (a : BitVec 16) : a.zeroExtend 32 = BitVec.ofInt 32 (val false a) := by
  apply BitVec.eq_of_toNat_eq
  simp [val]

theorem narrow_val (ss : Bool) (a : BitVec 32) : a.setWidth 16 = BitVec.ofInt 16 (val ss a) := by
  apply BitVec.eq_of_toNat_eq
  have := a.isLt
  cases ss
  · simp [val]
  · rw [BitVec.toNat_setWidth, BitVec.toNat_ofInt, val, if_pos rfl, BitVec.toInt_eq_toNat_cond]
    split <;> omega

theorem lane_zeroExtend_lo {w c : Nat} (hc : w * c = 128) (ext : Option M128) (x : M128) {i : Nat} (hi : i < c) :
    Model.lane w (zeroExtend ext x) i = Model.lane w x i := by
  unfold zeroExtend
  rw [lane_concat128 hc _ _ (by omega), if_pos hi]

theorem lane_castTo256_lo {w c : Nat} (hc : w * c = 128) (u : M128) (x : M128) {i : Nat} (hi : i < c) :
    Model.lane w (castTo256 u x) i = Model.lane w x i := by
  unfold castTo256
  rw [lane_concat128 hc _ _ (by omega), if_pos hi]

theorem lane_zeroExtend_hi {w c : Nat} (hc : w * c = 128) (x : M128) {i : Nat} (h1 : c ≤ i) (hi : i < 2 * c) :
    Model.lane w (zeroExtend none x) i = 0#w := by
  unfold zeroExtend
  rw [lane_concat128 hc _ _ hi, if_neg (by omega)]
  exact lane_zero _

theorem lane_cvt16_256 (x : M128) {i : Nat} (hi : i < 8) :
    Model.lane 32 (cvtepi16epi32Intr256 x) i = BitVec.ofInt 32 (val true (Model.lane 16 x i)) ∧
    Model.lane 32 (cvtepu16epi32Intr256 x) i = BitVec.ofInt 32 (val false (Model.lane 16 x i)) := by
  unfold cvtepi16epi32Intr256 cvtepu16epi32Intr256
  rw [lane_ofLanes _ (by omega), lane_ofLanes _ (by omega)]
  exact ⟨widen_s _, widen_u _⟩

end Vc.Lemma
