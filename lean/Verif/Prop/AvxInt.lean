import Verif.Model.AvxInt
import Verif.Lemma.Avx
import Verif.Lemma.AvxShuffle
import Verif.Prop.SseInt

/-!
# C34, C35, C53: comparisons, minimum, maximum, products, minus and absolute value of the AVX vectors

Written as the theorems for the SSE vectors in `Verif.Prop.SseInt`, for 256 bits.
-/

namespace Vc.Prop

open Vc.Model Vc.Lemma

private theorem boolLane_eq (w : Nat) (b : Bool) : Spec.boolLane w b = laneMask b := by cases b <;> rfl

theorem IntWidth.halves {w i : Nat} (hw : IntWidth w) (hi : w * (i + 1) ≤ 256) :
    ∃ k, w * k = 128 ∧ i < 2 * k := by
  rcases hw with rfl | rfl
  · exact ⟨8, rfl, by omega⟩
  · exact ⟨4, rfl, by omega⟩

private theorem lane_aNot {w i : Nat} (hi : w * (i + 1) ≤ 256) (a : M256) : lane w (aNot a) i = ~~~lane w a i := by
  unfold aNot andnot
  rw [lane_and, lane_not _ hi, lane_allOnes hi]
  simp

private theorem lane_aCmpgt (avx2 : Bool) {w i : Nat} (hw : IntWidth w) (hi : w * (i + 1) ≤ 256) (a b : M256) :
    lane w (aCmpgt avx2 w a b) i = laneMask (decide ((lane w b i).toInt < (lane w a i).toInt)) := by
  obtain ⟨k, hk, hi'⟩ := hw.halves hi
  exact lane_avx2op hk (fun a b => laneMask (decide (b.toInt < a.toInt))) avx2 a b hi'

private theorem lane_flip {w i : Nat} (hi : w * (i + 1) ≤ 256) (a : M256) :
    lane w (a ^^^ setmin256 w) i = lane w a i ^^^ signBit w := by
  rw [lane_xor, setmin256, lane_set1 _ hi]

private theorem lane_aCmpgtU (avx2 xop : Bool) {w i : Nat} (hw : IntWidth w) (hi : w * (i + 1) ≤ 256) (a b : M256) :
    lane w (aCmpgtU avx2 xop w a b) i = laneMask (decide ((lane w b i).toNat < (lane w a i).toNat)) := by
  unfold aCmpgtU
  cases xop
  · rw [if_neg Bool.false_ne_true, lane_aCmpgt avx2 hw hi, lane_flip hi, lane_flip hi]
    congr 1
    have hp : 0 < w := by rcases hw with rfl | rfl <;> decide
    rw [toInt_xor_signBit hp, toInt_xor_signBit hp]
    exact decide_eq_decide.mpr (by omega)
  · rw [if_pos rfl]
    obtain ⟨k, hk, hi'⟩ := hw.halves hi
    exact lane_split2 hk (fun a b i h => lane_map2 _ a b (lane_room hk h)) a b hi'

private theorem lane_aCmpltU (avx2 xop : Bool) {w i : Nat} (hw : IntWidth w) (hi : w * (i + 1) ≤ 256) (a b : M256) :
    lane w (aCmpltU avx2 xop w a b) i = laneMask (decide ((lane w a i).toNat < (lane w b i).toNat)) := by
  unfold aCmpltU
  cases xop
  · rw [if_neg Bool.false_ne_true, aCmplt, lane_aCmpgt avx2 hw hi, lane_flip hi, lane_flip hi]
    congr 1
    have hp : 0 < w := by rcases hw with rfl | rfl <;> decide
    rw [toInt_xor_signBit hp, toInt_xor_signBit hp]
    exact decide_eq_decide.mpr (by omega)
  · rw [if_pos rfl]
    obtain ⟨k, hk, hi'⟩ := hw.halves hi
    exact lane_split2 hk (fun a b i h => lane_map2 _ a b (lane_room hk h)) a b hi'

/-! ### C34 -/

theorem C34_avx_eq (avx2 : Bool) {w : Nat} (hw : IntWidth w) (sgn : Bool) (a b : M256) {i : Nat}
    (hi : w * (i + 1) ≤ 256) :
    lane w (aEq avx2 w a b) i =
      Spec.boolLane w (decide (Spec.val sgn (lane w a i) = Spec.val sgn (lane w b i))) := by
  obtain ⟨k, hk, hi'⟩ := hw.halves hi
  refine (lane_avx2op hk (fun a b => laneMask (decide (a = b))) avx2 a b hi').trans ?_
  rw [boolLane_eq]
  congr 1
  cases sgn
  · simp [Spec.val, Int.ofNat_inj, BitVec.toNat_inj]
  · simp [Spec.val, BitVec.toInt_inj]

theorem C34_avx_ne (avx2 : Bool) {w : Nat} (hw : IntWidth w) (sgn : Bool) (a b : M256) {i : Nat}
    (hi : w * (i + 1) ≤ 256) :
    lane w (aNe avx2 w a b) i =
      Spec.boolLane w (decide (Spec.val sgn (lane w a i) ≠ Spec.val sgn (lane w b i))) := by
  have h := C34_avx_eq avx2 hw sgn a b hi
  unfold aEq at h
  unfold aNe
  rw [lane_aNot hi, h, boolLane_eq, boolLane_eq, not_laneMask]
  simp

theorem C34_avx_gt (avx2 xop : Bool) {w : Nat} (hw : IntWidth w) (sgn : Bool) (a b : M256) {i : Nat}
    (hi : w * (i + 1) ≤ 256) :
    lane w (aGt avx2 xop sgn w a b) i =
      Spec.boolLane w (decide (Spec.val sgn (lane w a i) > Spec.val sgn (lane w b i))) := by
  rw [boolLane_eq]
  cases sgn
  · simp only [aGt, Spec.val, Bool.false_eq_true, if_false]
    rw [lane_aCmpgtU avx2 xop hw hi]
    simp
  · simp only [aGt, Spec.val, if_true]
    rw [lane_aCmpgt avx2 hw hi]

theorem C34_avx_lt (avx2 xop : Bool) {w : Nat} (hw : IntWidth w) (sgn : Bool) (a b : M256) {i : Nat}
    (hi : w * (i + 1) ≤ 256) :
    lane w (aLt avx2 xop sgn w a b) i =
      Spec.boolLane w (decide (Spec.val sgn (lane w a i) < Spec.val sgn (lane w b i))) := by
  rw [boolLane_eq]
  cases sgn
  · simp only [aLt, Spec.val, Bool.false_eq_true, if_false]
    rw [lane_aCmpltU avx2 xop hw hi]
    simp
  · simp only [aLt, Spec.val, if_true, aCmplt]
    rw [lane_aCmpgt avx2 hw hi]

theorem C34_avx_ge (avx2 xop : Bool) {w : Nat} (hw : IntWidth w) (sgn : Bool) (a b : M256) {i : Nat}
    (hi : w * (i + 1) ≤ 256) :
    lane w (aGe avx2 xop sgn w a b) i =
      Spec.boolLane w (decide (Spec.val sgn (lane w a i) ≥ Spec.val sgn (lane w b i))) := by
  unfold aGe
  rw [lane_aNot hi, C34_avx_lt avx2 xop hw sgn a b hi, boolLane_eq, boolLane_eq, not_laneMask, ← decide_not]
  congr 1
  exact decide_eq_decide.mpr Int.not_lt

theorem C34_avx_le (avx2 xop : Bool) {w : Nat} (hw : IntWidth w) (sgn : Bool) (a b : M256) {i : Nat}
    (hi : w * (i + 1) ≤ 256) :
    lane w (aLe avx2 xop sgn w a b) i =
      Spec.boolLane w (decide (Spec.val sgn (lane w a i) ≤ Spec.val sgn (lane w b i))) := by
  unfold aLe
  rw [lane_aNot hi, C34_avx_gt avx2 xop hw sgn a b hi, boolLane_eq, boolLane_eq, not_laneMask, ← decide_not]
  congr 1
  exact decide_eq_decide.mpr Int.not_lt

theorem C34_avx_min {w : Nat} (sgn : Bool) (a b : M256) {i : Nat} (hi : w * (i + 1) ≤ 256) :
    Spec.val sgn (lane w (aMin sgn w a b) i) = min (Spec.val sgn (lane w a i)) (Spec.val sgn (lane w b i)) := by
  cases sgn
  · simp only [aMin, Bool.false_eq_true, if_false, minEpu, Spec.val]
    rw [lane_map2 _ _ _ hi]
    split <;> omega
  · simp only [aMin, if_true, minEpi, Spec.val]
    rw [lane_map2 _ _ _ hi]
    split <;> omega

theorem C34_avx_max {w : Nat} (sgn : Bool) (a b : M256) {i : Nat} (hi : w * (i + 1) ≤ 256) :
    Spec.val sgn (lane w (aMax sgn w a b) i) = max (Spec.val sgn (lane w a i)) (Spec.val sgn (lane w b i)) := by
  cases sgn
  · simp only [aMax, Bool.false_eq_true, if_false, maxEpu, Spec.val]
    rw [lane_map2 _ _ _ hi]
    split <;> omega
  · simp only [aMax, if_true, maxEpi, Spec.val]
    rw [lane_map2 _ _ _ hi]
    split <;> omega

/-- 0xffff is greater than 1 as an unsigned number and less as a signed one. -/
example (avx2 xop : Bool) :
    lane 16 (aGt avx2 xop false 16 (set1 16 0xffff#16) (set1 16 1#16)) 9 = BitVec.allOnes 16 ∧
    lane 16 (aGt avx2 xop true 16 (set1 16 0xffff#16) (set1 16 1#16)) 9 = 0#16 := by
  rw [C34_avx_gt avx2 xop (.inl rfl) false _ _ (by decide), C34_avx_gt avx2 xop (.inl rfl) true _ _ (by decide),
    lane_set1 _ (by decide), lane_set1 _ (by decide)]
  decide

/-! ### C35 -/

theorem C35_avx_mul (avx2 : Bool) {w : Nat} (hw : IntWidth w) (sgn : Bool) (a b : M256) {i : Nat}
    (hi : w * (i + 1) ≤ 256) :
    lane w (avxMul avx2 w a b) i = BitVec.ofInt w (Spec.val sgn (lane w a i) * Spec.val sgn (lane w b i)) := by
  obtain ⟨k, hk, hi'⟩ := hw.halves hi
  refine (lane_avx2op hk (fun a b => a * b) avx2 a b hi').trans ?_
  rw [BitVec.ofInt_mul]
  cases sgn <;> simp [Spec.val]

theorem C35_avx_add_sub (avx2 : Bool) {w : Nat} (hw : IntWidth w) (sgn : Bool) (a b : M256) {i : Nat}
    (hi : w * (i + 1) ≤ 256) :
    lane w (avxAdd avx2 w a b) i = BitVec.ofInt w (Spec.val sgn (lane w a i) + Spec.val sgn (lane w b i)) ∧
    lane w (avxSub avx2 w a b) i = BitVec.ofInt w (Spec.val sgn (lane w a i) - Spec.val sgn (lane w b i)) := by
  obtain ⟨k, hk, hi'⟩ := hw.halves hi
  have e : ∀ x : BitVec w, BitVec.ofInt w (Spec.val sgn x) = x := fun x => by cases sgn <;> simp [Spec.val]
  constructor
  · refine (lane_avx2op hk (fun a b => a + b) avx2 a b hi').trans ?_
    rw [BitVec.ofInt_add, e, e]
  · refine (lane_avx2op hk (fun a b => a - b) avx2 a b hi').trans ?_
    rw [Int.sub_eq_add_neg, BitVec.ofInt_add, e, BitVec.ofInt_neg, e, BitVec.sub_eq_add_neg]

example (avx2 : Bool) : lane 32 (avxMul avx2 32 (set1 32 0xffffffff#32) (set1 32 7#32)) 5 = BitVec.ofInt 32 (-7) := by
  rw [C35_avx_mul avx2 (.inr rfl) true _ _ (by decide), lane_set1 _ (by decide), lane_set1 _ (by decide)]
  decide

/-! ### C53 -/

theorem C53_avx_negate (avx2 : Bool) {w : Nat} (hw : IntWidth w) (a : M256) {i : Nat} (hi : w * (i + 1) ≤ 256) :
    ((lane w (aNeg avx2 w a) i).toNat + (lane w a i).toNat) % 2 ^ w = 0 ∧
    ((lane w a i).toInt ≠ -(2 ^ (w - 1) : Int) → (lane w (aNeg avx2 w a) i).toInt = -(lane w a i).toInt) := by
  obtain ⟨k, hk, hi'⟩ := hw.halves hi
  have e : lane w (aNeg avx2 w a) i = -lane w a i := by
    refine (lane_avx2op hk (fun x y => if y.toInt < 0 then -x else if y = 0#w then 0#w else x) avx2 a _ hi').trans ?_
    rw [lane_allOnes hi]
    have : (BitVec.allOnes w).toInt < 0 := by rcases hw with rfl | rfl <;> decide
    exact if_pos this
  rw [e]
  generalize lane w a i = x
  have hx := x.isLt
  rcases hw with rfl | rfl
  · refine ⟨by rw [BitVec.toNat_neg]; omega, fun h => ?_⟩
    rw [BitVec.toInt_neg]
    have h1 := BitVec.toInt_lt (x := x)
    have h2 := BitVec.le_toInt (x := x)
    apply Int.bmod_eq_of_le <;> simp at h h1 h2 ⊢ <;> omega
  · refine ⟨by rw [BitVec.toNat_neg]; omega, fun h => ?_⟩
    rw [BitVec.toInt_neg]
    have h1 := BitVec.toInt_lt (x := x)
    have h2 := BitVec.le_toInt (x := x)
    apply Int.bmod_eq_of_le <;> simp at h h1 h2 ⊢ <;> omega

/-- The absolute value as an unsigned number; the unsigned vectors stay as they are. -/
theorem C53_avx_abs (avx2 sgn : Bool) {w : Nat} (hw : IntWidth w) (a : M256) {i : Nat} (hi : w * (i + 1) ≤ 256) :
    (lane w (aAbs avx2 sgn w a) i).toNat = (Spec.val sgn (lane w a i)).natAbs := by
  cases sgn
  · simp [aAbs, Spec.val]
  · simp only [aAbs, if_true, Spec.val]
    obtain ⟨k, hk, hi'⟩ := hw.halves hi
    have e := lane_avx1 hk (fun x => if x.toInt < 0 then -x else x) avx2 a hi'
    have e : lane w (avx1 avx2 (absEpiIntr w) (absEpiIntr w) a) i =
      if (lane w a i).toInt < 0 then -lane w a i else lane w a i := e
    rw [e]
    generalize lane w a i = x
    have hx := x.isLt
    rcases hw with rfl | rfl <;>
    · simp only [BitVec.toInt_eq_toNat_cond]
      split <;> split <;> (try rw [BitVec.toNat_neg]) <;> omega

example (avx2 : Bool) : (lane 32 (aNeg avx2 32 (set1 32 5#32)) 6).toInt = -5 ∧
    (lane 32 (aAbs avx2 true 32 (set1 32 (-5#32))) 6).toNat = 5 := by
  refine ⟨?_, ?_⟩
  · rw [(C53_avx_negate avx2 (.inr rfl) _ (by decide)).2 (by rw [lane_set1 _ (by decide)]; decide),
      lane_set1 _ (by decide)]
    decide
  · rw [C53_avx_abs avx2 true (.inr rfl) _ (by decide), lane_set1 _ (by decide)]
    decide

end Vc.Prop
