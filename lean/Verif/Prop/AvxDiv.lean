import Verif.Prop.SseInt
import Verif.Lemma.AvxDiv

/-!
C39, continued: division and remainder of the AVX2 integer vectors, for every lane and all operands.  In
contrast to SSE there is no exception: `INT_MIN / -1` and `-32768 / -1` wrap around, nothing traps.
-/

namespace Vc.Prop
open Vc.Model Vc.Lemma

/-- Quotient of the AVX2 integer vectors. -/
theorem C39_avx_div (avx2 : Bool) (B : CmpBuild) (sgn : Bool) {w : Nat} (hw : IntWidth w) (a b : M256) {i : Nat}
    (hi : w * (i + 1) ≤ 256) (hb : lane w b i ≠ 0#w) :
    lane w (avxDiv avx2 B sgn w a b) i =
      BitVec.ofInt w ((Spec.val sgn (lane w a i)).tdiv (Spec.val sgn (lane w b i))) := by
  have hb0 : Spec.val sgn (lane w b i) ≠ 0 := val_ne_zero hb
  rcases hw with rfl | rfl <;> cases sgn <;> unfold avxDiv <;>
    simp only [Spec.val, Bool.false_eq_true, if_false, if_true, Nat.reduceEqDiff] at hb0 ⊢
  · rw [lane_avxDivUshort _ _ _ _ (by omega) (by omega), ← BitVec.ofInt_natCast]
    rfl
  · rw [lane_avxDivShort _ _ _ (by omega) hb0]
  · rw [lane_avxDivUint _ _ _ (by omega) (by omega), ← BitVec.ofInt_natCast]
    rfl
  · rw [lane_avxDivInt _ _ (by omega) hb0]

/-- Remainder of the AVX2 integer vectors. -/
theorem C39_avx_mod (avx2 : Bool) (B : CmpBuild) (sgn : Bool) {w : Nat} (hw : IntWidth w) (a b : M256) {i : Nat}
    (hi : w * (i + 1) ≤ 256) (hb : lane w b i ≠ 0#w) :
    lane w (avxMod avx2 B sgn w a b) i =
      BitVec.ofInt w ((Spec.val sgn (lane w a i)).tmod (Spec.val sgn (lane w b i))) := by
  have hd := C39_avx_div avx2 B sgn hw a b hi hb
  have hk : ∃ k, w * k = 128 ∧ i < 2 * k := by
    rcases hw with rfl | rfl
    · exact ⟨8, rfl, by omega⟩
    · exact ⟨4, rfl, by omega⟩
  obtain ⟨k, hk, hik⟩ := hk
  unfold avxMod avxSub avxMul
  have e1 : ∀ x y : M256, lane w (avx2op avx2 (subEpi w) (subEpi w) x y) i = lane w x i - lane w y i :=
    fun x y => lane_avx2op hk (fun a b => a - b) avx2 x y hik
  have e2 : ∀ x y : M256, lane w (avx2op avx2 (mulloEpi w) (mulloEpi w) x y) i = lane w x i * lane w y i :=
    fun x y => lane_avx2op hk (fun a b => a * b) avx2 x y hik
  rw [e1, e2, hd]
  have ha := ofInt_val sgn (lane w a i)
  have hb' := ofInt_val sgn (lane w b i)
  generalize Spec.val sgn (lane w a i) = A at *
  generalize Spec.val sgn (lane w b i) = Bv at *
  rw [← ha, ← hb', ← BitVec.ofInt_mul]
  have := Int.tmod_add_mul_tdiv A Bv
  rw [Int.mul_comm (A.tdiv Bv)]
  conv => lhs; arg 1; rw [← this, BitVec.ofInt_add]
  exact BitVec.add_sub_cancel _ _

/-- `-7 / 2`, `INT_MIN / -1` and `4294967295 / 1` in one of the lanes. -/
example : lane 16 (avxDiv true .avx true 16 (set1 16 (-7)) (set1 16 2#16)) 11 = -3#16 ∧
    lane 32 (avxDiv true .avx true 32 (set1 32 0x80000000#32) (set1 32 (-1))) 7 = 0x80000000#32 ∧
    lane 32 (avxDiv true .avxGcc false 32 (set1 32 (-1)) (set1 32 1#32)) 7 = -1 ∧
    lane 16 (avxMod true .avxGcc false 16 (set1 16 65535#16) (set1 16 65534#16)) 7 = 1#16 := by
  refine ⟨?_, ?_, ?_, ?_⟩
  · rw [C39_avx_div _ _ _ (.inl rfl) _ _ (by decide) (by rw [lane_set1 _ (by decide)]; decide),
      lane_set1 _ (by decide), lane_set1 _ (by decide)]; decide
  · rw [C39_avx_div _ _ _ (.inr rfl) _ _ (by decide) (by rw [lane_set1 _ (by decide)]; decide),
      lane_set1 _ (by decide), lane_set1 _ (by decide)]; decide
  · rw [C39_avx_div _ _ _ (.inr rfl) _ _ (by decide) (by rw [lane_set1 _ (by decide)]; decide),
      lane_set1 _ (by decide), lane_set1 _ (by decide)]; decide
  · rw [C39_avx_mod _ _ _ (.inl rfl) _ _ (by decide) (by rw [lane_set1 _ (by decide)]; decide),
      lane_set1 _ (by decide), lane_set1 _ (by decide)]; decide

end Vc.Prop
