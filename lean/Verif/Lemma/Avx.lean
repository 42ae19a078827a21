import Verif.Lemma.SortNet2
import Verif.Lemma.SseShuffle
import Verif.Model.Avx

namespace Vc.Lemma

open Vc.Model Vc.Spec

/-- Lanes of an operation on both halves. -/
theorem lane_split1 {w k : Nat} (hk : w * k = 128) {f : M128 → M128} {g : BitVec w → BitVec w}
    (hf : ∀ a i, i < k → Model.lane w (f a) i = g (Model.lane w a i)) (x : M256) {i : Nat} (hi : i < 2 * k) :
    Model.lane w (split1 f x) i = g (Model.lane w x i) := by
  unfold split1
  rw [lane_concat128 hk _ _ hi]
  by_cases h : i < k
  · rw [if_pos h, hf _ _ h, lane_lo128 hk _ h]
  · rw [if_neg h, hf _ _ (by omega), lane_hi128 hk _ (by omega), show k + (i - k) = i by omega]

theorem lane_split2 {w k : Nat} (hk : w * k = 128) {f : M128 → M128 → M128} {g : BitVec w → BitVec w → BitVec w}
    (hf : ∀ a b i, i < k → Model.lane w (f a b) i = g (Model.lane w a i) (Model.lane w b i)) (x y : M256) {i : Nat}
    (hi : i < 2 * k) :
    Model.lane w (split2 f x y) i = g (Model.lane w x i) (Model.lane w y i) := by
  unfold split2
  rw [lane_concat128 hk _ _ hi]
  by_cases h : i < k
  · rw [if_pos h, hf _ _ _ h, lane_lo128 hk _ h, lane_lo128 hk _ h]
  · rw [if_neg h, hf _ _ _ (by omega), lane_hi128 hk _ (by omega), lane_hi128 hk _ (by omega),
      show k + (i - k) = i by omega]

theorem lane_room {w k n i : Nat} (hk : w * k = n) (hi : i < k) : w * (i + 1) ≤ n :=
  hk ▸ Nat.mul_le_mul_left _ hi

/-- A lanewise operation, with AVX2 or on the halves. -/
theorem lane_avx1 {w k : Nat} (hk : w * k = 128) (g : BitVec w → BitVec w) (avx2 : Bool) (x : M256) {i : Nat}
    (hi : i < 2 * k) : Model.lane w (avx1 avx2 (map1 w g) (map1 w g) x) i = g (Model.lane w x i) := by
  unfold avx1
  cases avx2
  · exact lane_split1 hk (fun a i h => lane_map1 g a (lane_room hk h)) x hi
  · exact lane_map1 g x (lane_room (by rw [Nat.mul_left_comm, hk]) hi)

theorem lane_avx2op {w k : Nat} (hk : w * k = 128) (g : BitVec w → BitVec w → BitVec w) (avx2 : Bool) (x y : M256)
    {i : Nat} (hi : i < 2 * k) :
    Model.lane w (avx2op avx2 (map2 w g) (map2 w g) x y) i = g (Model.lane w x i) (Model.lane w y i) := by
  unfold avx2op
  cases avx2
  · exact lane_split2 hk (fun a b i h => lane_map2 g a b (lane_room hk h)) x y hi
  · exact lane_map2 g x y (lane_room (by rw [Nat.mul_left_comm, hk]) hi)

theorem lane_permute4x64 {d0 d1 d2 d3 : Nat} (h : d0 ≤ 3 ∧ d1 ≤ 3 ∧ d2 ≤ 3 ∧ d3 ≤ 3) (x : M256) :
    ∃ r, permute4x64 d0 d1 d2 d3 x = some r ∧ Model.lane 64 r 0 = Model.lane 64 x d0 ∧
      Model.lane 64 r 1 = Model.lane 64 x d1 ∧ Model.lane 64 r 2 = Model.lane 64 x d2 ∧
      Model.lane 64 r 3 = Model.lane 64 x d3 := by
  have e := sel4_pack h
  refine ⟨_, if_pos h, ?_, ?_, ?_, ?_⟩ <;> (unfold permute4x64Imm; rw [lane_ofLanes _ (by decide)])
  · rw [e.1]
  · rw [e.2.1]
  · rw [e.2.2.1]
  · rw [e.2.2.2]

end Vc.Lemma
