import Verif.Model.AvxInt
import Verif.Lemma.SseReduce
import Verif.Lemma.AvxShuffle
import Verif.Lemma.Masked

namespace Vc.Lemma

open Vc.Model Vc.Spec

theorem hFold_32 {op : M128 → M128 → M128} {g : BitVec 32 → BitVec 32 → BitVec 32} (h : LaneOp 32 op g) (a : M128) :
    hFold 32 op a = tree4 g (Model.lane 32 a) := by
  unfold hFold
  simp only
  rw [if_pos trivial, h _ _ 0 (by decide), lane_srliSi128 (w := 32) (j := 1) _ rfl, h _ _ 0 (by decide),
    h _ _ 1 (by decide), lane_srliSi128 (w := 32) (j := 2) _ rfl, lane_srliSi128 (w := 32) (j := 2) _ rfl]
  rfl

theorem hFold_16 {op : M128 → M128 → M128} {g : BitVec 16 → BitVec 16 → BitVec 16} (h : LaneOp 16 op g) (a : M128) :
    hFold 16 op a = tree8 g (Model.lane 16 a) := by
  unfold hFold
  simp only
  have s1 : ∀ (x : M128) i, Model.lane 16 (srliSi128 x 2) i = Model.lane 16 x (i + 1) :=
    fun x i => lane_srliSi128 (w := 16) (j := 1) _ rfl i
  have s2 : ∀ (x : M128) i, Model.lane 16 (srliSi128 x 4) i = Model.lane 16 x (i + 2) :=
    fun x i => lane_srliSi128 (w := 16) (j := 2) _ rfl i
  have s4 : ∀ (x : M128) i, Model.lane 16 (srliSi128 x 8) i = Model.lane 16 x (i + 4) :=
    fun x i => lane_srliSi128 (w := 16) (j := 4) _ rfl i
  rw [if_neg (by decide), h _ _ 0 (by decide), s1, h _ _ 0 (by decide), h _ _ (0 + 1) (by decide), s2, s2,
    h _ _ 0 (by decide), h _ _ 1 (by decide), h _ _ 2 (by decide), h _ _ 3 (by decide), s4, s4, s4, s4]
  rfl

theorem min_halves {k : Nat} {f y : Nat → Int} {r : Int} (hy : ∀ i, i < k → y i = min (f i) (f (k + i)))
    (h : (∃ i, i < k ∧ r = y i) ∧ ∀ i, i < k → r ≤ y i) :
    (∃ i, i < 2 * k ∧ r = f i) ∧ ∀ i, i < 2 * k → r ≤ f i := by
  obtain ⟨⟨i, hi, e⟩, h2⟩ := h
  refine ⟨?_, fun j hj => ?_⟩
  · have := hy i hi
    rcases Int.le_total (f i) (f (k + i)) with hl | hl
    · exact ⟨i, by omega, by omega⟩
    · exact ⟨k + i, by omega, by omega⟩
  · by_cases hk : j < k
    · have := h2 j hk; have := hy j hk; omega
    · have := h2 (j - k) (by omega)
      have := hy (j - k) (by omega)
      rw [show k + (j - k) = j by omega] at this
      omega

theorem max_halves {k : Nat} {f y : Nat → Int} {r : Int} (hy : ∀ i, i < k → y i = max (f i) (f (k + i)))
    (h : (∃ i, i < k ∧ r = y i) ∧ ∀ i, i < k → y i ≤ r) :
    (∃ i, i < 2 * k ∧ r = f i) ∧ ∀ i, i < 2 * k → f i ≤ r := by
  obtain ⟨⟨i, hi, e⟩, h2⟩ := h
  refine ⟨?_, fun j hj => ?_⟩
  · have := hy i hi
    rcases Int.le_total (f i) (f (k + i)) with hl | hl
    · exact ⟨k + i, by omega, by omega⟩
    · exact ⟨i, by omega, by omega⟩
  · by_cases hk : j < k
    · have := h2 j hk; have := hy j hk; omega
    · have := h2 (j - k) (by omega)
      have := hy (j - k) (by omega)
      rw [show k + (j - k) = j by omega] at this
      omega

/-- `tmp(m) = x` of an integer vector. -/
theorem lane_avxAssign8 (avx2 : Bool) {w i : Nat} (hw : w = 16 ∨ w = 32) (hi : w * (i + 1) ≤ 256) (tmp x m : M256)
    {b : Nat → Bool} (hm : IsMask w m b) :
    Model.lane w (avxAssign avx2 8 tmp x m) i = if b i then Model.lane w x i else Model.lane w tmp i := by
  have hm' : Model.lane w m i = laneMask (b i) := hm i hi
  unfold avxAssign
  rw [if_pos rfl]
  rcases hw with rfl | rfl
  · exact lane_avxBlendv8 avx2 (w := 16) (c := 2) (k := 8) rfl rfl (by omega) tmp x m hm'
  · exact lane_avxBlendv8 avx2 (w := 32) (c := 4) (k := 4) rfl rfl (by omega) tmp x m hm'

/-- `tmp(m) = x` of float_v and double_v. -/
theorem lane_avxAssignF {w i : Nat} (hw : w = 32 ∨ w = 64) (hi : w * (i + 1) ≤ 256) (tmp x m : M256)
    {b : Nat → Bool} (hm : IsMask w m b) :
    Model.lane w (avxAssign true w tmp x m) i = if b i then Model.lane w x i else Model.lane w tmp i := by
  have hm' : Model.lane w m i = laneMask (b i) := hm i hi
  have hp : 0 < w := by omega
  unfold avxAssign
  rw [if_neg (by omega), lane_blendvIntr _ _ _ hi, hm', laneMask_msb hp]

end Vc.Lemma
