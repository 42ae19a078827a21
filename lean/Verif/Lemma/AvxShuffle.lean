import Verif.Lemma.AvxMask
import Verif.Lemma.Interleave
import Verif.Model.AvxShuffle
import Verif.Spec.LaneMove

namespace Vc.Lemma

open Vc.Model Vc.Spec

theorem lane_half {w k : Nat} (hk : w * k = 128) (x : M256) {i : Nat} (hi : i < k) :
    Model.lane w (lo128 x) i = Model.lane w x i ∧ Model.lane w (hi128 x) i = Model.lane w x (k + i) :=
  ⟨lane_lo128 hk x hi, lane_hi128 hk x hi⟩

theorem lane128_self (y : M128) : Model.lane 128 y 0 = y := by
  unfold Model.lane
  simp

theorem lane128_lo (x : M256) : Model.lane 128 x 0 = lo128 x := by
  rw [← lane128_self (lo128 x), lane_lo128 (w := 128) (k := 1) rfl x (by decide)]

theorem lane128_hi (x : M256) : Model.lane 128 x 1 = hi128 x := by
  rw [← lane128_self (hi128 x), lane_hi128 (w := 128) (k := 1) rfl x (by decide)]

theorem swap_halves (x : M256) : memPermute128 (some 1) (some 0) x = concat128 (hi128 x) (lo128 x) := rfl

theorem lane_swap {w c : Nat} (hc : w * c = 128) (x : M256) {i : Nat} (hi : i < 2 * c) :
    Model.lane w (memPermute128 (some 1) (some 0) x) i = Model.lane w x (if i < c then c + i else i - c) := by
  rw [swap_halves, lane_concat128 hc _ _ hi]
  by_cases h : i < c
  · rw [if_pos h, if_pos h, lane_hi128 hc _ h]
  · rw [if_neg h, if_neg h, lane_lo128 hc _ (by omega)]

/-- The lanes of `shifted(k)`. -/
theorem lane_avxShifted {bytes c : Nat} (hs : bytes = 8 ∧ c = 2 ∨ bytes = 4 ∧ c = 4 ∨ bytes = 2 ∧ c = 8)
    (ext : Option M128) (u : M128) (x : M256) (k : Int) {i : Nat} (hi : i < 2 * c) :
    Model.lane (8 * bytes) (avxShifted ext u bytes x k) i =
      if i < c ∨ k < c ∨ 2 * (c : Int) ≤ k then
        shiftLane (2 * c) 0#(8 * bytes) (fun j => Model.lane (8 * bytes) x j) k i
      else Model.lane (8 * bytes) (ext.getD 0#128) (i - c) := by
  have hm : bytes * c = 16 := by rcases hs with ⟨rfl, rfl⟩ | ⟨rfl, rfl⟩ | ⟨rfl, rfl⟩ <;> rfl
  unfold avxShifted shiftLane
  simp only
  by_cases h0 : k = 0
  · subst h0
    have hc : 0 < c := by omega
    rw [if_pos rfl, if_pos (by omega), if_pos (by omega)]; congr 1
  · rw [if_neg h0]
    by_cases hk : -((2 * c : Nat) : Int) < k ∧ k < ((2 * c : Nat) : Int)
    · rw [if_pos (by rcases hs with ⟨rfl, rfl⟩ | ⟨rfl, rfl⟩ | ⟨rfl, rfl⟩ <;> omega), lane_shiftedBytes hm ext u x hk hi]
      by_cases h : i < c ∨ k < c
      · rw [if_pos h, if_pos (show i < c ∨ k < c ∨ 2 * (c : Int) ≤ k by omega)]
      · rw [if_neg h, if_neg (show ¬ (i < c ∨ k < c ∨ 2 * (c : Int) ≤ k) by omega)]
    · rw [if_neg (by rcases hs with ⟨rfl, rfl⟩ | ⟨rfl, rfl⟩ | ⟨rfl, rfl⟩ <;> omega), if_pos (by omega),
        if_neg (by omega)]
      exact lane_zero ..

/-- The lanes of two halves that slide by `j` lanes over `x` and `y`. -/
theorem lane_slide {m c : Nat} (hm : m * c = 16) (a b d : M128) {j : Nat} (hj : j ≤ c) {i : Nat} (hi : i < 2 * c) :
    Model.lane (8 * m) (concat128 (alignrEpi8 b a (j * m)) (alignrEpi8 d b (j * m))) i =
      if i + j < c then Model.lane (8 * m) a (i + j) else if i + j < 2 * c then Model.lane (8 * m) b (i + j - c)
      else Model.lane (8 * m) d (i + j - 2 * c) := by
  have hc : 8 * m * c = 128 := by rw [Nat.mul_assoc, hm]
  have hk : 8 * (j * m) = 8 * m * j := by rw [Nat.mul_assoc, Nat.mul_comm j]
  rw [lane_concat128 hc _ _ hi]
  by_cases h : i < c
  · rw [if_pos h, lane_alignr _ _ hk hc h]
    by_cases h' : i + j < c
    · rw [if_pos h', if_pos h']
    · rw [if_neg h', if_neg h', if_pos (by omega)]
  · rw [if_neg h, lane_alignr _ _ hk hc (by omega), if_neg (show ¬ i + j < c by omega)]
    by_cases h' : i + j < 2 * c
    · rw [if_pos (by omega), if_pos h']; congr 1; omega
    · rw [if_neg (by omega), if_neg h']; congr 1; omega

/-- `_mm256_unpacklo_*`, `_mm256_unpackhi_*`, put in order. -/
theorem lane_interleave256 {w c : Nat} (hc : w * c = 128) (hw : w = 64 ∧ c = 2 ∨ w = 32 ∧ c = 4 ∨ w = 16 ∧ c = 8)
    (x y : M256) {i : Nat} (hi : i < 2 * c) :
    Model.lane w (concat128 (lo128 (unpacklo256 w x y)) (lo128 (unpackhi256 w x y))) i =
      (if i % 2 = 0 then Model.lane w x (i / 2) else Model.lane w y (i / 2)) ∧
    Model.lane w (concat128 (hi128 (unpacklo256 w x y)) (hi128 (unpackhi256 w x y))) i =
      (if i % 2 = 0 then Model.lane w x (c + i / 2) else Model.lane w y (c + i / 2)) := by
  have h64 : 64 / w = c / 2 := by rcases hw with ⟨rfl, rfl⟩ | ⟨rfl, rfl⟩ | ⟨rfl, rfl⟩ <;> rfl
  have h2 : 2 * (c / 2) = c := by rcases hw with ⟨rfl, rfl⟩ | ⟨rfl, rfl⟩ | ⟨rfl, rfl⟩ <;> rfl
  unfold unpacklo256 unpackhi256
  rw [lo128_concat, lo128_concat, hi128_concat, hi128_concat, lane_concat128 hc _ _ hi, lane_concat128 hc _ _ hi]
  by_cases h : i < c
  · rw [if_pos h, if_pos h, lane_unpacklo _ _ (lane_room hc h), lane_unpacklo _ _ (lane_room hc h),
      lane_lo128 hc _ (by omega), lane_lo128 hc _ (by omega), lane_hi128 hc _ (by omega), lane_hi128 hc _ (by omega)]
    exact ⟨rfl, rfl⟩
  · rw [if_neg h, if_neg h, lane_unpackhi _ _ (lane_room hc (by omega)), lane_unpackhi _ _ (lane_room hc (by omega)),
      h64, lane_lo128 hc _ (by omega), lane_lo128 hc _ (by omega), lane_hi128 hc _ (by omega),
      lane_hi128 hc _ (by omega), show (i - c) % 2 = i % 2 by omega, show c / 2 + (i - c) / 2 = i / 2 by omega]
    exact ⟨rfl, rfl⟩

end Vc.Lemma
