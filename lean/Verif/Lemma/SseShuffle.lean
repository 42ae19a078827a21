import Verif.Lemma.SseConv
import Verif.Model.SseShuffle
import Verif.Spec.LaneMove

namespace Vc.Lemma
open Vc.Model Vc.Spec

theorem lane_selectBits {w i : Nat} (hi : w * (i + 1) ≤ 128) {c a b : M128} {p : Bool}
    (hc : lane w c i = laneMask p) :
    lane w (selectBits c a b) i = if p then lane w b i else lane w a i := by
  unfold selectBits andnot
  rw [lane_or, lane_and, lane_and, lane_not _ hi, hc]
  cases p <;> simp [laneMask]

theorem lane_srli_ones {w k j i : Nat} (hk : 8 * k = w * j) (hw : w ∣ 128) (hw0 : 0 < w)
    (_hi : w * (i + 1) ≤ 128) :
    lane w (srliSi128 (BitVec.allOnes 128) k) i = laneMask (decide (i + j < 128 / w)) := by
  rw [lane_srliSi128 _ hk]
  obtain ⟨c, hc⟩ := hw
  have e : 128 / w = c := by rw [hc, Nat.mul_div_cancel_left c hw0]
  rw [e]
  by_cases h : i + j < c
  · rw [lane_allOnes]
    · simp [laneMask, h]
    · rw [hc]; exact Nat.mul_le_mul_left _ h
  · rw [lane_out]
    · simp [laneMask, h]
    · rw [hc]; exact Nat.mul_le_mul_left _ (by omega)

theorem lane_slli_mask {w k j i : Nat} (hk : 8 * k = w * j) (hi : w * (i + 1) ≤ 128) {x : M128}
    {p : Nat → Bool} (hx : ∀ i, w * (i + 1) ≤ 128 → lane w x i = laneMask (p i)) :
    lane w (slliSi128 x k) i = laneMask (!decide (i < j) && p (i - j)) := by
  rw [lane_slliSi128 _ hk hi]
  by_cases h : i < j
  · simp [h, laneMask]
  · rw [if_neg h, hx]
    · simp [h]
    · have : w * (i - j + 1) ≤ w * (i + 1) := Nat.mul_le_mul_left _ (by omega)
      omega

theorem sel4_pack {d0 d1 d2 d3 : Nat} (h : d0 ≤ 3 ∧ d1 ≤ 3 ∧ d2 ≤ 3 ∧ d3 ≤ 3) :
    sel4 (d0 + d1 * 4 + d2 * 16 + d3 * 64) 0 = d0 ∧ sel4 (d0 + d1 * 4 + d2 * 16 + d3 * 64) 1 = d1 ∧
    sel4 (d0 + d1 * 4 + d2 * 16 + d3 * 64) 2 = d2 ∧ sel4 (d0 + d1 * 4 + d2 * 16 + d3 * 64) 3 = d3 := by
  unfold sel4
  refine ⟨?_, ?_, ?_, ?_⟩ <;> simp only [Nat.reducePow] <;> omega

/-- The emulated `alignr` is the instruction. -/
theorem alignr_eq (I : Isa) (s : Nat) (a b : M128) : alignr I s a b = alignrEpi8 a b (s % 32) := by
  unfold alignr
  simp only
  generalize hk : s % 32 = k
  have hk : k < 32 := by omega
  split
  · rfl
  · apply reg_ext 8 (by decide) (by decide)
    intro i hi
    have hi : i < 16 := by omega
    rw [lane_alignr (w := 8) (m := 16) a b (j := k) rfl rfl hi]
    split
    · rename_i h0; subst h0; rw [if_pos (by omega)]; rfl
    · split
      · rw [lane_or, lane_slliSi128 (w := 8) (j := 16 - k) a rfl (by omega),
          lane_srliSi128 (w := 8) (j := k) b rfl]
        by_cases h : i + k < 16
        · rw [if_pos (by omega), if_pos h]; simp
        · rw [if_neg (by omega), if_neg h, lane_out b (by omega)]
          simp only [BitVec.or_zero]
          congr 1; omega
      · split
        · rename_i h; subst h; rw [if_neg (by omega)]; congr 1
        · rw [lane_srliSi128 (w := 8) (j := k - 16) a rfl, if_neg (by omega)]
          congr 1; omega

/-- `alignr` by whole lanes. -/
theorem lane_alignr_vec (I : Isa) {bytes size : Nat} (hs : bytes * size = 16) {k : Nat}
    (hk : k * bytes < 32) (a b : M128) {i : Nat} (hi : i < size) :
    lane (8 * bytes) (alignr I (k * bytes) a b) i =
      if i + k < size then lane (8 * bytes) b (i + k) else lane (8 * bytes) a (i + k - size) := by
  rw [alignr_eq, Nat.mod_eq_of_lt hk]
  exact lane_alignr (w := 8 * bytes) (m := size) a b
    (by rw [Nat.mul_assoc, Nat.mul_comm k]) (by rw [Nat.mul_assoc, hs]) hi

theorem lane_bound {bytes size i : Nat} (hs : bytes * size = 16) (hi : i < size) :
    8 * bytes * (i + 1) ≤ 128 := by
  have := Nat.mul_le_mul_left bytes (show i + 1 ≤ size from hi)
  rw [Nat.mul_assoc]; omega

theorem lane_beyond {bytes size i : Nat} (hs : bytes * size = 16) (hi : size ≤ i) (x : M128) :
    lane (8 * bytes) x i = 0#(8 * bytes) := by
  apply lane_out
  have := Nat.mul_le_mul_left bytes hi
  rw [Nat.mul_assoc]; omega

theorem lane_vShifted {bytes size : Nat} (hs : bytes * size = 16) (h8 : size ≤ 8) (x : M128)
    (k : Int) {i : Nat} (hi : i < size) :
    lane (8 * bytes) (vShifted bytes x k) i =
      shiftLane size 0#(8 * bytes) (fun j => lane (8 * bytes) x j) k i := by
  unfold vShifted shiftLane
  split
  · rename_i h; subst h; rw [if_pos (by omega)]; simp
  · split
    · rename_i h0 h
      rw [lane_srliSi128 (j := k.toNat) x (by rw [Nat.mul_assoc, Nat.mul_comm k.toNat])]
      by_cases hin : (i : Int) + k < size
      · rw [if_pos (by omega)]; congr 1; omega
      · rw [if_neg (by omega), lane_beyond hs (by omega)]
    · split
      · rename_i h0 h1 h
        rw [lane_slliSi128 (j := (-k).toNat) x (by rw [Nat.mul_assoc, Nat.mul_comm (-k).toNat])
          (lane_bound hs hi)]
        by_cases hin : 0 ≤ (i : Int) + k
        · rw [if_neg (by omega), if_pos (by omega)]; congr 1; omega
        · rw [if_pos (by omega), if_neg (by omega)]
      · rw [lane_zero, if_neg (by omega)]

/-- Equal wide lanes have equal narrow lanes. -/
theorem lane_of_wide {n m : Nat} (v c : Nat) (hc : 0 < c) {x : BitVec n} {y : BitVec m} {q q' i : Nat}
    (hq : i / c = q) (h : lane (v * c) x q = lane (v * c) y q') :
    lane v x i = lane v y (c * q' + i % c) := by
  have hm : i % c < c := Nat.mod_lt _ hc
  have := lane_lane v c x q hm
  rw [h, lane_lane v c y q' hm, ← hq, Nat.div_add_mod] at this
  exact this.symm

/-- Interleaving even lanes of `x` with odd lanes of `y`. -/
theorem lane_evenOdd (x y : M128) {q : Nat} (hq : q < 4) :
    lane 32 (unpacklo 32 (shuffleEpi32 x (mmShuffle 2 0 2 0)) (shuffleEpi32 y (mmShuffle 3 1 3 1))) q =
      if q % 2 = 0 then lane 32 x q else lane 32 y q := by
  rw [lane_unpacklo _ _ (by omega), lane_shuffleEpi32 _ _ (by omega), lane_shuffleEpi32 _ _ (by omega)]
  match q, hq with
  | 0, _ => rfl
  | 1, _ => rfl
  | 2, _ => rfl
  | 3, _ => rfl

end Vc.Lemma
