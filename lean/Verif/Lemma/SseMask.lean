import Verif.Lemma.SseConv
import Verif.Lemma.Bits
import Verif.Model.SseMask
import Verif.Spec.Mask

namespace Vc.Lemma
open Vc.Model Vc.Spec

theorem _root_.Vc.Spec.IsMask.lane_eq {n w : Nat} {k : BitVec n} {b : Nat → Bool} (h : IsMask w k b) {i : Nat}
    (hi : w * (i + 1) ≤ n) : lane w k i = laneMask (b i) := h i hi

theorem isMask_of {n w : Nat} {k : BitVec n} {b : Nat → Bool}
    (h : ∀ i, w * (i + 1) ≤ n → lane w k i = laneMask (b i)) : IsMask w k b := h

theorem isMask_zero {n : Nat} (w : Nat) : IsMask w 0#n (fun _ => false) :=
  isMask_of fun i _ => by rw [lane_zero]; rfl

theorem _root_.Vc.Spec.IsMask.congr {n w : Nat} {k : BitVec n} {b b' : Nat → Bool} (h : IsMask w k b)
    (e : ∀ i, w * (i + 1) ≤ n → b i = b' i) : IsMask w k b' :=
  isMask_of fun i hi => by rw [h.lane_eq hi, e i hi]

/-- A mask with wide lanes read with narrow lanes. -/
theorem _root_.Vc.Spec.IsMask.narrow {n v c : Nat} {k : BitVec n} {b : Nat → Bool} (hc : 0 < c)
    (hn : 0 < n) (hd : v * c ∣ n) (h : IsMask (v * c) k b) : IsMask v k (fun i => b (i / c)) := by
  apply isMask_of
  intro i hi
  have h1 : i % c < c := Nat.mod_lt i hc
  have h2 := lane_lane v c k (i / c) h1
  rw [Nat.div_add_mod] at h2
  rw [← h2, h.lane_eq, lane_laneMask h1]
  obtain ⟨d, hd⟩ := hd
  have h3 : v * (i + 1) ≤ v * c * d := by omega
  rw [hd]
  apply Nat.mul_le_mul_left
  rw [Nat.mul_assoc] at h3
  by_cases hv : v = 0
  · subst hv; simp at hd; omega
  · have := Nat.le_of_mul_le_mul_left h3 (by omega)
    have : i < c * d := this
    have := Nat.div_lt_of_lt_mul this
    omega

theorem satSigned_laneMask (p : Bool) : satSigned 8 (laneMask p : BitVec 16) = laneMask p := by
  cases p <;> decide

/-- Packing keeps masks. -/
theorem packs_isMask {c : Nat} (hc : c = 1 ∨ c = 2 ∨ c = 4) {x y : M128} {bx by' : Nat → Bool}
    (hx : IsMask (16 * c) x bx) (hy : IsMask (16 * c) y by') :
    IsMask (8 * c) (packs 8 x y) (fun i => if i < 8 / c then bx i else by' (i - 8 / c)) := by
  have hc0 : 0 < c := by omega
  have hd : 16 * c ∣ 128 := by rcases hc with rfl | rfl | rfl <;> decide
  have nx := hx.narrow hc0 (by decide) hd
  have ny := hy.narrow hc0 (by decide) hd
  apply isMask_of
  intro i hi
  apply lane_ext (v := 8) (by decide)
  intro j hj
  have hr : 8 * (c * i + j + 1) ≤ 128 := by
    have : c * i + j + 1 ≤ c * (i + 1) := by rw [Nat.mul_add]; omega
    have := Nat.mul_le_mul_left 8 this
    rw [← Nat.mul_assoc 8] at this
    omega
  rw [lane_lane _ _ _ _ hj, lane_packs _ _ hr, lane_laneMask hj]
  have hq : (c * i + j) / c = i := by
    rw [Nat.add_comm, Nat.add_mul_div_left _ _ hc0, Nat.div_eq_of_lt hj]; omega
  by_cases hlt : c * i + j < 64 / 8
  · rw [if_pos hlt]
    have e : lane 16 x (c * i + j) = laneMask (bx i) := by
      rw [nx.lane_eq (by omega), hq]
    have hi8 : i < 8 / c := by rcases hc with rfl | rfl | rfl <;> omega
    rw [if_pos hi8]
    show satSigned 8 (lane 16 x (c * i + j)) = _
    rw [e, satSigned_laneMask]
  · rw [if_neg hlt]
    have e : lane 16 y (c * i + j - 8) = laneMask (by' (i - 8 / c)) := by
      rw [ny.lane_eq (by omega)]
      congr 2
      rcases hc with rfl | rfl | rfl <;> omega
    have hi8 : ¬ i < 8 / c := by rcases hc with rfl | rfl | rfl <;> omega
    rw [if_neg hi8]
    show satSigned 8 (lane 16 y (c * i + j - 8)) = _
    rw [e, satSigned_laneMask]

/-- Unpacking a mask with itself keeps the low lanes. -/
theorem unpacklo_isMask {v : Nat} (hv : 0 < v) {k : M128} {b : Nat → Bool} (h : IsMask v k b) :
    IsMask (v * 2) (unpacklo v k k) b := by
  apply isMask_of
  intro i hi
  have hi' : v * (i + 1) ≤ 128 := by
    have : v * 2 * (i + 1) = v * (i + 1) + v * (i + 1) := by rw [Nat.mul_right_comm]; omega
    omega
  have w := unpacklo_wide hi k k
  apply (eq_halves hv _ _).mpr
  rw [w.1, w.2, h.lane_eq hi', lane_laneMask (by decide), lane_laneMask (by decide)]
  simp

theorem movemask_isMask {n w : Nat} (hw : 0 < w) {k : BitVec n} {b : Nat → Bool} (h : IsMask w k b)
    (i : Nat) : (movemask w k).testBit i = (decide (i < n / w) && b i) := by
  rw [movemask_testBit]
  by_cases hi : i < n / w
  · have : w * (i + 1) ≤ n := by
      have := Nat.mul_le_mul_left w (show i + 1 ≤ n / w from hi)
      have := Nat.mul_div_le n w
      omega
    rw [h.lane_eq this, laneMask_msb hw]
  · simp [hi]

theorem countP_range_lt (p : Nat → Bool) {m n : Nat} (h : m ≤ n) :
    (List.range n).countP (fun i => decide (i < m) && p i) = (List.range m).countP p := by
  obtain ⟨d, rfl⟩ := Nat.exists_eq_add_of_le h
  rw [List.range_add, List.countP_append, List.countP_map]
  have h1 : (List.range m).countP (fun i => decide (i < m) && p i) = (List.range m).countP p := by
    apply List.countP_congr
    intro i hi
    have := List.mem_range.mp hi
    simp [this]
  have h2 : List.countP ((fun i => decide (i < m) && p i) ∘ fun x => m + x) (List.range d) = 0 := by
    rw [List.countP_eq_zero]
    intro i _
    simp
    omega
  rw [h1, h2]; rfl

theorem lane_shufflelo_swap (x : M128) :
    lane 32 (shuffleloEpi16 x (mmShuffle 1 0 3 2)) 0 = lane 32 x 1 := by
  apply lane_ext (v := 16) (c := 2) (by decide)
  intro j hj
  rw [lane_lane 16 2 _ _ hj, lane_lane 16 2 _ _ hj]
  match j, hj with
  | 0, _ => rw [lane_shufflelo _ _ (by decide)]; rfl
  | 1, _ => rw [lane_shufflelo _ _ (by decide)]; rfl

theorem lane_shuffleEpi32_half (x : M128) (imm : Nat) {i : Nat} (h : i < 8) :
    lane 16 (shuffleEpi32 x imm) i = lane 16 x (2 * sel4 imm (i / 2) + i % 2) := by
  have h2 : i % 2 < 2 := Nat.mod_lt _ (by decide)
  have e := lane_lane 16 2 (shuffleEpi32 x imm) (i / 2) h2
  rw [Nat.div_add_mod] at e
  rw [← e]
  show lane 16 (lane 32 (shuffleEpi32 x imm) (i / 2)) (i % 2) = _
  rw [lane_shuffleEpi32 _ _ (by omega)]
  exact lane_lane 16 2 x _ h2

theorem srli_mask {w i : Nat} (hw : w = 16 ∨ w = 32) {k : M128} {b : Nat → Bool} (h : IsMask w k b)
    (hi : w * (i + 1) ≤ 128) : lane w (srliEpi w k (w - 1)) i = if b i then 1#w else 0#w := by
  rw [srliEpi, lane_map1 _ _ hi, h.lane_eq hi]
  rcases hw with rfl | rfl <;> cases b i <;> decide

end Vc.Lemma
