import Verif.Lemma.SseMask
import Verif.Prop.SseInt

/-!
C36: queries and conversions of SSE masks.

A mask with lanes of `w` bits (8, 16, 32 or 64) has `128 / w` lanes.  `Spec.IsMask w k b` says that the
register `k` holds the truth values `b`.
-/

namespace Vc.Prop
open Vc.Model Vc.Lemma
open Vc.Spec (IsMask MaskWidth boolByte)

private theorem mw_pos {w : Nat} (hw : MaskWidth w) : 0 < w := by
  rcases hw with rfl | rfl | rfl | rfl <;> decide

/-- `toInt()`: bit `i` is lane `i`, and there are no other bits. -/
theorem C36_toInt {w : Nat} (hw : MaskWidth w) {k : M128} {b : Nat → Bool} (h : IsMask w k b)
    (i : Nat) : (maskToInt (128 / w) k).testBit i = (decide (i < 128 / w) && b i) := by
  rcases hw with rfl | rfl | rfl | rfl
  · exact movemask_isMask (by decide) h i
  · have hp := packs_isMask (c := 1) (.inl rfl) h (isMask_zero 16)
    show (movemask 8 (packs 8 k 0#128)).testBit i = _
    rw [movemask_isMask (w := 8) (by decide) hp]
    by_cases h1 : i < 8
    · simp [h1]; omega
    · simp [h1]
  · exact movemask_isMask (by decide) h i
  · exact movemask_isMask (by decide) h i

/-- `count()`: the number of true lanes, with and without the `popcnt` instruction. -/
theorem C36_count (I : Isa) {w : Nat} (hw : MaskWidth w) {k : M128} {b : Nat → Bool}
    (h : IsMask w k b) : maskCount I (128 / w) k = (List.range (128 / w)).countP b := by
  rcases hw with rfl | rfl | rfl | rfl
  · show (if I.popcnt = true then popcntU32 (movemask 8 k) else popcnt16 (movemask 8 k)) = _
    have hb : ∀ n, 16 ≤ n → (List.range n).countP (fun i => (movemask 8 k).testBit i) =
        (List.range 16).countP b := fun n hn => by
      rw [← countP_range_lt b hn]
      apply List.countP_congr
      intro i _
      rw [movemask_isMask (by decide) h]
    split
    · exact hb 32 (by decide)
    · rw [popcnt16_eq _ (movemask_lt 8 k)]
      exact hb 16 (by decide)
  · show (if I.popcnt = true then popcntU32 (movemask 8 k) / 2 else _) = _
    split
    · have hn : IsMask 8 k (fun i => b (i / 2)) := h.narrow (v := 8) (c := 2) (by decide) (by decide) (by decide)
      have : popcntU32 (movemask 8 k) = (List.range 16).countP (fun i => b (i / 2)) := by
        rw [← countP_range_lt _ (show 16 ≤ 32 by decide)]
        apply List.countP_congr
        intro i _
        rw [movemask_isMask (by decide) hn]
      rw [this]
      have e16 : List.range 16 = [0,1,2,3,4,5,6,7,8,9,10,11,12,13,14,15] := by decide
      have e8 : List.range (128 / 16) = [0,1,2,3,4,5,6,7] := by decide
      rw [e16, e8]
      simp only [List.countP_cons, List.countP_nil, Nat.reduceDiv, Nat.zero_div]
      omega
    · have hs : ∀ i, i < 8 → lane 16 (srliEpi 16 k 15) i = if b i then 1#16 else 0#16 :=
        fun i hi => srli_mask (.inl rfl) h (by omega)
      generalize srliEpi 16 k 15 = x at hs
      have a1 : ∀ (y z : M128) i, i < 8 → lane 16 (addEpi 16 y z) i = lane 16 y i + lane 16 z i :=
        fun y z i hi => lane_map2 _ _ _ (by omega)
      have s1 : ∀ (y : M128) i, i < 8 → lane 16 (addEpi 16 y (shuffleEpi32 y (mmShuffle 0 1 2 3))) i =
          lane 16 y i + lane 16 y (2 * sel4 (mmShuffle 0 1 2 3) (i / 2) + i % 2) := fun y i hi => by
        rw [a1 _ _ _ hi, lane_shuffleEpi32_half _ _ hi]
      have s2 : ∀ (y : M128) imm i, i < 4 → lane 16 (addEpi 16 y (shuffleloEpi16 y imm)) i =
          lane 16 y i + lane 16 y (sel4 imm i) := fun y imm i hi => by
        rw [a1 _ _ _ (by omega), lane_shufflelo _ _ (by omega), if_pos hi]
      rw [s2 _ _ _ (by decide), show sel4 (mmShuffle 2 3 0 1) 0 = 1 from rfl,
        s2 _ _ _ (by decide), show sel4 (mmShuffle 0 1 2 3) 0 = 3 from rfl,
        s2 _ _ _ (by decide), show sel4 (mmShuffle 0 1 2 3) 1 = 2 from rfl,
        s1 _ 0 (by decide), s1 _ 1 (by decide), s1 _ 2 (by decide), s1 _ 3 (by decide),
        show 2 * sel4 (mmShuffle 0 1 2 3) (0 / 2) + 0 % 2 = 6 from rfl,
        show 2 * sel4 (mmShuffle 0 1 2 3) (1 / 2) + 1 % 2 = 7 from rfl,
        show 2 * sel4 (mmShuffle 0 1 2 3) (2 / 2) + 2 % 2 = 4 from rfl,
        show 2 * sel4 (mmShuffle 0 1 2 3) (3 / 2) + 3 % 2 = 5 from rfl]
      rw [hs 0 (by decide), hs 1 (by decide), hs 2 (by decide), hs 3 (by decide), hs 4 (by decide),
        hs 5 (by decide), hs 6 (by decide), hs 7 (by decide)]
      have e8 : List.range (128 / 16) = [0,1,2,3,4,5,6,7] := by decide
      rw [e8]
      simp only [List.countP_cons, List.countP_nil]
      generalize b 0 = b0; generalize b 1 = b1; generalize b 2 = b2; generalize b 3 = b3
      generalize b 4 = b4; generalize b 5 = b5; generalize b 6 = b6; generalize b 7 = b7
      revert b0 b1 b2 b3 b4 b5 b6 b7
      decide +kernel
  · show (if I.popcnt = true then popcntU32 (movemask 32 k) else _) = _
    split
    · unfold popcntU32
      rw [← countP_range_lt b (show 128 / 32 ≤ 32 by decide)]
      apply List.countP_congr
      intro i _
      rw [movemask_isMask (by decide) h]
    · have hs : ∀ i, i < 4 → lane 32 (srliEpi 32 k 31) i = if b i then 1#32 else 0#32 :=
        fun i hi => srli_mask (.inr rfl) h (by omega)
      generalize srliEpi 32 k 31 = x at hs
      have a1 : ∀ (y z : M128) i, i < 4 → lane 32 (addEpi 32 y z) i = lane 32 y i + lane 32 z i :=
        fun y z i hi => lane_map2 _ _ _ (by omega)
      have s1 : ∀ (y : M128) i, i < 4 → lane 32 (addEpi 32 y (shuffleEpi32 y (mmShuffle 0 1 2 3))) i =
          lane 32 y i + lane 32 y (sel4 (mmShuffle 0 1 2 3) i) := fun y i hi => by
        rw [a1 _ _ _ hi, lane_shuffleEpi32 _ _ hi]
      rw [a1 _ _ _ (by decide), lane_shufflelo_swap, s1 _ 0 (by decide), s1 _ 1 (by decide),
        show sel4 (mmShuffle 0 1 2 3) 0 = 3 from rfl, show sel4 (mmShuffle 0 1 2 3) 1 = 2 from rfl,
        hs 0 (by decide), hs 1 (by decide), hs 2 (by decide), hs 3 (by decide)]
      have e4 : List.range (128 / 32) = [0,1,2,3] := by decide
      rw [e4]
      simp only [List.countP_cons, List.countP_nil]
      generalize b 0 = b0; generalize b 1 = b1; generalize b 2 = b2; generalize b 3 = b3
      revert b0 b1 b2 b3
      decide +kernel
  · show (movemask 64 k &&& 1) + movemask 64 k >>> 1 = _
    have hm : movemask 64 k < 4 := movemask_lt 64 k
    have h0 := movemask_isMask (by decide) h 0
    have h1 := movemask_isMask (by decide) h 1
    have e2 : List.range (128 / 64) = [0,1] := by decide
    rw [e2]
    simp only [List.countP_cons, List.countP_nil]
    generalize b 0 = b0 at *
    generalize b 1 = b1 at *
    generalize movemask 64 k = m at *
    revert m b0 b1
    decide

/-- The mask of lanes 0 and 3 of four. -/
def exMask4 : M128 := maskGenerate 32 fun i => i == 0 || i == 3

/-- `generate(gen)`: lane `i` is `gen(i)`. -/
theorem C36_generate (w : Nat) (gen : Nat → Bool) : IsMask w (maskGenerate w gen) gen :=
  isMask_of fun _ hi => lane_ofLanes _ hi

example : maskToInt 4 exMask4 = 9 ∧ maskCount sse2 4 exMask4 = 2 := by
  have h : IsMask 32 exMask4 _ := C36_generate 32 _
  refine ⟨Nat.eq_of_testBit_eq fun i => ?_, C36_count sse2 (.inr (.inr (.inl rfl))) h⟩
  rw [show 4 = 128 / 32 from rfl, C36_toInt (.inr (.inr (.inl rfl))) h]
  match i with
  | 0 | 1 | 2 | 3 => decide
  | n + 4 =>
    have : (9 : Nat) < 2 ^ (n + 4) := Nat.lt_of_lt_of_le (by decide : 9 < 2 ^ 4)
      (Nat.pow_le_pow_right (by decide) (by omega))
    rw [Nat.testBit_lt_two_pow this]
    simp

/-- `store(bool *)` writes the truth values, one byte per lane. -/
theorem C36_store {w : Nat} (hw : MaskWidth w) {k : M128} {b : Nat → Bool} (h : IsMask w k b) :
    maskStore (128 / w) k = (List.range (128 / w)).map fun i => boolByte (b i) := by
  rcases hw with rfl | rfl | rfl | rfl
  · show (List.range 16).map (lane 8 (k &&& set1 8 1#8)) = _
    apply List.map_congr_left
    intro i hi
    have hi := List.mem_range.mp hi
    rw [lane_and, h.lane_eq (by omega), lane_set1 _ (by omega)]
    cases b i <;> decide
  · show (List.range 8).map (lane 8 (packs 8 (srliEpi 16 k 15) 0#128)) = _
    apply List.map_congr_left
    intro i hi
    have hi := List.mem_range.mp hi
    rw [lane_packs _ _ (by omega), if_pos (by omega)]
    have e : lane (2 * 8) (srliEpi 16 k 15) i = if b i then 1#16 else 0#16 :=
      srli_mask (.inl rfl) h (by omega)
    rw [e]
    cases b i <;> decide
  · show (List.range 4).map (lane 8 (packs 8 (srliEpi 16 (packs 16 k 0#128) 15) 0#128)) = _
    apply List.map_congr_left
    intro i hi
    have hi := List.mem_range.mp hi
    rw [lane_packs _ _ (by omega), if_pos (by omega)]
    have e : lane (2 * 8) (srliEpi 16 (packs 16 k 0#128) 15) i = if b i then 1#16 else 0#16 := by
      show lane 16 _ _ = _
      rw [srliEpi, lane_map1 _ _ (by omega), lane_packs _ _ (by omega), if_pos (by omega)]
      have e : lane (2 * 16) k i = laneMask (b i) := h.lane_eq (by omega)
      rw [e]
      cases b i <;> decide
    rw [e]
    cases b i <;> decide
  · have hn : IsMask 8 k (fun i => b (i / 8)) := h.narrow (v := 8) (c := 8) (by decide) (by decide) (by decide)
    have h0 := movemask_isMask (by decide) hn 0
    have h8 := movemask_isMask (by decide) hn 8
    have e : movemask 8 k &&& 0x0101 = (if b 0 then 1 else 0) + (if b 1 then 256 else 0) := by
      apply Nat.eq_of_testBit_eq
      intro i
      rw [Nat.testBit_and]
      by_cases i0 : i = 0
      · subst i0; rw [h0]; simp only [Nat.zero_div]; cases b 0 <;> cases b 1 <;> decide
      · by_cases i8 : i = 8
        · subst i8; rw [h8]; simp only [Nat.reduceDiv]; cases b 0 <;> cases b 1 <;> decide
        · have t : ∀ n, n = 0 ∨ n = 1 ∨ n = 256 ∨ n = 257 → n.testBit i = false := by
            intro n hn
            by_cases hi : i < 9
            · have : i = 1 ∨ i = 2 ∨ i = 3 ∨ i = 4 ∨ i = 5 ∨ i = 6 ∨ i = 7 := by omega
              rcases hn with rfl | rfl | rfl | rfl <;>
                rcases this with rfl | rfl | rfl | rfl | rfl | rfl | rfl <;> decide
            · apply Nat.testBit_lt_two_pow
              have : 2 ^ 9 ≤ 2 ^ i := Nat.pow_le_pow_right (by decide) (by omega)
              omega
          have t2 := t ((if b 0 then 1 else 0) + (if b 1 then 256 else 0))
            (by cases b 0 <;> cases b 1 <;> decide)
          rw [t 0x0101 (by decide), t2]
          simp
    show [lane 8 (BitVec.ofNat 16 (movemask 8 k &&& 0x0101)) 0,
      lane 8 (BitVec.ofNat 16 (movemask 8 k &&& 0x0101)) 1] = [boolByte (b 0), boolByte (b 1)]
    rw [e]
    cases b 0 <;> cases b 1 <;> decide

/-- `load(const bool *)` reads the truth values, whatever the mask was before. -/
theorem C36_load {w : Nat} (hw : MaskWidth w) (old : M128) (b : Nat → Bool) {mem : Nat → BitVec 8}
    (h : ∀ i, i < 128 / w → mem i = boolByte (b i)) : IsMask w (maskLoad (128 / w) old mem) b := by
  have gt8 : ∀ p, laneMask (decide ((0#8).toInt < (boolByte p).toInt)) = (laneMask p : BitVec 8) := by
    decide
  have w16 : ∀ (k : M128) i, i < 8 → lane 8 k i = boolByte (b i) →
      lane 16 (cmpgtEpi 16 (unpacklo 8 k k) 0#128) i = laneMask (b i) := by
    intro k i hi hk
    rw [lane_cmpgtEpi (by omega), lane_zero]
    have u := unpacklo_wide (v := 8) (i := i) (by omega) k k
    have e : lane 16 (unpacklo 8 k k) i = if b i then 0x0101#16 else 0#16 := by
      apply (eq_halves (v := 8) (by decide) _ _).mpr
      constructor
      · refine Eq.trans u.2 (hk.trans ?_); cases b i <;> decide
      · refine Eq.trans u.1 (hk.trans ?_); cases b i <;> decide
    rw [e]
    cases b i <;> decide
  rcases hw with rfl | rfl | rfl | rfl
  · apply isMask_of
    intro i hi
    show lane 8 (cmpgtEpi 8 (ofLanes 8 mem) 0#128) i = _
    rw [lane_cmpgtEpi hi, lane_zero, lane_ofLanes _ hi, h i (by omega), gt8]
  · apply isMask_of
    intro i hi
    have hi8 : i < 8 := by omega
    apply w16 _ i hi8
    rw [lane_ofLanes _ (by omega), if_pos hi8, h i (by omega)]
  · apply isMask_of
    intro i hi
    have hi4 : i < 4 := by omega
    have e := w16 (ofLanes 8 fun i => if i < 4 then mem i else 0#8) i (by omega) (by
      rw [lane_ofLanes _ (by omega), if_pos hi4, h i (by omega)])
    have u := unpacklo_wide (v := 16) (i := i) (by omega)
      (cmpgtEpi 16 (unpacklo 8 (ofLanes 8 fun i => if i < 4 then mem i else 0#8)
        (ofLanes 8 fun i => if i < 4 then mem i else 0#8)) 0#128)
      (cmpgtEpi 16 (unpacklo 8 (ofLanes 8 fun i => if i < 4 then mem i else 0#8)
        (ofLanes 8 fun i => if i < 4 then mem i else 0#8)) 0#128)
    apply (eq_halves (v := 16) (by decide) _ _).mpr
    constructor
    · exact u.2.trans (e.trans (lane_laneMask (v := 16) (c := 2) (j := 1) (by decide) _).symm)
    · exact u.1.trans (e.trans (lane_laneMask (v := 16) (c := 2) (j := 0) (by decide) _).symm)
  · have mb : ∀ p, maskBool 64 (boolByte p != 0#8) = laneMask p := by decide
    apply isMask_of
    intro i hi
    have : i = 0 ∨ i = 1 := by omega
    show lane 64 (setLane 64 (setLane 64 old 0 _) 1 _) i = _
    unfold setLane
    rw [lane_ofLanes _ hi]
    rcases this with rfl | rfl
    · rw [if_neg (by decide), lane_ofLanes _ hi, if_pos rfl, h 0 (by decide), mb]
    · rw [if_pos rfl, h 1 (by decide), mb]

/-- Storing a mask and loading it again gives the same register. -/
theorem C36_store_load {w : Nat} (hw : MaskWidth w) {k : M128} {b : Nat → Bool} (h : IsMask w k b)
    (old : M128) : maskLoad (128 / w) old (fun i => (maskStore (128 / w) k).getD i 0#8) = k := by
  have hl : IsMask w (maskLoad (128 / w) old (fun i => (maskStore (128 / w) k).getD i 0#8)) b := by
    apply C36_load hw
    intro i hi
    rw [C36_store hw h]
    simp [List.getD, hi]
  apply reg_ext w (mw_pos hw) (by rcases hw with rfl | rfl | rfl | rfl <;> decide)
  intro i hi
  have : w * (i + 1) ≤ 128 := by
    have := Nat.mul_le_mul_left w (show i + 1 ≤ 128 / w from hi)
    have := Nat.mul_div_le 128 w
    omega
  rw [hl.lane_eq this, h.lane_eq this]

example : maskStore 4 exMask4 = [1#8, 0#8, 0#8, 1#8] ∧
    maskLoad 4 0#128 (fun i => (maskStore 4 exMask4).getD i 0#8) = exMask4 := by
  have h : IsMask 32 exMask4 _ := C36_generate 32 _
  exact ⟨C36_store (.inr (.inr (.inl rfl))) h, C36_store_load (.inr (.inr (.inl rfl))) h _⟩

/-! ### Comparison and queries -/

private theorem lanes_lt {w i : Nat} (hi : i < 128 / w) : w * (i + 1) ≤ 128 := by
  have := Nat.mul_le_mul_left w (show i + 1 ≤ 128 / w from hi)
  have := Nat.mul_div_le 128 w
  omega

private theorem movemask_inj {w : Nat} (hw : 0 < w) {k k' : M128} {b b' : Nat → Bool}
    (h : IsMask w k b) (h' : IsMask w k' b') :
    movemask w k = movemask w k' ↔ ∀ i, i < 128 / w → b i = b' i := by
  constructor
  · intro e i hi
    have h1 := movemask_isMask hw h i
    have h2 := movemask_isMask hw h' i
    rw [e, h2] at h1
    simpa [hi] using h1.symm
  · intro e
    apply Nat.eq_of_testBit_eq
    intro i
    rw [movemask_isMask hw h, movemask_isMask hw h']
    by_cases hi : i < 128 / w
    · rw [e i hi]
    · simp [hi]

/-- `==` and `!=` compare all lanes. -/
theorem C36_equal {w : Nat} (hw : MaskWidth w) {k k' : M128} {b b' : Nat → Bool}
    (h : IsMask w k b) (h' : IsMask w k' b') :
    (maskEqual (128 / w) k k' = true ↔ ∀ i, i < 128 / w → b i = b' i) ∧
    maskNotEqual (128 / w) k k' = !maskEqual (128 / w) k k' := by
  refine ⟨?_, ?_⟩
  · rcases hw with rfl | rfl | rfl | rfl
    · show (movemask 8 k == movemask 8 k') = true ↔ _
      rw [beq_iff_eq, movemask_inj (by decide) h h']
    · show (movemask 8 k == movemask 8 k') = true ↔ _
      have n : IsMask 8 k (fun i => b (i / 2)) := h.narrow (v := 8) (c := 2) (by decide) (by decide) (by decide)
      have n' : IsMask 8 k' (fun i => b' (i / 2)) := h'.narrow (v := 8) (c := 2) (by decide) (by decide) (by decide)
      rw [beq_iff_eq, movemask_inj (by decide) n n']
      constructor
      · intro e i hi
        have := e (2 * i) (by omega)
        simpa using this
      · intro e i hi
        exact e (i / 2) (by omega)
    · show (movemask 32 k == movemask 32 k') = true ↔ _
      rw [beq_iff_eq, movemask_inj (by decide) h h']
    · show (movemask 64 k == movemask 64 k') = true ↔ _
      rw [beq_iff_eq, movemask_inj (by decide) h h']
  · rcases hw with rfl | rfl | rfl | rfl <;> rfl

private theorem reg_zero_iff {w : Nat} (hw : MaskWidth w) {k : M128} {b : Nat → Bool}
    (h : IsMask w k b) : k = 0#128 ↔ ∀ i, i < 128 / w → b i = false := by
  have hz := isMask_zero (n := 128) w
  constructor
  · rintro rfl i hi
    have := (h.lane_eq (lanes_lt hi)).symm.trans (hz.lane_eq (lanes_lt hi))
    have m := congrArg BitVec.msb this
    rwa [laneMask_msb (mw_pos hw), laneMask_msb (mw_pos hw)] at m
  · intro e
    apply reg_ext w (mw_pos hw) (by rcases hw with rfl | rfl | rfl | rfl <;> decide)
    intro i hi
    rw [h.lane_eq (lanes_lt hi), hz.lane_eq (lanes_lt hi), e i hi]

private theorem movemask8_zero {w : Nat} (hw : MaskWidth w) {k : M128} {b : Nat → Bool}
    (h : IsMask w k b) : movemask 8 k = 0 ↔ ∀ i, i < 128 / w → b i = false := by
  obtain ⟨c, rfl, hc, hd⟩ : ∃ c, w = 8 * c ∧ 0 < c ∧ 8 * c ∣ 128 := by
    rcases hw with rfl | rfl | rfl | rfl
    · exact ⟨1, by decide⟩
    · exact ⟨2, by decide⟩
    · exact ⟨4, by decide⟩
    · exact ⟨8, by decide⟩
  have n : IsMask 8 k (fun i => b (i / c)) := h.narrow hc (by decide) hd
  have z := movemask_inj (by decide) n (isMask_zero 8)
  have e0 : movemask 8 (0#128) = 0 := by
    apply Nat.eq_of_testBit_eq
    intro i
    rw [movemask_isMask (by decide) (isMask_zero 8)]
    simp
  rw [e0] at z
  rw [z]
  constructor
  · intro e i hi
    have := e (c * i) (by
      have := lanes_lt hi
      rw [Nat.mul_assoc, Nat.mul_add] at this
      omega)
    simpa [Nat.mul_div_cancel_left i hc] using this
  · intro e i hi
    apply e
    rw [← Nat.div_div_eq_div_mul]
    apply Nat.div_lt_of_lt_mul
    obtain ⟨d, hd⟩ := hd
    have e16 : c * d = 16 := by rw [Nat.mul_assoc] at hd; omega
    rw [Nat.mul_div_cancel' ⟨d, by omega⟩]
    omega

theorem isMask_not {w : Nat} {k : M128} {b : Nat → Bool} (h : IsMask w k b) :
    IsMask w (~~~k) (fun i => !b i) :=
  isMask_of fun i hi => by rw [lane_not _ hi, h.lane_eq hi, not_laneMask]

private theorem movemask8_ones {w : Nat} (hw : MaskWidth w) {k : M128} {b : Nat → Bool}
    (h : IsMask w k b) : movemask 8 k = 0xffff ↔ ∀ i, i < 128 / w → b i = true := by
  have n := movemask8_zero hw (isMask_not h)
  have e : movemask 8 k = 0xffff ↔ movemask 8 (~~~k) = 0 := by
    have t : ∀ i, (movemask 8 (~~~k)).testBit i = (decide (i < 16) && !(movemask 8 k).testBit i) := by
      intro i
      rw [movemask_testBit, movemask_testBit]
      by_cases hi : i < 16
      · rw [lane_not _ (by omega), BitVec.msb_not]
        simp [hi]
      · simp [hi]
    constructor
    · intro e
      apply Nat.eq_of_testBit_eq
      intro i
      rw [t, e, show (0xffff : Nat) = 2 ^ 16 - 1 from rfl, Nat.testBit_two_pow_sub_one]
      simp
    · intro e
      apply Nat.eq_of_testBit_eq
      intro i
      have := t i
      rw [e] at this
      rw [show (0xffff : Nat) = 2 ^ 16 - 1 from rfl, Nat.testBit_two_pow_sub_one]
      by_cases hi : i < 16
      · simpa [hi] using this
      · rw [movemask_testBit]; simp [hi]
  rw [e, n]
  simp

/-- `isEmpty`, `isNotEmpty`, `isFull`, `isMix`, with and without the `ptest` instruction. -/
theorem C36_queries (ptest : Bool) {w : Nat} (hw : MaskWidth w) {k : M128} {b : Nat → Bool}
    (h : IsMask w k b) :
    (maskIsEmpty ptest k = true ↔ ∀ i, i < 128 / w → b i = false) ∧
    (maskIsNotEmpty ptest k = true ↔ ∃ i, i < 128 / w ∧ b i = true) ∧
    (maskIsFull ptest k = true ↔ ∀ i, i < 128 / w → b i = true) ∧
    (maskIsMix ptest k = true ↔
      (∃ i, i < 128 / w ∧ b i = true) ∧ ∃ i, i < 128 / w ∧ b i = false) := by
  have ex1 : (∃ i, i < 128 / w ∧ b i = true) ↔ ¬ ∀ i, i < 128 / w → b i = false := by
    simp
  have ex0 : (∃ i, i < 128 / w ∧ b i = false) ↔ ¬ ∀ i, i < 128 / w → b i = true := by
    simp
  rw [ex1, ex0]
  cases ptest
  · rw [← movemask8_zero hw h, ← movemask8_ones hw h]
    simp only [maskIsEmpty, maskIsNotEmpty, maskIsFull, maskIsMix, Bool.false_eq_true, if_false]
    refine ⟨by simp, by simp, by simp, ?_⟩
    have : movemask 8 k ^^^ 0xffff = 0 ↔ movemask 8 k = 0xffff := by
      constructor
      · intro e
        apply Nat.eq_of_testBit_eq
        intro i
        have := congrArg (fun n => Nat.testBit n i) e
        simpa using this
      · intro e; rw [e]; rfl
    simp [this]
  · have z := reg_zero_iff hw h
    have o := reg_zero_iff hw (isMask_not h)
    simp only [Bool.not_eq_false'] at o
    have a1 : ∀ x : M128, x &&& BitVec.allOnes 128 = x := fun x => BitVec.and_allOnes
    rw [← z, ← o]
    simp only [maskIsEmpty, maskIsNotEmpty, maskIsFull, maskIsMix, if_true, testz, testc, testnzc,
      BitVec.and_self, a1]
    refine ⟨?_, ?_, ?_, ?_⟩
    · split <;> rename_i hh <;> simp [hh]
    · split <;> rename_i hh <;> simp [hh]
    · split
      · rename_i hh; exact ⟨fun _ => hh, fun _ => rfl⟩
      · rename_i hh; exact ⟨fun c => by simp at c, fun c => absurd c hh⟩
    · split
      · rename_i hh; exact ⟨fun _ => hh, fun _ => rfl⟩
      · rename_i hh; exact ⟨fun c => by simp at c, fun c => absurd c hh⟩

example : maskIsMix true exMask4 = true := by
  have h : IsMask 32 exMask4 _ := C36_generate 32 _
  exact (C36_queries true (.inr (.inr (.inl rfl))) h).2.2.2.mpr
    ⟨⟨0, by decide, by decide⟩, ⟨1, by decide, by decide⟩⟩

/-- `operator[]` reads the lane; assignment through it changes that lane only. -/
theorem C36_subscript {w : Nat} (hw : MaskWidth w) {k : M128} {b : Nat → Bool} (h : IsMask w k b)
    {i : Nat} (hi : i < 128 / w) :
    maskGet (128 / w) k i = b i ∧
    ∀ v, IsMask w (maskSet w k i v) (fun j => if j = i then v else b j) := by
  have tb : ∀ x n : Nat, ((x &&& 1 <<< n) != 0) = x.testBit n := by
    intro x n
    rw [Nat.one_shiftLeft]
    by_cases hx : x.testBit n = true
    · rw [hx, bne_iff_ne]
      intro e
      have := congrArg (fun m => Nat.testBit m n) e
      simp [Nat.testBit_and, hx] at this
    · have : x &&& 2 ^ n = 0 := by
        apply Nat.eq_of_testBit_eq
        intro j
        rw [Nat.testBit_and, Nat.testBit_two_pow, Nat.zero_testBit]
        by_cases hj : n = j
        · subst hj; simp [hx]
        · simp [hj]
      rw [this]
      simp at hx
      rw [hx]; rfl
  refine ⟨?_, fun v => isMask_of fun j hj => ?_⟩
  · rcases hw with rfl | rfl | rfl | rfl
    · show ((maskToInt 16 k &&& 1 <<< i) != 0) = _
      rw [tb, C36_toInt (w := 8) (.inl rfl) h]
      exact (Bool.and_eq_right_iff_imp.mpr fun _ => decide_eq_true hi)
    · show ((movemask 8 k &&& 1 <<< (2 * i)) != 0) = _
      have n : IsMask 8 k (fun i => b (i / 2)) := h.narrow (v := 8) (c := 2) (by decide) (by decide) (by decide)
      rw [tb, movemask_isMask (by decide) n]
      have : 2 * i < 128 / 8 := by omega
      simp [this]
    · show ((maskToInt 4 k &&& 1 <<< i) != 0) = _
      rw [tb, C36_toInt (w := 32) (.inr (.inr (.inl rfl))) h]
      exact (Bool.and_eq_right_iff_imp.mpr fun _ => decide_eq_true hi)
    · show ((maskToInt 2 k &&& 1 <<< i) != 0) = _
      rw [tb, C36_toInt (w := 64) (.inr (.inr (.inr rfl))) h]
      exact (Bool.and_eq_right_iff_imp.mpr fun _ => decide_eq_true hi)
  · unfold maskSet setLane
    rw [lane_ofLanes _ hj]
    split
    · cases v
      · simp [maskBool, laneMask]
      · simp only [maskBool, laneMask, if_true]
        rw [BitVec.neg_one_eq_allOnes]
    · exact h.lane_eq hj

/-- `firstOne()`: the first true lane of a mask that is not empty. -/
theorem C36_firstOne {w : Nat} (hw : MaskWidth w) {k : M128} {b : Nat → Bool} (h : IsMask w k b)
    (hne : ∃ i, i < 128 / w ∧ b i = true) :
    ∃ i, maskFirstOne (128 / w) k = some i ∧ i < 128 / w ∧ b i = true ∧ ∀ j, j < i → b j = false := by
  obtain ⟨i0, h0, h1⟩ := hne
  have hnz : maskToInt (128 / w) k ≠ 0 := by
    intro e
    have := C36_toInt hw h i0
    rw [e, h1] at this
    simp [h0] at this
  obtain ⟨i, e, hi, hj⟩ := bsf_spec _ hnz
  rw [C36_toInt hw h, Bool.and_eq_true, decide_eq_true_eq] at hi
  refine ⟨i, e, hi.1, hi.2, fun j hjj => ?_⟩
  have := hj j hjj
  rw [C36_toInt hw h] at this
  have hlt : j < 128 / w := by omega
  simpa [hlt] using this

/-- Logical operators act on the truth values. -/
theorem C36_logic {w : Nat} {k k' : M128} {b b' : Nat → Bool} (h : IsMask w k b)
    (h' : IsMask w k' b') :
    IsMask w (k &&& k') (fun i => b i && b' i) ∧ IsMask w (k ||| k') (fun i => b i || b' i) ∧
    IsMask w (k ^^^ k') (fun i => b i ^^ b' i) ∧ IsMask w (vnot k) (fun i => !b i) := by
  refine ⟨isMask_of fun i hi => ?_, isMask_of fun i hi => ?_, isMask_of fun i hi => ?_,
    isMask_of fun i hi => ?_⟩
  · rw [lane_and, h.lane_eq hi, h'.lane_eq hi, laneMask_and]
  · rw [lane_or, h.lane_eq hi, h'.lane_eq hi, laneMask_or]
  · rw [lane_xor, h.lane_eq hi, h'.lane_eq hi]
    cases b i <;> cases b' i <;> simp [laneMask]
  · rw [lane_vnot hi, h.lane_eq hi, not_laneMask]

/-- `shifted(amount)`: lane `i` is lane `i + amount`, false outside; for every amount whose byte count
is an `int`. -/
theorem C36_shifted {w : Nat} (hw : MaskWidth w) {k : M128} {b : Nat → Bool} (h : IsMask w k b)
    (amount : Int) (ha : -2 ^ 31 ≤ amount * (w / 8 : Nat) ∧ amount * (w / 8 : Nat) < 2 ^ 31) :
    ∃ r, maskShifted (w / 8) k amount = some r ∧
      IsMask w r (fun i => if 0 ≤ (i : Int) + amount ∧ (i : Int) + amount < (128 / w : Nat)
        then b (i + amount).toNat else false) := by
  unfold maskShifted
  simp only [ha, and_self, if_true]
  refine ⟨_, rfl, ?_⟩
  have hz : IsMask w 0#128 (fun _ => false) := isMask_zero w
  obtain ⟨c, rfl, hc, hd⟩ : ∃ c, w = 8 * c ∧ 0 < c ∧ 8 * c * (128 / (8 * c)) = 128 := by
    rcases hw with rfl | rfl | rfl | rfl
    · exact ⟨1, by decide⟩
    · exact ⟨2, by decide⟩
    · exact ⟨4, by decide⟩
    · exact ⟨8, by decide⟩
  have hcw : 8 * c / 8 = c := by omega
  rw [hcw]
  generalize hN : 128 / (8 * c) = N at *
  have hcN : c * N = 16 := by rw [Nat.mul_assoc] at hd; omega
  have lt_of : ∀ x y : Int, x * c < y * c → x < y := fun x y hxy =>
    Int.lt_of_mul_lt_mul_right hxy (by omega)
  have le_of : ∀ x y : Int, x * c ≤ y * c → x ≤ y := fun x y hxy =>
    Int.le_of_mul_le_mul_right hxy (by omega)
  have hNc : (N : Int) * c = 16 := by rw [← Int.natCast_mul, Nat.mul_comm, hcN]; rfl
  have iN : ∀ i : Nat, 8 * c * (i + 1) ≤ 128 → i < N := fun i hi => by
    rw [← hd] at hi
    have := Nat.le_of_mul_le_mul_left hi (by omega)
    omega
  split
  · rename_i hp
    have h0 : 0 < amount := lt_of _ _ (by omega)
    have e : 8 * (amount * c).toNat = 8 * c * amount.toNat := by
      have : (amount * c).toNat = amount.toNat * c := by
        rw [Int.toNat_mul (by omega) (by omega)]; rfl
      rw [this, Nat.mul_assoc, Nat.mul_comm c]
    apply isMask_of
    intro i hi
    rw [lane_srliSi128 (w := 8 * c) (j := amount.toNat) _ e]
    by_cases hin : (i : Int) + amount < N
    · rw [if_pos ⟨by omega, hin⟩]
      have : i + amount.toNat < N := by omega
      have hl := h.lane_eq (i := i + amount.toNat) (by
        have := Nat.mul_le_mul_left (8 * c) (show i + amount.toNat + 1 ≤ N from this)
        omega)
      rw [hl]
      congr 2
      omega
    · rw [if_neg (by omega), lane_out]
      · rfl
      · have := Nat.mul_le_mul_left (8 * c) (show N ≤ i + amount.toNat by omega)
        omega
  · split
    · rename_i hn hp
      have h0 : amount < 0 := lt_of _ _ (by omega)
      have e : 8 * (-(amount * c)).toNat = 8 * c * (-amount).toNat := by
        have : (-(amount * c)).toNat = (-amount).toNat * c := by
          rw [← Int.neg_mul, Int.toNat_mul (by omega) (by omega)]; rfl
        rw [this, Nat.mul_assoc, Nat.mul_comm c]
      apply isMask_of
      intro i hi
      rw [lane_slliSi128 (w := 8 * c) (j := (-amount).toNat) _ e hi]
      have := iN i hi
      by_cases hin : 0 ≤ (i : Int) + amount
      · rw [if_neg (by omega), if_pos ⟨hin, by omega⟩]
        have hl := h.lane_eq (i := i - (-amount).toNat) (by
          have := Nat.mul_le_mul_left (8 * c) (show i - (-amount).toNat + 1 ≤ i + 1 by omega)
          omega)
        rw [hl]
        congr 2
        omega
      · rw [if_pos (by omega), if_neg (by omega)]
        rfl
    · split
      · rename_i h1 h2 h3
        have h0 : amount = 0 := by
          have := Int.mul_eq_zero.mp h3
          omega
        subst h0
        apply h.congr
        intro i hi
        have := iN i hi
        rw [if_pos (by omega)]
        simp
      · rename_i h1 h2 h3
        apply hz.congr
        intro i hi
        have := iN i hi
        rw [if_neg]
        intro hh
        by_cases ha0 : 0 < amount * c
        · have : (N : Int) ≤ amount := le_of _ _ (by omega)
          omega
        · have : amount ≤ -(N : Int) := le_of _ _ (by rw [Int.neg_mul]; omega)
          omega

example : ∃ r, maskShifted 4 exMask4 1 = some r ∧ maskStore 4 r = [0#8, 0#8, 1#8, 0#8] := by
  have h : IsMask 32 exMask4 _ := C36_generate 32 _
  obtain ⟨r, e, hr⟩ := C36_shifted (.inr (.inr (.inl rfl))) h 1 (by decide)
  exact ⟨r, e, C36_store (.inr (.inr (.inl rfl))) hr⟩

/-! ### Casts -/

/-- Casting a mask to another lane width keeps the lanes both have; new lanes are false. -/
theorem C36_cast {v w : Nat} (hv : MaskWidth v) (hw : MaskWidth w)
    (hs : w = 8 → v = 8) {k : M128} {b : Nat → Bool} (h : IsMask v k b) :
    ∃ r, maskCast (128 / v) (128 / w) k = some r ∧
      IsMask w r (fun i => if i < 128 / v then b i else false) := by
  have keep : ∀ {r : M128} {b' : Nat → Bool}, IsMask w r b' → (∀ i, w * (i + 1) ≤ 128 →
      b' i = if i < 128 / v then b i else false) →
      IsMask w r (fun i => if i < 128 / v then b i else false) := fun hr e => hr.congr e
  rcases hv with rfl | rfl | rfl | rfl <;> rcases hw with rfl | rfl | rfl | rfl
  · exact ⟨k, rfl, keep h fun i hi => (if_pos (by omega)).symm⟩
  · exact ⟨_, rfl, keep (unpacklo_isMask (v := 8) (by decide) h) fun i hi =>
      (if_pos (by omega)).symm⟩
  · exact ⟨_, rfl, keep (unpacklo_isMask (v := 16) (by decide)
      (unpacklo_isMask (v := 8) (by decide) h)) fun i hi => (if_pos (by omega)).symm⟩
  · exact ⟨_, rfl, keep (unpacklo_isMask (v := 32) (by decide) (unpacklo_isMask (v := 16) (by decide)
      (unpacklo_isMask (v := 8) (by decide) h))) fun i hi => (if_pos (by omega)).symm⟩
  · exact absurd (hs rfl) (by decide)
  · exact ⟨k, rfl, keep h fun i hi => (if_pos (by omega)).symm⟩
  · exact ⟨_, rfl, keep (unpacklo_isMask (v := 16) (by decide) h) fun i hi =>
      (if_pos (by omega)).symm⟩
  · exact ⟨_, rfl, keep (unpacklo_isMask (v := 32) (by decide) (unpacklo_isMask (v := 16) (by decide)
      h)) fun i hi => (if_pos (by omega)).symm⟩
  · exact absurd (hs rfl) (by decide)
  · exact ⟨_, rfl, keep (packs_isMask (c := 2) (by decide) h (isMask_zero 32)) fun i hi => rfl⟩
  · exact ⟨k, rfl, keep h fun i hi => (if_pos (by omega)).symm⟩
  · exact ⟨_, rfl, keep (unpacklo_isMask (v := 32) (by decide) h) fun i hi =>
      (if_pos (by omega)).symm⟩
  · exact absurd (hs rfl) (by decide)
  · refine ⟨_, rfl, keep (packs_isMask (c := 2) (by decide)
      (packs_isMask (c := 4) (by decide) h (isMask_zero 64)) (isMask_zero 32)) fun i hi => ?_⟩
    simp only [Nat.reduceDiv]
    by_cases h2 : i < 2
    · rw [if_pos (by omega), if_pos h2]
    · by_cases h4 : i < 4
      · rw [if_pos h4, if_neg h2]
      · rw [if_neg h4, if_neg h2]
  · exact ⟨_, rfl, keep (packs_isMask (c := 4) (by decide) h (isMask_zero 64)) fun i hi => rfl⟩
  · exact ⟨k, rfl, keep h fun i hi => (if_pos (by omega)).symm⟩

/-- Casting several masks to one: the lanes of all sources in order, then false. -/
theorem C36_cast_join {k0 k1 k2 k3 : M128} {b0 b1 b2 b3 : Nat → Bool} :
    (∀ c, c = 1 ∨ c = 2 ∨ c = 4 → IsMask (16 * c) k0 b0 → IsMask (16 * c) k1 b1 →
      IsMask (8 * c) (maskCast2 k0 k1) (fun i => if i < 8 / c then b0 i else b1 (i - 8 / c))) ∧
    (IsMask 64 k0 b0 → IsMask 64 k1 b1 → IsMask 16 (maskCast2Quarter k0 k1)
      (fun i => if i < 2 then b0 i else if i < 4 then b1 (i - 2) else false)) ∧
    (IsMask 64 k0 b0 → IsMask 64 k1 b1 → IsMask 64 k2 b2 → IsMask 64 k3 b3 →
      IsMask 16 (maskCast4 k0 k1 k2 k3)
        (fun i => if i < 2 then b0 i else if i < 4 then b1 (i - 2)
          else if i < 6 then b2 (i - 4) else b3 (i - 6))) := by
  refine ⟨fun c hc h0 h1 => packs_isMask hc h0 h1, fun h0 h1 => ?_, fun h0 h1 h2 h3 => ?_⟩
  · refine (packs_isMask (c := 2) (by decide) (packs_isMask (c := 4) (by decide) h0 h1)
      (isMask_zero 32)).congr fun i hi => ?_
    simp only [Nat.reduceDiv]
    by_cases h2 : i < 2
    · rw [if_pos (by omega), if_pos h2, if_pos h2]
    · by_cases h4 : i < 4
      · rw [if_pos h4, if_neg h2, if_neg h2, if_pos h4]
      · rw [if_neg h4, if_neg h2, if_neg h4]
  · refine (packs_isMask (c := 2) (by decide) (packs_isMask (c := 4) (by decide) h0 h1)
      (packs_isMask (c := 4) (by decide) h2 h3)).congr fun i hi => ?_
    simp only [Nat.reduceDiv]
    by_cases h2 : i < 2
    · rw [if_pos (by omega), if_pos h2, if_pos h2]
    · by_cases h4 : i < 4
      · rw [if_pos h4, if_neg h2, if_neg h2, if_pos h4]
      · rw [if_neg h4, if_neg h2, if_neg h4]
        by_cases h6 : i < 6
        · rw [if_pos (by omega), if_pos h6]
        · rw [if_neg (by omega), if_neg h6]
          congr 1

example : ∃ r, maskCast 4 8 exMask4 = some r ∧
    maskStore 8 r = [1#8, 0#8, 0#8, 1#8, 0#8, 0#8, 0#8, 0#8] := by
  have h : IsMask 32 exMask4 _ := C36_generate 32 _
  obtain ⟨r, e, hr⟩ := C36_cast (w := 16) (.inr (.inr (.inl rfl))) (.inr (.inl rfl)) (by decide) h
  exact ⟨r, e, C36_store (.inr (.inl rfl)) hr⟩

/-- Casting with an offset reads the lanes `offset * size` onwards, `size` being the number of lanes of
the result. -/
theorem C36_cast_offset {v w : Nat} (hv : MaskWidth v) (hw : MaskWidth w) (hs : w = 8 → v = 8)
    {k : M128} {b : Nat → Bool} (h : IsMask v k b) {offset : Nat} (h0 : 0 < offset)
    (hin : offset * (128 / w) < 128 / v) :
    ∃ r, maskCastOffset v w offset k = some r ∧
      IsMask w r (fun i => if offset * (128 / w) + i < 128 / v then b (offset * (128 / w) + i)
        else false) := by
  have hsh : castShift v offset (128 / w) = some (v / 8 * offset * (128 / w)) := by
    unfold castShift
    rw [if_pos]
    rw [Nat.mul_assoc]
    generalize hp : offset * (128 / w) = p at *
    have : 0 < p := by
      rw [← hp]; apply Nat.mul_pos h0; rcases hw with rfl | rfl | rfl | rfl <;> decide
    rcases hv with rfl | rfl | rfl | rfl <;> simp only [Nat.reduceDiv] at * <;> omega
  have hm : IsMask v (srliSi128 k (v / 8 * offset * (128 / w)))
      (fun i => if offset * (128 / w) + i < 128 / v then b (offset * (128 / w) + i) else false) := by
    apply isMask_of
    intro i hi
    rw [lane_srliSi128 (j := offset * (128 / w)) _ (by
      rw [Nat.mul_assoc, ← Nat.mul_assoc 8]
      congr 1
      rcases hv with rfl | rfl | rfl | rfl <;> rfl)]
    generalize offset * (128 / w) = p at *
    split
    · rename_i hlt
      rw [h.lane_eq (by
        have := lanes_lt (w := v) hlt
        rwa [Nat.add_comm i]), Nat.add_comm]
    · rename_i hge
      rw [lane_out]; · rfl
      rcases hv with rfl | rfl | rfl | rfl <;> simp only [Nat.reduceDiv] at * <;> omega
  obtain ⟨r, e, hr⟩ := C36_cast hv hw hs hm
  refine ⟨r, by unfold maskCastOffset; rw [hsh]; exact e, hr.congr fun i _ => ?_⟩
  by_cases hi : i < 128 / v
  · rw [if_pos hi]
  · rw [if_neg hi, if_neg (by omega)]

example : ∃ r, maskCastOffset 16 32 1 (maskGenerate 16 fun i => i == 5) = some r ∧
    maskStore 4 r = [0#8, 1#8, 0#8, 0#8] := by
  have h := C36_generate 16 fun i => i == 5
  obtain ⟨r, e, hr⟩ := C36_cast_offset (w := 32) (.inr (.inl rfl)) (.inr (.inr (.inl rfl)))
    (by decide) h (offset := 1) (by decide) (by decide)
  exact ⟨r, e, C36_store (.inr (.inr (.inl rfl))) hr⟩

end Vc.Prop
