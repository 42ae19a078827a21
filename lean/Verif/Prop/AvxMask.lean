import Verif.Lemma.AvxMask
import Verif.Prop.SseMask

/-!
C63: queries and conversions of AVX masks.

A mask with lanes of `w` bits (16, 32 or 64) has `256 / w` lanes.  `Spec.IsMask w k b` says that the
register `k` holds the truth values `b`; `Spec.MaskPrefix w s k b` says so of the first `s` lanes only.

`ext = none` are the compilers for which `zeroExtend` clears the upper half of the register;
`ext = some u` those for which it leaves it undefined, here `u` (GCC).
-/

namespace Vc.Prop
open Vc.Model Vc.Lemma
open Vc.Spec (IsMask MaskPrefix AvxMaskWidth MaskWidth boolByte)

private theorem aw_pos {w : Nat} (hw : AvxMaskWidth w) : 0 < w := by
  rcases hw with rfl | rfl | rfl <;> decide

private theorem aw_dvd {w : Nat} (hw : AvxMaskWidth w) : w ∣ 256 := by
  rcases hw with rfl | rfl | rfl <;> decide

private theorem aw_half {w : Nat} (hw : AvxMaskWidth w) : w * (128 / w) = 128 := by
  rcases hw with rfl | rfl | rfl <;> decide

private theorem aw_two {w : Nat} (hw : AvxMaskWidth w) : 256 / w = 2 * (128 / w) := by
  rcases hw with rfl | rfl | rfl <;> decide

private theorem room {w i : Nat} (hi : i < 256 / w) : w * (i + 1) ≤ 256 := by
  have := Nat.mul_le_mul_left w (show i + 1 ≤ 256 / w from hi)
  have := Nat.mul_div_le 256 w
  omega

private theorem unroom {w i : Nat} (hw : AvxMaskWidth w) (hi : w * (i + 1) ≤ 256) : i < 256 / w := by
  rcases hw with rfl | rfl | rfl <;> omega

private theorem mask_ext {w : Nat} (hw : AvxMaskWidth w) {k k' : M256} {b b' : Nat → Bool}
    (h : IsMask w k b) (h' : IsMask w k' b') (e : ∀ i, i < 256 / w → b i = b' i) : k = k' := by
  apply reg_ext w (aw_pos hw) (aw_dvd hw)
  intro i hi
  rw [h.lane_eq (room hi), h'.lane_eq (room hi), e i hi]

/-- The truth values of a mask are determined by the register. -/
private theorem mask_inj {w : Nat} (hw : AvxMaskWidth w) {k : M256} {b b' : Nat → Bool}
    (h : IsMask w k b) (h' : IsMask w k b') : ∀ i, i < 256 / w → b i = b' i := by
  intro i hi
  have m := congrArg BitVec.msb ((h.lane_eq (room hi)).symm.trans (h'.lane_eq (room hi)))
  rwa [laneMask_msb (aw_pos hw), laneMask_msb (aw_pos hw)] at m

private theorem narrow8 {w : Nat} (hw : AvxMaskWidth w) {k : M256} {b : Nat → Bool} (h : IsMask w k b) :
    IsMask 8 k (fun i => b (i / (w / 8))) := by
  rcases hw with rfl | rfl | rfl
  · exact h.narrow (v := 8) (c := 2) (by decide) (by decide) (by decide)
  · exact h.narrow (v := 8) (c := 4) (by decide) (by decide) (by decide)
  · exact h.narrow (v := 8) (c := 8) (by decide) (by decide) (by decide)

/-- `toInt()`: bit `i` is lane `i`, and there are no other bits. -/
theorem C63_toInt (avx2 : Bool) {w : Nat} (hw : AvxMaskWidth w) {k : M256} {b : Nat → Bool}
    (h : IsMask w k b) (i : Nat) :
    (amToInt avx2 (256 / w) k).testBit i = (decide (i < 256 / w) && b i) := by
  rcases hw with rfl | rfl | rfl
  · show (pext (movemaskEpi8 avx2 k) 0x55555555 32).testBit i = _
    rw [pext_5, movemaskEpi8_eq, movemask_isMask (by decide) (narrow8 (.inl rfl) h)]
    have e : 2 * i / (16 / 8) = i := by omega
    rw [e]
    by_cases hi : i < 16
    · have e2 : decide (2 * i < 256 / 8) = true := by simp; omega
      rw [e2]; simp
    · simp [hi]
  · exact movemask_isMask (by decide) h i
  · exact movemask_isMask (by decide) h i

/-- `count()`: the number of true lanes, with and without the `popcnt` instruction. -/
theorem C63_count (avx2 popcnt : Bool) {w : Nat} (hw : AvxMaskWidth w) {k : M256} {b : Nat → Bool}
    (h : IsMask w k b) : amCount avx2 popcnt (256 / w) k = (List.range (256 / w)).countP b := by
  have hb : ∀ n, 256 / w ≤ n → (List.range n).countP (fun i => (amToInt avx2 (256 / w) k).testBit i) =
      (List.range (256 / w)).countP b := fun n hn => by
    rw [← countP_range_lt b hn]
    apply List.countP_congr
    intro i _
    rw [C63_toInt avx2 hw h]
  have h16 : 256 / w ≤ 16 := by rcases hw with rfl | rfl | rfl <;> decide
  have hlt : amToInt avx2 (256 / w) k < 65536 := by
    apply Nat.lt_pow_two_of_testBit (n := 16)
    intro i hi
    rw [C63_toInt avx2 hw h]
    have : decide (i < 256 / w) = false := by simp; omega
    rw [this]; rfl
  unfold amCount
  split
  · exact hb 32 (by omega)
  · rw [popcnt16_eq _ hlt]
    exact hb 16 h16

/-- `generate(gen)`: lane `i` is `gen(i)`. -/
theorem C63_generate {w : Nat} (hw : AvxMaskWidth w) (gen : Nat → Bool) :
    IsMask w (amGenerate w gen) gen := isMask_of fun i hi => by
  unfold amGenerate
  rw [lane_setr _ hi]
  have : i < 256 / w := unroom hw hi
  simp only [List.getD, List.getElem?_map, List.getElem?_range, this, Option.map_some, Option.getD_some]
  cases gen i
  · rfl
  · simp only [laneMask, if_true]

/-- The mask of lanes 0, 3 and 6 of eight. -/
def exAvxMask : M256 := amGenerate 32 fun i => i % 3 == 0 && decide (i < 8)

private theorem exAvx : IsMask 32 exAvxMask (fun i => i % 3 == 0 && decide (i < 8)) :=
  C63_generate (.inr (.inl rfl)) _

example : amToInt true 8 exAvxMask = 73 ∧ amCount true true 8 exAvxMask = 3 := by
  refine ⟨Nat.eq_of_testBit_eq fun i => ?_, C63_count true true (.inr (.inl rfl)) exAvx⟩
  rw [show 8 = 256 / 32 from rfl, C63_toInt true (.inr (.inl rfl)) exAvx]
  match i with
  | 0 | 1 | 2 | 3 | 4 | 5 | 6 | 7 => decide
  | n + 8 =>
    have : (73 : Nat) < 2 ^ (n + 8) := Nat.lt_of_lt_of_le (by decide : 73 < 2 ^ 8)
      (Nat.pow_le_pow_right (by decide) (by omega))
    rw [Nat.testBit_lt_two_pow this]
    simp

/-- `Mask(bool)`: all lanes. -/
theorem C63_init (w : Nat) (p : Bool) : IsMask w (amInit p) (fun _ => p) := isMask_of fun i hi => by
  cases p
  · show lane w 0#256 i = _
    rw [lane_zero]; rfl
  · show lane w (BitVec.allOnes 256) i = _
    rw [lane_allOnes hi]; rfl

/-- `firstOne()`: the first true lane of a mask that is not empty. -/
theorem C63_firstOne (avx2 : Bool) {w : Nat} (hw : AvxMaskWidth w) {k : M256} {b : Nat → Bool}
    (h : IsMask w k b) (hne : ∃ i, i < 256 / w ∧ b i = true) :
    ∃ i, amFirstOne avx2 (256 / w) k = some i ∧ i < 256 / w ∧ b i = true ∧ ∀ j, j < i → b j = false := by
  obtain ⟨i0, h0, h1⟩ := hne
  have hnz : amToInt avx2 (256 / w) k ≠ 0 := by
    intro e
    have := C63_toInt avx2 hw h i0
    rw [e, h1] at this
    simp [h0] at this
  obtain ⟨i, e, hi, hj⟩ := bsf_spec _ hnz
  rw [C63_toInt avx2 hw h, Bool.and_eq_true, decide_eq_true_eq] at hi
  refine ⟨i, e, hi.1, hi.2, fun j hjj => ?_⟩
  have := hj j hjj
  rw [C63_toInt avx2 hw h] at this
  have hlt : j < 256 / w := by omega
  simpa [hlt] using this

example : ∃ i, amFirstOne true 8 exAvxMask = some i ∧ i < 8 := by
  obtain ⟨i, e, hi, _⟩ := C63_firstOne true (.inr (.inl rfl)) exAvx ⟨3, by decide, by decide⟩
  exact ⟨i, e, hi⟩

private theorem and_bit (x n : Nat) : ((x &&& 1 <<< n) != 0) = x.testBit n := by
  rw [Nat.one_shiftLeft]
  by_cases hx : x.testBit n = true
  · rw [hx, bne_iff_ne]
    intro e
    have := congrArg (fun m => Nat.testBit m n) e
    simp [Nat.testBit_and, hx] at this
  · have : x &&& 2 ^ n = 0 := by
      apply Nat.eq_of_testBit_eq
      intro j
      rw [Nat.testBit_and, Nat.testBit_two_pow, Nat.zero_testBit]
      by_cases hj : n = j
      · subst hj; simp [hx]
      · simp [hj]
    rw [this]
    simp at hx
    rw [hx]; rfl

private theorem set_isMask {w : Nat} {k : M256} {b : Nat → Bool} (h : IsMask w k b) (i : Nat) (v : Bool) :
    IsMask w (amSet w k i v) (fun j => if j = i then v else b j) := isMask_of fun j hj => by
  unfold amSet setLane
  rw [lane_ofLanes _ hj]
  split
  · cases v
    · simp [maskBool, laneMask]
    · simp only [maskBool, laneMask, if_true]
      rw [BitVec.neg_one_eq_allOnes]
  · exact h.lane_eq hj

/-- `operator[]` reads the lane; assignment through it changes that lane only. -/
theorem C63_subscript (avx2 : Bool) {w : Nat} (hw : AvxMaskWidth w) {k : M256} {b : Nat → Bool}
    (h : IsMask w k b) {i : Nat} (hi : i < 256 / w) :
    amGet avx2 (256 / w) k i = b i ∧
    ∀ v, IsMask w (amSet w k i v) (fun j => if j = i then v else b j) := by
  refine ⟨?_, set_isMask h i⟩
  unfold amGet
  by_cases h16 : 256 / w = 16
  · rw [if_pos h16, and_bit, movemaskEpi8_eq]
    obtain rfl : w = 16 := by rcases hw with rfl | rfl | rfl <;> first | rfl | simp at h16
    rw [movemask_isMask (by decide) (narrow8 (.inl rfl) h)]
    have e : 2 * i / (16 / 8) = i := by omega
    have e2 : decide (2 * i < 256 / 8) = true := by simp; omega
    rw [e, e2]; rfl
  · rw [if_neg h16, and_bit, C63_toInt avx2 hw h, decide_eq_true hi, Bool.true_and]

/-- Casting to a scalar mask reads the first lane. -/
theorem C63_toScalar (avx2 : Bool) {w : Nat} (hw : AvxMaskWidth w) {k : M256} {b : Nat → Bool}
    (h : IsMask w k b) : amToScalar avx2 (256 / w) k = b 0 :=
  (C63_subscript avx2 hw h (i := 0) (by rcases hw with rfl | rfl | rfl <;> decide)).1

example : amGet true 8 exAvxMask 6 = true ∧ amToScalar true 8 exAvxMask = true :=
  ⟨(C63_subscript true (.inr (.inl rfl)) exAvx (i := 6) (by decide)).1, C63_toScalar true (.inr (.inl rfl)) exAvx⟩

/-! ### Memory -/

private theorem packed32 {k : M256} {b : Nat → Bool} (h : IsMask 32 k b) :
    IsMask 16 (packs 8 (lo128 k) (hi128 k)) b :=
  (packs_isMask (c := 2) (by decide) (isMask_lo (w := 32) (c := 4) rfl h)
    (isMask_hi (w := 32) (c := 4) rfl h)).congr fun i _ => by
    by_cases h4 : i < 8 / 2
    · rw [if_pos h4]
    · rw [if_neg h4]; congr 1; omega

private theorem packed16 {k : M256} {b : Nat → Bool} (h : IsMask 16 k b) :
    IsMask 8 (packs 8 (lo128 k) (hi128 k)) b :=
  (packs_isMask (c := 1) (by decide) (isMask_lo (w := 16) (c := 8) rfl h)
    (isMask_hi (w := 16) (c := 8) rfl h)).congr fun i _ => by
    by_cases h4 : i < 8 / 1
    · rw [if_pos h4]
    · rw [if_neg h4]; congr 1; omega

private theorem packed64 {k : M256} {b : Nat → Bool} (h : IsMask 64 k b) :
    IsMask 32 (packs 16 (lo128 k) (hi128 k)) b :=
  (packs16_isMask (c := 2) (by decide) (isMask_lo (w := 64) (c := 2) rfl h)
    (isMask_hi (w := 64) (c := 2) rfl h)).congr fun i _ => by
    by_cases h4 : i < 4 / 2
    · rw [if_pos h4]
    · rw [if_neg h4]; congr 1; omega

/-- `store(bool *)` writes the truth values, one byte per lane. -/
theorem C63_store {w : Nat} (hw : AvxMaskWidth w) {k : M256} {b : Nat → Bool} (h : IsMask w k b) :
    amStore (256 / w) k = (List.range (256 / w)).map fun i => boolByte (b i) := by
  rcases hw with rfl | rfl | rfl
  · show (List.range 16).map (lane 8 (set1 8 1#8 &&& packs 8 (lo128 k) (hi128 k))) = _
    apply List.map_congr_left
    intro i hi
    have hi := List.mem_range.mp hi
    rw [lane_and, (packed16 h).lane_eq (by omega), lane_set1 _ (by omega)]
    cases b i <;> decide
  · show (List.range 8).map (lane 8 (packs 8 (srliEpi 16 (packs 8 (lo128 k) (hi128 k)) 15) 0#128)) = _
    apply List.map_congr_left
    intro i hi
    have hi := List.mem_range.mp hi
    rw [lane_packs _ _ (by omega), if_pos (by omega)]
    have e : lane (2 * 8) (srliEpi 16 (packs 8 (lo128 k) (hi128 k)) 15) i = if b i then 1#16 else 0#16 :=
      srli_mask (.inl rfl) (packed32 h) (by omega)
    rw [e]
    cases b i <;> decide
  · have n := narrow8 (.inr (.inr rfl)) h
    have e0 : (movemask 8 (lo128 k) ||| (movemask 8 (hi128 k) <<< 16)) = movemask 8 k := by
      rw [Nat.or_comm]; exact movemaskEpi8_eq false k
    show (List.range 4).map (lane 8 (BitVec.ofNat 32
      ((movemask 8 (lo128 k) ||| (movemask 8 (hi128 k) <<< 16)) &&& 0x01010101))) = _
    rw [e0]
    apply List.map_congr_left
    intro i hi
    have hi := List.mem_range.mp hi
    apply BitVec.eq_of_getLsbD_eq
    intro j hj
    have t : (0x01010101 : Nat).testBit (8 * i + j) = decide (j = 0) := by
      have : ∀ i, i < 4 → ∀ j, j < 8 → (0x01010101 : Nat).testBit (8 * i + j) = decide (j = 0) := by decide
      exact this i hi j hj
    show ((BitVec.ofNat 32 (movemask 8 k &&& 0x01010101)).extractLsb' (8 * i) 8).getLsbD j = _
    rw [BitVec.getLsbD_extractLsb', BitVec.getLsbD_ofNat, Nat.testBit_and, t,
      movemask_isMask (by decide) n]
    have e1 : decide (j < 8) = true := by simp; omega
    have e2 : decide (8 * i + j < 32) = true := by simp; omega
    have e4 : (8 * i + j) / (64 / 8) = i := by omega
    rw [e1, e2, e4]
    have : ∀ p : Bool, ∀ j, j < 8 → (true && (true && ((true && p) && decide (j = 0)))) = (boolByte p).getLsbD j := by
      decide
    exact this (b i) j hj

/-- `load(const bool *)` reads the truth values. -/
theorem C63_load {w : Nat} (hw : AvxMaskWidth w) (b : Nat → Bool) {mem : Nat → BitVec 8}
    (h : ∀ i, i < 256 / w → mem i = boolByte (b i)) : IsMask w (amLoad (256 / w) mem) b := by
  have gt8 : ∀ p, laneMask (decide ((0#8).toInt < (boolByte p).toInt)) = (laneMask p : BitVec 8) := by
    decide
  rcases hw with rfl | rfl | rfl
  · have hk : IsMask 8 (cmpgtEpi 8 (ofLanes 8 mem) 0#128) b := isMask_of fun i hi => by
      rw [lane_cmpgtEpi hi, lane_zero, lane_ofLanes _ hi, h i (by omega), gt8]
    exact widen_isMask (v := 8) (by decide) (by decide) hk
  · have hk : IsMask 16 (cmpgtEpi 16 (unpacklo 8 (ofLanes 8 fun i => if i < 8 then mem i else 0#8)
        (ofLanes 8 fun i => if i < 8 then mem i else 0#8)) 0#128) b := isMask_of fun i hi => by
      have hi8 : i < 8 := by omega
      have hk : lane 8 (ofLanes 8 (fun i => if i < 8 then mem i else 0#8) : M128) i = boolByte (b i) := by
        rw [lane_ofLanes _ (by omega), if_pos hi8, h i (by omega)]
      generalize (ofLanes 8 (fun i => if i < 8 then mem i else 0#8) : M128) = k at hk
      rw [lane_cmpgtEpi (by omega), lane_zero]
      have u := unpacklo_wide (v := 8) (i := i) (by omega) k k
      have e : lane 16 (unpacklo 8 k k) i = if b i then 0x0101#16 else 0#16 := by
        apply (eq_halves (v := 8) (by decide) _ _).mpr
        constructor
        · refine Eq.trans u.2 (hk.trans ?_); cases b i <;> decide
        · refine Eq.trans u.1 (hk.trans ?_); cases b i <;> decide
      rw [e]
      cases b i <;> decide
    exact widen_isMask (v := 16) (by decide) (by decide) hk
  · have hf : (ofLanes 8 mem : BitVec 32) = ofLanes 8 (fun i => boolByte ([b 0, b 1, b 2, b 3].getD i false)) := by
      apply reg_ext 8 (by decide) (by decide)
      intro i hi
      have hi : i < 4 := hi
      rw [lane_ofLanes _ (by omega), lane_ofLanes _ (by omega), h i hi]
      match i, hi with
      | 0, _ | 1, _ | 2, _ | 3, _ => rfl
      | i + 4, hi => omega
    have hk : IsMask 32 (cmpgtEpi 32 (set1 32 (ofLanes 8 mem : BitVec 32) &&&
        setr 32 [0x1#32, 0x100#32, 0x10000#32, 0x1000000#32]) 0#128) b := isMask_of fun i hi => by
      have hi4 : i < 4 := by omega
      rw [lane_cmpgtEpi hi, lane_zero, lane_and, lane_set1 _ hi, lane_setr _ hi, hf]
      have : ∀ b0 b1 b2 b3 : Bool, ∀ i, i < 4 → laneMask (decide ((0#32).toInt < ((ofLanes 8 (fun i =>
          boolByte ([b0, b1, b2, b3].getD i false)) : BitVec 32) &&&
          [0x1#32, 0x100#32, 0x10000#32, 0x1000000#32].getD i 0).toInt)) =
          (laneMask ([b0, b1, b2, b3].getD i false) : BitVec 32) := by
        decide +kernel
      rw [this _ _ _ _ i hi4]
      match i, hi4 with
      | 0, _ | 1, _ | 2, _ | 3, _ => rfl
      | i + 4, hi => omega
    exact widen_isMask (v := 32) (by decide) (by decide) hk

/-- Storing a mask and loading it again gives the same register. -/
theorem C63_store_load {w : Nat} (hw : AvxMaskWidth w) {k : M256} {b : Nat → Bool} (h : IsMask w k b) :
    amLoad (256 / w) (fun i => (amStore (256 / w) k).getD i 0#8) = k := by
  refine mask_ext hw (C63_load hw b ?_) h fun _ _ => rfl
  intro i hi
  rw [C63_store hw h]
  simp [List.getD, hi]

example : amStore 8 exAvxMask = [1#8, 0#8, 0#8, 1#8, 0#8, 0#8, 1#8, 0#8] ∧
    amLoad 8 (fun i => (amStore 8 exAvxMask).getD i 0#8) = exAvxMask :=
  ⟨C63_store (.inr (.inl rfl)) exAvx, C63_store_load (.inr (.inl rfl)) exAvx⟩

/-! ### Comparison and queries -/

private theorem movemask_inj' {w : Nat} (hw : 0 < w) {k k' : M256} {b b' : Nat → Bool}
    (h : IsMask w k b) (h' : IsMask w k' b') :
    movemask w k = movemask w k' ↔ ∀ i, i < 256 / w → b i = b' i := by
  constructor
  · intro e i hi
    have h1 := movemask_isMask hw h i
    have h2 := movemask_isMask hw h' i
    rw [e, h2] at h1
    simpa [hi] using h1.symm
  · intro e
    apply Nat.eq_of_testBit_eq
    intro i
    rw [movemask_isMask hw h, movemask_isMask hw h']
    by_cases hi : i < 256 / w
    · rw [e i hi]
    · simp [hi]

/-- `==` and `!=` compare all lanes. -/
theorem C63_equal (avx2 fp : Bool) {w : Nat} (hw : AvxMaskWidth w) {k k' : M256} {b b' : Nat → Bool}
    (h : IsMask w k b) (h' : IsMask w k' b') :
    (amEqual avx2 fp w k k' = true ↔ ∀ i, i < 256 / w → b i = b' i) ∧
    (amNotEqual avx2 fp w k k' = true ↔ ∃ i, i < 256 / w ∧ b i ≠ b' i) := by
  have key : amEqual avx2 fp w k k' = true ↔ ∀ i, i < 256 / w → b i = b' i := by
    unfold amEqual
    by_cases h64 : w = 64
    · subst h64
      rw [if_pos rfl, beq_iff_eq, movemask_inj' (by decide) h h']
    rw [if_neg h64]
    by_cases h32 : w = 32 ∧ fp = true
    · obtain ⟨rfl, rfl⟩ := h32
      rw [if_pos ⟨rfl, rfl⟩, beq_iff_eq, movemask_inj' (by decide) h h']
    rw [if_neg h32, beq_iff_eq, movemaskEpi8_eq, movemaskEpi8_eq,
      movemask_inj' (by decide) (narrow8 hw h) (narrow8 hw h')]
    have hw2 : w = 16 ∨ w = 32 := by rcases hw with h | h | h <;> omega
    constructor
    · intro e i hi
      have := e (w / 8 * i) (by rcases hw2 with rfl | rfl <;> omega)
      rwa [Nat.mul_div_cancel_left _ (by omega)] at this
    · intro e i hi
      exact e _ (by rcases hw2 with rfl | rfl <;> omega)
  refine ⟨key, ?_⟩
  unfold amNotEqual
  rw [Bool.not_eq_true', ← Bool.not_eq_true, key]
  simp

private theorem reg_zero_iff' {w : Nat} (hw : AvxMaskWidth w) {k : M256} {b : Nat → Bool}
    (h : IsMask w k b) : k = 0#256 ↔ ∀ i, i < 256 / w → b i = false := by
  constructor
  · rintro rfl
    exact mask_inj hw h (isMask_zero w)
  · intro e
    exact mask_ext hw h (isMask_zero w) e

private theorem isMask_not' {w : Nat} {k : M256} {b : Nat → Bool} (h : IsMask w k b) :
    IsMask w (~~~k) (fun i => !b i) :=
  isMask_of fun i hi => by rw [lane_not _ hi, h.lane_eq hi, not_laneMask]

private theorem movemask_zero_iff {w : Nat} (hw : 0 < w) {k : M256} {b : Nat → Bool}
    (h : IsMask w k b) : movemask w k = 0 ↔ ∀ i, i < 256 / w → b i = false := by
  have e0 : movemask w (0#256) = 0 := by
    apply Nat.eq_of_testBit_eq
    intro i
    rw [movemask_isMask hw (isMask_zero w)]
    simp
  have := movemask_inj' hw h (isMask_zero w)
  rwa [e0] at this

/-- `isEmpty`, `isNotEmpty`, `isFull`, `isMix`. -/
theorem C63_queries {w : Nat} (hw : AvxMaskWidth w) {k : M256} {b : Nat → Bool} (h : IsMask w k b) :
    (amIsEmpty w k = true ↔ ∀ i, i < 256 / w → b i = false) ∧
    (amIsNotEmpty w k = true ↔ ∃ i, i < 256 / w ∧ b i = true) ∧
    (amIsFull w k = true ↔ ∀ i, i < 256 / w → b i = true) ∧
    (amIsMix w k = true ↔
      (∃ i, i < 256 / w ∧ b i = true) ∧ ∃ i, i < 256 / w ∧ b i = false) := by
  have ex1 : (∃ i, i < 256 / w ∧ b i = true) ↔ ¬ ∀ i, i < 256 / w → b i = false := by simp
  have ex0 : (∃ i, i < 256 / w ∧ b i = false) ↔ ¬ ∀ i, i < 256 / w → b i = true := by simp
  have a1 : ∀ x : M256, x &&& BitVec.allOnes 256 = x := fun x => BitVec.and_allOnes
  have hz : ∀ x : M256, ∀ bx : Nat → Bool, IsMask w x bx →
      ((if w = 64 ∨ w = 32 then (if movemask w x = 0 then 1 else 0) else if x = 0#256 then 1 else 0) = 1 ↔
        ∀ i, i < 256 / w → bx i = false) ∧
      ((if w = 64 ∨ w = 32 then (if movemask w x = 0 then 1 else 0) else if x = 0#256 then 1 else 0) = 0 ↔
        ¬ ∀ i, i < 256 / w → bx i = false) := by
    intro x bx hx
    by_cases h1 : w = 64 ∨ w = 32
    · rw [if_pos h1, ← movemask_zero_iff (aw_pos hw) hx]
      split <;> rename_i hh <;> simp [hh]
    · rw [if_neg h1, ← reg_zero_iff' hw hx]
      split <;> rename_i hh <;> simp [hh]
  have z : (testz256 w k k = 1 ↔ ∀ i, i < 256 / w → b i = false) ∧
      (testz256 w k k = 0 ↔ ¬ ∀ i, i < 256 / w → b i = false) := by
    unfold testz256; rw [BitVec.and_self]; exact hz k b h
  have z1 : testz256 w k (BitVec.allOnes 256) = 0 ↔ ¬ ∀ i, i < 256 / w → b i = false := by
    unfold testz256; rw [a1]; exact (hz k b h).2
  have c : (testc256 w k (BitVec.allOnes 256) = 1 ↔ ∀ i, i < 256 / w → b i = true) ∧
      (testc256 w k (BitVec.allOnes 256) = 0 ↔ ¬ ∀ i, i < 256 / w → b i = true) := by
    unfold testc256; rw [a1]
    have := hz _ _ (isMask_not' h)
    simpa only [Bool.not_eq_false'] using this
  rw [ex1, ex0]
  unfold amIsEmpty amIsNotEmpty amIsFull amIsMix testnzc256
  refine ⟨?_, ?_, ?_, ?_⟩
  · rw [bne_iff_ne, ne_comm, Ne, z.2]; simp
  · rw [beq_iff_eq, eq_comm, z.2]
  · rw [bne_iff_ne, ne_comm, Ne, c.2]; simp
  · rw [← z1, ← c.2]
    split
    · rename_i hh; exact ⟨fun _ => hh, fun _ => rfl⟩
    · rename_i hh; exact ⟨fun e => by simp at e, fun e => absurd e hh⟩

example : amIsMix 32 exAvxMask = true ∧ amEqual true false 32 exAvxMask exAvxMask = true :=
  ⟨(C63_queries (.inr (.inl rfl)) exAvx).2.2.2.mpr ⟨⟨0, by decide, by decide⟩, ⟨1, by decide, by decide⟩⟩,
    (C63_equal true false (.inr (.inl rfl)) exAvx exAvx).1.mpr fun _ _ => rfl⟩

/-- Logical operators act on the truth values. -/
theorem C63_logic (gcc : Bool) {w : Nat} {k k' : M256} {b b' : Nat → Bool} (h : IsMask w k b)
    (h' : IsMask w k' b') :
    IsMask w (k &&& k') (fun i => b i && b' i) ∧ IsMask w (k ||| k') (fun i => b i || b' i) ∧
    IsMask w (k ^^^ k') (fun i => b i ^^ b' i) ∧ IsMask w (amNot gcc k) (fun i => !b i) := by
  refine ⟨isMask_of fun i hi => ?_, isMask_of fun i hi => ?_, isMask_of fun i hi => ?_, ?_⟩
  · rw [lane_and, h.lane_eq hi, h'.lane_eq hi, laneMask_and]
  · rw [lane_or, h.lane_eq hi, h'.lane_eq hi, laneMask_or]
  · rw [lane_xor, h.lane_eq hi, h'.lane_eq hi]
    cases b i <;> cases b' i <;> simp [laneMask]
  · have : amNot gcc k = ~~~k := by
      unfold amNot andnot
      cases gcc
      · rw [if_neg Bool.false_ne_true]; exact BitVec.and_allOnes
      · rw [if_pos rfl]
    rw [this]
    exact isMask_not' h

/-! ### `shifted` -/

/-- `shifted(amount)`, for every amount whose byte count is an `int`: the lanes `i` for which there is a
lane `i + amount` hold its value; with compilers that clear the upper half in `zeroExtend`, and for
all amounts of less than half a register, the other lanes are false. -/
theorem C63_shifted_partial (ext : Option M128) (u : M128) {w : Nat} (hw : AvxMaskWidth w) {k : M256}
    {b : Nat → Bool} (h : IsMask w k b) (amount : Int)
    (ha : -2 ^ 31 ≤ amount * (w / 8 : Nat) ∧ amount * (w / 8 : Nat) < 2 ^ 31) :
    ∃ r, amShifted ext u (w / 8) k amount = some r ∧
      (∀ i, i < 256 / w → 0 ≤ (i : Int) + amount → (i : Int) + amount < (256 / w : Nat) →
        r.extractLsb' (w * i) w = Spec.boolLane w (b (i + amount).toNat)) ∧
      (ext = none ∨ amount < (128 / w : Nat) →
        IsMask w r (fun i => if 0 ≤ (i : Int) + amount ∧ (i : Int) + amount < (256 / w : Nat)
          then b (i + amount).toNat else false)) := by
  obtain ⟨m, c, rfl, hm, e256, e128⟩ : ∃ m c, w = 8 * m ∧ m * c = 16 ∧ 256 / w = 2 * c ∧ 128 / w = c := by
    rcases hw with rfl | rfl | rfl
    · exact ⟨2, 8, by decide⟩
    · exact ⟨4, 4, by decide⟩
    · exact ⟨8, 2, by decide⟩
  have hc : 8 * m * c = 128 := by rw [Nat.mul_assoc, hm]
  have hm0 : 0 < m := by
    rcases Nat.eq_zero_or_pos m with rfl | h
    · simp at hm
    · exact h
  have h8 : 8 * m / 8 = m := by omega
  rw [h8] at ha ⊢
  rw [e256, e128]
  have rm : ∀ i, i < 2 * c → 8 * m * (i + 1) ≤ 256 := fun i hi => room (by rw [e256]; exact hi)
  have hm' : (2 * c : Nat) * (m : Int) = 32 := by
    rw [← Int.natCast_mul, Nat.mul_assoc, Nat.mul_comm c, hm]; rfl
  have lt_iff : ∀ x y : Int, x * m < y * m ↔ x < y := fun x y =>
    ⟨fun h => Int.lt_of_mul_lt_mul_right h (by omega), fun h => Int.mul_lt_mul_of_pos_right h (by omega)⟩
  unfold amShifted
  simp only [ha, and_self, if_true]
  refine ⟨_, rfl, ?_⟩
  by_cases h0 : amount * m = 0
  · rw [if_pos h0]
    have h0 : amount = 0 := by
      have := Int.mul_eq_zero.mp h0
      omega
    subst h0
    refine ⟨fun i hi _ _ => ?_, fun _ => h.congr fun i hi => ?_⟩
    · rw [Int.add_zero, Int.toNat_natCast]; exact h i (rm i hi)
    · have := lt_of_room hc hi
      rw [if_pos (by omega), Int.add_zero, Int.toNat_natCast]
  rw [if_neg h0]
  by_cases hr : -31 ≤ amount * m ∧ amount * m ≤ 31
  · rw [if_pos hr]
    have r1 : -(2 * c : Nat) < amount := (lt_iff _ _).mp (by rw [Int.neg_mul, hm']; omega)
    have r2 : amount < (2 * c : Nat) := (lt_iff _ _).mp (by rw [hm']; omega)
    have L := fun i hi => lane_shiftedBytes hm ext u k ⟨r1, r2⟩ (i := i) hi
    refine ⟨fun i hi i0 i1 => ?_, fun hx => isMask_of fun i hi => ?_⟩
    · have := L i hi
      rw [if_pos (by omega), if_pos ⟨i0, i1⟩, h.lane_eq (rm _ (by omega))] at this
      exact this
    · have hi2 := lt_of_room hc hi
      rw [L i hi2]
      have gen : (if 0 ≤ (i : Int) + amount ∧ (i : Int) + amount < (2 * c : Nat) then
          lane (8 * m) k (i + amount).toNat else 0#(8 * m)) =
          laneMask (if 0 ≤ (i : Int) + amount ∧ (i : Int) + amount < (2 * c : Nat) then
            b (i + amount).toNat else false) := by
        split
        · rw [h.lane_eq (rm _ (by omega))]
        · rfl
      by_cases hq : i < c ∨ amount < (c : Int)
      · rw [if_pos hq, gen]
      · rw [if_neg hq, if_neg (by omega)]
        rcases hx with rfl | hx
        · show lane (8 * m) 0#128 (i - c) = _
          rw [lane_zero]; rfl
        · exact absurd (.inr hx) hq
  · rw [if_neg hr]
    have out : ∀ i : Nat, i < 2 * c → ¬ (0 ≤ (i : Int) + amount ∧ (i : Int) + amount < (2 * c : Nat)) := by
      intro i hi hh
      apply hr
      have r1 := (lt_iff (-(2 * c : Nat)) amount).mpr (by omega)
      have r2 := (lt_iff amount (2 * c : Nat)).mpr (by omega)
      rw [Int.neg_mul, hm'] at r1
      rw [hm'] at r2
      omega
    refine ⟨fun i hi i0 i1 => absurd ⟨i0, i1⟩ (out i hi), fun _ => (isMask_zero _).congr fun i hi => ?_⟩
    rw [if_neg (out i (lt_of_room hc hi))]

example : ∃ r, amShifted none 0#128 4 exAvxMask 1 = some r ∧
    amStore 8 r = [0#8, 0#8, 1#8, 0#8, 0#8, 1#8, 0#8, 0#8] := by
  obtain ⟨r, e, _, hr⟩ := C63_shifted_partial none 0#128 (.inr (.inl rfl)) exAvx 1 (by decide)
  exact ⟨r, e, C63_store (.inr (.inl rfl)) (hr (.inl rfl))⟩

/-- The claim that lanes without a source are false does not hold when `zeroExtend` leaves the upper
half undefined: shifting a mask of eight false lanes by four can make lane 4 true. -/
theorem C63_shifted_violated :
    ∃ u r, amShifted (some u) 0#128 4 (amInit false) 4 = some r ∧ amGet true 8 r 4 = true := by
  refine ⟨BitVec.allOnes 128, _, rfl, ?_⟩
  decide +kernel

/-! ### Casts -/

/-- Casting one mask to another lane width keeps the lanes both have; with compilers that clear the
upper half in `zeroExtend` the lanes without a source are false. -/
theorem C63_cast_partial (ext : Option M128) {v w : Nat} (hv : AvxMaskWidth v) (hw : AvxMaskWidth w)
    {k : M256} {b : Nat → Bool} (h : IsMask v k b) :
    ∃ r, amCast ext (256 / v) (256 / w) k = some r ∧ MaskPrefix w (256 / v) r b ∧
      (ext = none → IsMask w r (fun i => if i < 256 / v then b i else false)) := by
  have full : ∀ {r : M256} {b' : Nat → Bool}, IsMask w r b' →
      (∀ i, w * (i + 1) ≤ 256 → b' i = if i < 256 / v then b i else false) →
      MaskPrefix w (256 / v) r b ∧ (ext = none → IsMask w r (fun i => if i < 256 / v then b i else false)) := by
    intro r b' hr e
    refine ⟨fun i h1 h2 => ?_, fun _ => hr.congr e⟩
    have := hr i h2
    rwa [e i h2, if_pos h1] at this
  have up : ∀ {x : M128} {b' : Nat → Bool} {c : Nat}, w * c = 128 → IsMask w x b' →
      (∀ i, i < c → b' i = if i < 256 / v then b i else false) → 256 / v ≤ c →
      MaskPrefix w (256 / v) (zeroExtend ext x) b ∧
      (ext = none → IsMask w (zeroExtend ext x) (fun i => if i < 256 / v then b i else false)) := by
    intro x b' c hc hx e hle
    refine ⟨prefix_congr (prefix_zeroExtend hc ext hx) hle fun i hi => ?_, ?_⟩
    · rw [e i (by omega), if_pos hi]
    · rintro rfl
      refine (isMask_zeroExtend hc hx).congr fun i _ => ?_
      by_cases hi : i < c
      · rw [if_pos hi, e i hi]
      · rw [if_neg hi, if_neg (by omega)]
  rcases hv with rfl | rfl | rfl <;> rcases hw with rfl | rfl | rfl
  · exact ⟨k, rfl, full h fun i hi => (if_pos (by omega)).symm⟩
  · refine ⟨_, rfl, ?_⟩
    rw [unpack_flip]
    exact full (widen_isMask (v := 16) (by decide) (by decide) (isMask_lo (w := 16) (c := 8) rfl h))
      fun i hi => (if_pos (by omega)).symm
  · exact ⟨_, rfl, full (widen_isMask (v := 32) (by decide) (by decide) (unpacklo_isMask (v := 16) (by decide)
      (isMask_lo (w := 16) (c := 8) rfl h))) fun i hi => (if_pos (by omega)).symm⟩
  · exact ⟨_, rfl, up (c := 8) rfl (packed32 h) (fun i hi => (if_pos (by omega)).symm) (by decide)⟩
  · exact ⟨k, rfl, full h fun i hi => (if_pos (by omega)).symm⟩
  · exact ⟨_, rfl, full (widen_isMask (v := 32) (by decide) (by decide)
      (isMask_lo (w := 32) (c := 4) rfl h)) fun i hi => (if_pos (by omega)).symm⟩
  · exact ⟨_, rfl, up (c := 8) rfl (packs_isMask (c := 2) (by decide) (packed64 h) (isMask_zero 32))
      (fun i hi => rfl) (by decide)⟩
  · exact ⟨_, rfl, full (isMask_concat (w := 32) (c := 4) rfl (packed64 h) (isMask_zero 32)) fun i hi => rfl⟩
  · exact ⟨k, rfl, full h fun i hi => (if_pos (by omega)).symm⟩

example : ∃ r, amCast none 8 16 exAvxMask = some r ∧
    amStore 16 r = [1#8, 0#8, 0#8, 1#8, 0#8, 0#8, 1#8, 0#8, 0#8, 0#8, 0#8, 0#8, 0#8, 0#8, 0#8, 0#8] := by
  obtain ⟨r, e, _, hr⟩ := C63_cast_partial none (w := 16) (.inr (.inl rfl)) (.inl rfl) exAvx
  exact ⟨r, e, C63_store (.inl rfl) (hr rfl)⟩

/-- With the upper half undefined, casting a mask of eight false lanes to sixteen lanes can make
lane 8 true. -/
theorem C63_cast_violated :
    ∃ u r, amCast (some u) 8 16 (amInit false) = some r ∧ amGet true 16 r 8 = true := by
  refine ⟨BitVec.allOnes 128, _, rfl, ?_⟩
  decide +kernel

/-- Casting an AVX mask to a register of 128 bits with `src` and `dst` lanes, and back. -/
theorem C63_cast_128_partial (ext : Option M128) :
    (∀ v w, v = 64 ∨ v = 32 → w = 32 ∨ w = 16 → ∀ k b, IsMask v k b →
      ∃ r : M128, amCastTo128 (256 / v) (128 / w) k = some r ∧
        IsMask w r (fun i => if i < 256 / v then b i else false)) ∧
    (∀ v w, v = 32 ∨ v = 16 → w = 64 ∨ w = 32 → ∀ (k : M128) b, IsMask v k b →
      ∃ r, amCastFrom128 ext (128 / v) (256 / w) k = some r ∧ MaskPrefix w (128 / v) r b ∧
        (ext = none → IsMask w r (fun i => if i < 128 / v then b i else false))) := by
  refine ⟨fun v w hv hw k b h => ?_, fun v w hv hw k b h => ?_⟩
  · rcases hv with rfl | rfl <;> rcases hw with rfl | rfl
    · exact ⟨_, rfl, (packed64 h).congr fun i hi => (if_pos (by omega)).symm⟩
    · exact ⟨_, rfl, packs_isMask (c := 2) (by decide) (packed64 h) (isMask_zero 32)⟩
    · exact ⟨_, rfl, (isMask_lo (w := 32) (c := 4) rfl h).congr fun i hi => (if_pos (by omega)).symm⟩
    · exact ⟨_, rfl, (packed32 h).congr fun i hi => (if_pos (by omega)).symm⟩
  · have full : ∀ {r : M256} {b' : Nat → Bool}, IsMask w r b' →
        (∀ i, w * (i + 1) ≤ 256 → b' i = if i < 128 / v then b i else false) →
        MaskPrefix w (128 / v) r b ∧
        (ext = none → IsMask w r (fun i => if i < 128 / v then b i else false)) := by
      intro r b' hr e
      refine ⟨fun i h1 h2 => ?_, fun _ => hr.congr e⟩
      have := hr i h2
      rwa [e i h2, if_pos h1] at this
    rcases hv with rfl | rfl <;> rcases hw with rfl | rfl
    · exact ⟨_, rfl, full (widen_isMask (v := 32) (by decide) (by decide) h)
        fun i hi => (if_pos (by omega)).symm⟩
    · refine ⟨_, rfl, prefix_zeroExtend (c := 4) rfl ext h, ?_⟩
      rintro rfl
      exact isMask_zeroExtend (c := 4) rfl h
    · exact ⟨_, rfl, full (widen_isMask (v := 32) (by decide) (by decide) (unpacklo_isMask (v := 16)
        (by decide) h)) fun i hi => (if_pos (by omega)).symm⟩
    · exact ⟨_, rfl, full (widen_isMask (v := 16) (by decide) (by decide) h)
        fun i hi => (if_pos (by omega)).symm⟩

example : ∃ r : M128, amCastTo128 8 8 exAvxMask = some r ∧ maskGet 8 r 3 = true := by
  obtain ⟨r, e, hr⟩ := (C63_cast_128_partial none).1 32 16 (.inr rfl) (.inr rfl) _ _ exAvx
  refine ⟨r, e, ?_⟩
  exact (C36_subscript (w := 16) (.inr (.inl rfl)) hr (i := 3) (by decide)).1

/-! ### Several masks to one -/

open Vc.Spec (joined)

/-- All lanes are known. -/
private theorem all_lanes (ext : Option M128) {w s : Nat} {r : M256} {b' b : Nat → Bool} (hr : IsMask w r b')
    (e : ∀ i, w * (i + 1) ≤ 256 → b' i = b i) :
    MaskPrefix w s r b ∧ (ext = none → IsMask w r b) :=
  ⟨fun i _ h2 => by have := hr i h2; rwa [e i h2] at this, fun _ => hr.congr e⟩

/-- The lower half is known, the upper half comes from `zeroExtend`. -/
private theorem low_lanes (ext : Option M128) {w s c : Nat} (hc : w * c = 128) {x : M128} {b' b : Nat → Bool}
    (hx : IsMask w x b') (hs : s ≤ c) (e : ∀ i, i < c → b' i = b i) (e2 : ∀ i, c ≤ i → i < 2 * c → b i = false) :
    MaskPrefix w s (zeroExtend ext x) b ∧ (ext = none → IsMask w (zeroExtend ext x) b) := by
  refine ⟨prefix_congr (prefix_zeroExtend hc ext hx) hs fun i hi => e i (by omega), ?_⟩
  rintro rfl
  refine (isMask_zeroExtend hc hx).congr fun i hi => ?_
  by_cases h : i < c
  · rw [if_pos h, e i h]
  · rw [if_neg h, e2 i (by omega) (lt_of_room hc hi)]

private theorem j2 {c : Nat} (hc : 0 < c) (b0 b1 : Nat → Bool) (i : Nat) :
    joined c [b0, b1] i = if i < c then b0 i else if i < 2 * c then b1 (i - c) else false := by
  rw [joined_cons hc, joined_cons hc, joined_nil]
  by_cases h : i < c
  · rw [if_pos h, if_pos h]
  · rw [if_neg h, if_neg h]
    by_cases h2 : i < 2 * c
    · rw [if_pos h2, if_pos (by omega)]
    · rw [if_neg h2, if_neg (by omega)]

private theorem j4 {c : Nat} (hc : 0 < c) (b0 b1 b2 b3 : Nat → Bool) (i : Nat) :
    joined c [b0, b1, b2, b3] i = if i < c then b0 i else if i < 2 * c then b1 (i - c)
      else if i < 3 * c then b2 (i - 2 * c) else if i < 4 * c then b3 (i - 3 * c) else false := by
  rw [joined_cons hc, joined_cons hc, joined_cons hc, joined_cons hc, joined_nil]
  by_cases h : i < c
  · rw [if_pos h, if_pos h]
  rw [if_neg h, if_neg h]
  by_cases h2 : i < 2 * c
  · rw [if_pos h2, if_pos (by omega)]
  rw [if_neg h2, if_neg (by omega)]
  have e2 : i - c - c = i - 2 * c := by omega
  have e3 : i - 2 * c - c = i - 3 * c := by omega
  rw [e2, e3]
  by_cases h3 : i < 3 * c
  · rw [if_pos h3, if_pos (by omega)]
  rw [if_neg h3, if_neg (by omega)]
  by_cases h4 : i < 4 * c
  · rw [if_pos h4, if_pos (by omega)]
  · rw [if_neg h4, if_neg (by omega)]

/-- Two AVX masks to one with narrower lanes: the lanes of both in order, then false where
`zeroExtend` clears the upper half. -/
theorem C63_join2_partial (ext : Option M128) (fp : Bool) {v w : Nat} (hv : AvxMaskWidth v)
    (hw : AvxMaskWidth w) (hvw : w < v) {x0 x1 : M256} {b0 b1 : Nat → Bool} (h0 : IsMask v x0 b0)
    (h1 : IsMask v x1 b1) :
    ∃ r, amCastJoin2 ext fp v w x0 x1 = some r ∧
      MaskPrefix w (2 * (256 / v)) r (joined (256 / v) [b0, b1]) ∧
      (ext = none → IsMask w r (joined (256 / v) [b0, b1])) := by
  rcases hv with rfl | rfl | rfl <;> rcases hw with rfl | rfl | rfl <;> try omega
  · refine ⟨_, rfl, ?_⟩
    rw [flip_packs (v := 8) (c := 8) (by decide) rfl]
    refine all_lanes ext (isMask_concat (w := 16) (c := 8) rfl (packed32 h0) (packed32 h1)) fun i hi => ?_
    rw [j2 (by decide)]
    by_cases h : i < 8
    · rw [if_pos h, if_pos (by omega)]
    · rw [if_neg h, if_neg (by omega), if_pos (by omega)]
  · refine ⟨_, rfl, ?_⟩
    refine low_lanes ext (c := 8) rfl (packs_isMask (c := 2) (by decide) (packed64 h0) (packed64 h1))
      (by decide) (fun i hi => ?_) fun i h1 h2 => ?_
    · rw [j2 (by decide)]
      by_cases h : i < 4
      · rw [if_pos (by omega), if_pos (by omega)]
      · rw [if_neg (by omega), if_neg (by omega), if_pos (by omega)]
    · rw [j2 (by decide), if_neg (by omega), if_neg (by omega)]
  · have e : ∃ r, amCastJoin2 ext fp 64 32 x0 x1 = some r ∧
        r = concat128 (packs 16 (lo128 x0) (hi128 x0)) (packs 16 (lo128 x1) (hi128 x1)) := by
      cases fp
      · exact ⟨_, rfl, flip_packs (v := 16) (c := 4) (by decide) rfl _ _⟩
      · exact ⟨_, rfl, rfl⟩
    obtain ⟨r, e, rfl⟩ := e
    refine ⟨_, e, ?_⟩
    refine all_lanes ext (isMask_concat (w := 32) (c := 4) rfl (packed64 h0) (packed64 h1)) fun i hi => ?_
    rw [j2 (by decide)]
    by_cases h : i < 4
    · rw [if_pos h, if_pos (by omega)]
    · rw [if_neg h, if_neg (by omega), if_pos (by omega)]

example : ∃ r, amCastJoin2 none false 32 16 exAvxMask exAvxMask = some r ∧
    amGet true 16 r 11 = true ∧ amGet true 16 r 9 = false := by
  obtain ⟨r, e, _, hr⟩ := C63_join2_partial none false (.inr (.inl rfl)) (.inl rfl) (by decide) exAvx exAvx
  exact ⟨r, e, (C63_subscript true (.inl rfl) (hr rfl) (i := 11) (by decide)).1,
    (C63_subscript true (.inl rfl) (hr rfl) (i := 9) (by decide)).1⟩

/-- Four `double_m` to one mask of sixteen lanes. -/
theorem C63_join4 {x0 x1 x2 x3 : M256} {b0 b1 b2 b3 : Nat → Bool} (h0 : IsMask 64 x0 b0)
    (h1 : IsMask 64 x1 b1) (h2 : IsMask 64 x2 b2) (h3 : IsMask 64 x3 b3) :
    IsMask 16 (amCastJoin4 x0 x1 x2 x3) (joined 4 [b0, b1, b2, b3]) := by
  have p : ∀ {x y : M128} {bx by' : Nat → Bool}, IsMask 64 x bx → IsMask 64 y by' →
      IsMask 32 (packs 16 x y) (fun i => if i < 2 then bx i else by' (i - 2)) :=
    fun hx hy => packs16_isMask (c := 2) (by decide) hx hy
  have q : ∀ {x y : M128} {bx by' : Nat → Bool}, IsMask 32 x bx → IsMask 32 y by' →
      IsMask 16 (packs 16 x y) (fun i => if i < 4 then bx i else by' (i - 4)) :=
    fun hx hy => packs16_isMask (c := 1) (by decide) hx hy
  have l : ∀ {x : M256} {b : Nat → Bool}, IsMask 64 x b → IsMask 64 (lo128 x) b :=
    fun h => isMask_lo (w := 64) (c := 2) rfl h
  have r : ∀ {x : M256} {b : Nat → Bool}, IsMask 64 x b → IsMask 64 (hi128 x) (fun i => b (2 + i)) :=
    fun h => isMask_hi (w := 64) (c := 2) rfl h
  have hl := q (p (l h0) (l h1)) (p (l h2) (l h3))
  have hh := q (p (r h0) (r h1)) (p (r h2) (r h3))
  unfold amCastJoin4 packs256
  simp only [lo128_concat, hi128_concat]
  apply isMask_of
  intro i hi
  have hi : i < 16 := by omega
  rw [lane_concat128 (w := 16) (k := 8) rfl _ _ hi, j4 (by decide)]
  by_cases h8 : i < 8
  · rw [if_pos h8, lane16_unpacklo32 _ _ h8, hl.lane_eq (by omega), hh.lane_eq (by omega)]
    match i, h8 with
    | 0, _ | 1, _ | 2, _ | 3, _ | 4, _ | 5, _ | 6, _ | 7, _ => rfl
    | i + 8, h => omega
  · rw [if_neg h8, lane16_unpackhi32 _ _ (by omega), hl.lane_eq (by omega), hh.lane_eq (by omega)]
    match i, h8, hi with
    | 8, _, _ | 9, _, _ | 10, _, _ | 11, _, _ | 12, _, _ | 13, _, _ | 14, _, _ | 15, _, _ => rfl
    | 0, h, _ | 1, h, _ | 2, h, _ | 3, h, _ | 4, h, _ | 5, h, _ | 6, h, _ | 7, h, _ => omega
    | i + 16, _, h => omega

example : amGet true 16 (amCastJoin4 (amInit false) (amInit false) (amInit true) (amInit false)) 9 = true := by
  have h := C63_join4 (C63_init 64 false) (C63_init 64 false) (C63_init 64 true) (C63_init 64 false)
  exact (C63_subscript true (.inl rfl) h (i := 9) (by decide)).1

/-! ### SSE masks and scalar masks to AVX masks -/

private theorem sse_width {w : Nat} (hw : AvxMaskWidth w) : MaskWidth w := .inr hw

/-- One SSE mask to an AVX mask. -/
theorem C63_fromSse_partial (ext : Option M128) (u : M128) (fp : Bool) {v w : Nat} (hv : AvxMaskWidth v)
    (hw : AvxMaskWidth w) {x : M128} {b : Nat → Bool} (h : IsMask v x b) :
    ∃ r, amFromSse ext u fp v w x = some r ∧ MaskPrefix w (128 / v) r b ∧
      (ext = none → IsMask w r (fun i => if i < 128 / v then b i else false)) := by
  have pre : ∀ {r : M256}, MaskPrefix w (128 / v) r (fun i => if i < 128 / v then b i else false) →
      MaskPrefix w (128 / v) r b :=
    fun hr => prefix_congr hr (Nat.le_refl _) fun i hi => if_pos hi
  have all : ∀ {r : M256} {b' : Nat → Bool}, IsMask w r b' →
      (∀ i, w * (i + 1) ≤ 256 → b' i = if i < 128 / v then b i else false) →
      MaskPrefix w (128 / v) r b ∧ (ext = none → IsMask w r (fun i => if i < 128 / v then b i else false)) :=
    fun hr e => ⟨pre (all_lanes ext hr e).1, fun _ => hr.congr e⟩
  have low : ∀ {c : Nat} {x : M128} {b' : Nat → Bool}, w * c = 128 → IsMask w x b' → 128 / v ≤ c →
      (∀ i, i < c → b' i = if i < 128 / v then b i else false) →
      MaskPrefix w (128 / v) (zeroExtend ext x) b ∧
      (ext = none → IsMask w (zeroExtend ext x) (fun i => if i < 128 / v then b i else false)) :=
    fun hc hx hs e =>
      have L := low_lanes ext hc hx hs e (fun i h1 _ => if_neg (by omega))
      ⟨pre L.1, L.2⟩
  have cast : ∀ {c : Nat}, w * c = 128 → 128 / v ≤ c →
      ∃ r, (maskCast (128 / v) (128 / w) x).map (zeroExtend ext) = some r ∧ MaskPrefix w (128 / v) r b ∧
        (ext = none → IsMask w r (fun i => if i < 128 / v then b i else false)) := by
    intro c hc hs
    obtain ⟨y, e, hy⟩ := C36_cast (sse_width hv) (sse_width hw)
      (fun h => by rcases hw with rfl | rfl | rfl <;> simp at h) h
    exact ⟨_, by rw [e]; rfl, low hc hy hs fun i _ => rfl⟩
  rcases hv with rfl | rfl | rfl <;> rcases hw with rfl | rfl | rfl
  · exact cast (c := 8) rfl (by decide)
  · have e : ∃ r, amFromSse ext u fp 16 32 x = some r ∧ r = concat128 (unpacklo 16 x x) (unpackhi 16 x x) := by
      cases fp
      · refine ⟨_, rfl, ?_⟩
        rw [unpack_flip]
        unfold castTo256
        rw [lo128_concat]
      · exact ⟨_, rfl, rfl⟩
    obtain ⟨r, e, rfl⟩ := e
    exact ⟨_, e, all (widen_isMask (v := 16) (by decide) (by decide) h) fun i hi => (if_pos (by omega)).symm⟩
  · exact ⟨_, rfl, all (widen_isMask (v := 32) (by decide) (by decide) (unpacklo_isMask (v := 16) (by decide) h))
      fun i hi => (if_pos (by omega)).symm⟩
  · exact cast (c := 8) rfl (by decide)
  · exact ⟨_, rfl, low (c := 4) rfl h (by decide) fun i hi => (if_pos hi).symm⟩
  · exact ⟨_, rfl, all (widen_isMask (v := 32) (by decide) (by decide) h) fun i hi => (if_pos (by omega)).symm⟩
  · exact cast (c := 8) rfl (by decide)
  · exact cast (c := 4) rfl (by decide)
  · exact ⟨_, rfl, low (c := 2) rfl h (by decide) fun i hi => (if_pos hi).symm⟩

example : ∃ r, amFromSse none 0#128 false 32 64 exMask4 = some r ∧ amStore 4 r = [1#8, 0#8, 0#8, 1#8] := by
  have h : IsMask 32 exMask4 _ := C36_generate 32 _
  obtain ⟨r, e, _, hr⟩ := C63_fromSse_partial none 0#128 false (.inr (.inl rfl)) (.inr (.inr rfl)) h
  exact ⟨r, e, C63_store (.inr (.inr rfl)) (hr rfl)⟩

/-- With the upper half undefined, converting an SSE mask of four false lanes to eight lanes can make
lane 4 true. -/
theorem C63_fromSse_violated :
    ∃ u r, amFromSse (some u) 0#128 false 32 32 0#128 = some r ∧ amGet true 8 r 4 = true := by
  refine ⟨BitVec.allOnes 128, _, rfl, ?_⟩
  decide +kernel

/-- Two SSE masks to an AVX mask. -/
theorem C63_fromSse2_partial (ext : Option M128) {v w : Nat} (hv : AvxMaskWidth v) (hw : AvxMaskWidth w)
    (hvw : w ≤ v) {x0 x1 : M128} {b0 b1 : Nat → Bool} (h0 : IsMask v x0 b0) (h1 : IsMask v x1 b1) :
    ∃ r, amFromSse2 ext v w x0 x1 = some r ∧
      MaskPrefix w (2 * (128 / v)) r (joined (128 / v) [b0, b1]) ∧
      (ext = none → IsMask w r (joined (128 / v) [b0, b1])) := by
  have two : ∀ {c : Nat} (hc : 0 < c) (i : Nat), i < 2 * c →
      (if i < c then b0 i else b1 (i - c)) = joined c [b0, b1] i := by
    intro c hc i hi
    rw [j2 hc]
    by_cases h : i < c
    · rw [if_pos h, if_pos h]
    · rw [if_neg h, if_neg h, if_pos hi]
  have zero : ∀ {c : Nat} (hc : 0 < c) (i : Nat), 2 * c ≤ i → joined c [b0, b1] i = false := by
    intro c hc i hi
    rw [j2 hc, if_neg (by omega), if_neg (by omega)]
  rcases hv with rfl | rfl | rfl <;> rcases hw with rfl | rfl | rfl <;> try omega
  · exact ⟨_, rfl, all_lanes ext (isMask_concat (w := 16) (c := 8) rfl h0 h1) fun i hi =>
      two (c := 8) (by decide) i (by omega)⟩
  · exact ⟨_, rfl, low_lanes ext (c := 8) rfl (packs_isMask (c := 2) (by decide) h0 h1) (by decide)
      (fun i hi => two (c := 4) (by decide) i hi) fun i h1 _ => zero (c := 4) (by decide) i h1⟩
  · exact ⟨_, rfl, all_lanes ext (isMask_concat (w := 32) (c := 4) rfl h0 h1) fun i hi =>
      two (c := 4) (by decide) i (by omega)⟩
  · refine ⟨_, rfl, low_lanes ext (c := 8) rfl (packs_isMask (c := 2) (by decide)
      (packs16_isMask (c := 2) (by decide) h0 h1) (isMask_zero 32)) (by decide)
      (fun i hi => ?_) fun i h1 _ => zero (c := 2) (by decide) i (by omega)⟩
    show (if i < 4 then (if i < 2 then b0 i else b1 (i - 2)) else false) = joined 2 [b0, b1] i
    by_cases h : i < 4
    · rw [if_pos h]; exact two (c := 2) (by decide) i h
    · rw [if_neg h, zero (c := 2) (by decide) i (by omega)]
  · exact ⟨_, rfl, low_lanes ext (c := 4) rfl (packs16_isMask (c := 2) (by decide) h0 h1) (by decide)
      (fun i hi => two (c := 2) (by decide) i hi) fun i h1 _ => zero (c := 2) (by decide) i h1⟩
  · exact ⟨_, rfl, all_lanes ext (isMask_concat (w := 64) (c := 2) rfl h0 h1) fun i hi =>
      two (c := 2) (by decide) i (by omega)⟩

/-- Four SSE masks to an AVX mask with narrower lanes. -/
theorem C63_fromSse4_partial (ext : Option M128) {v w : Nat} (hv : AvxMaskWidth v) (hw : AvxMaskWidth w)
    (hvw : w < v) {x0 x1 x2 x3 : M128} {b0 b1 b2 b3 : Nat → Bool} (h0 : IsMask v x0 b0)
    (h1 : IsMask v x1 b1) (h2 : IsMask v x2 b2) (h3 : IsMask v x3 b3) :
    ∃ r, amFromSse4 ext v w x0 x1 x2 x3 = some r ∧
      MaskPrefix w (4 * (128 / v)) r (joined (128 / v) [b0, b1, b2, b3]) ∧
      (ext = none → IsMask w r (joined (128 / v) [b0, b1, b2, b3])) := by
  have four : ∀ {c : Nat} (hc : 0 < c) (i : Nat), i < 4 * c →
      (if i < 2 * c then (if i < c then b0 i else b1 (i - c))
        else (if i - 2 * c < c then b2 (i - 2 * c) else b3 (i - 2 * c - c))) = joined c [b0, b1, b2, b3] i := by
    intro c hc i hi
    rw [j4 hc]
    by_cases h : i < c
    · rw [if_pos (by omega), if_pos h, if_pos h]
    rw [if_neg h, if_neg h]
    by_cases h2 : i < 2 * c
    · rw [if_pos h2, if_pos h2]
    rw [if_neg h2, if_neg h2]
    by_cases h3 : i < 3 * c
    · rw [if_pos (by omega), if_pos h3]
    · rw [if_neg (by omega), if_neg h3, if_pos hi]; congr 1; omega
  rcases hv with rfl | rfl | rfl <;> rcases hw with rfl | rfl | rfl <;> try omega
  · exact ⟨_, rfl, all_lanes ext (isMask_concat (w := 16) (c := 8) rfl
      (packs_isMask (c := 2) (by decide) h0 h1) (packs_isMask (c := 2) (by decide) h2 h3)) fun i hi =>
      four (c := 4) (by decide) i (by omega)⟩
  · refine ⟨_, rfl, low_lanes ext (c := 8) rfl (packs_isMask (c := 2) (by decide)
      (packs16_isMask (c := 2) (by decide) h0 h1) (packs16_isMask (c := 2) (by decide) h2 h3)) (by decide)
      (fun i hi => four (c := 2) (by decide) i (by omega)) fun i h1 _ => ?_⟩
    rw [j4 (by decide), if_neg (by omega), if_neg (by omega), if_neg (by omega), if_neg (by omega)]
  · exact ⟨_, rfl, all_lanes ext (isMask_concat (w := 32) (c := 4) rfl
      (packs16_isMask (c := 2) (by decide) h0 h1) (packs16_isMask (c := 2) (by decide) h2 h3)) fun i hi =>
      four (c := 2) (by decide) i (by omega)⟩

example : ∃ r, amFromSse2 none 32 32 exMask4 exMask4 = some r ∧
    amStore 8 r = [1#8, 0#8, 0#8, 1#8, 1#8, 0#8, 0#8, 1#8] := by
  have h : IsMask 32 exMask4 _ := C36_generate 32 _
  obtain ⟨r, e, _, hr⟩ := C63_fromSse2_partial none (.inr (.inl rfl)) (.inr (.inl rfl)) (by decide) h h
  exact ⟨r, e, C63_store (.inr (.inl rfl)) (hr rfl)⟩

example : ∃ r, amFromSse4 none 32 16 exMask4 exMask4 exMask4 exMask4 = some r ∧ amGet true 16 r 15 = true := by
  have h : IsMask 32 exMask4 _ := C36_generate 32 _
  obtain ⟨r, e, _, hr⟩ := C63_fromSse4_partial none (.inr (.inl rfl)) (.inl rfl) (by decide) h h h h
  exact ⟨r, e, (C63_subscript true (.inl rfl) (hr rfl) (i := 15) (by decide)).1⟩

/-- Scalar masks to an AVX mask: lane `i` is the `i`-th argument, the other lanes are false. -/
theorem C63_fromScalar (w : Nat) (ks : List Bool) :
    IsMask w (amFromScalar w ks) (fun i => ks.getD i false) := by
  have key : ∀ n, IsMask w ((List.range n).foldl (fun r i => amSet w r i (ks.getD i false)) (amInit false))
      (fun i => if i < n then ks.getD i false else false) := by
    intro n
    induction n with
    | zero => exact (C63_init w false).congr fun i _ => (if_neg (by omega)).symm
    | succ n ih =>
      rw [List.range_succ, List.foldl_append]
      refine (set_isMask ih n _).congr fun i _ => ?_
      by_cases h : i = n
      · rw [if_pos h, if_pos (by omega), h]
      · rw [if_neg h]
        by_cases h2 : i < n
        · rw [if_pos h2, if_pos (by omega)]
        · rw [if_neg h2, if_neg (by omega)]
  refine (key ks.length).congr fun i _ => ?_
  by_cases h : i < ks.length
  · rw [if_pos h]
  · rw [if_neg h]; simp [List.getD, Nat.le_of_not_lt h]

example : amStore 4 (amFromScalar 64 [true, false]) = [1#8, 0#8, 0#8, 0#8] :=
  C63_store (.inr (.inr rfl)) (C63_fromScalar 64 _)

/-! ### AVX masks to SSE masks -/

/-- One AVX mask to an SSE mask: the lanes both have, then false. -/
theorem C63_toSse {v w : Nat} (hv : AvxMaskWidth v) (hw : AvxMaskWidth w) {k : M256} {b : Nat → Bool}
    (h : IsMask v k b) :
    ∃ r, amToSse v w k = some r ∧ IsMask w r (fun i => if i < 256 / v then b i else false) := by
  have cast : v = 16 → ∃ r, maskCast (128 / v) (128 / w) (lo128 k) = some r ∧
      IsMask w r (fun i => if i < 256 / v then b i else false) := by
    rintro rfl
    obtain ⟨y, e, hy⟩ := C36_cast (sse_width hv) (sse_width hw)
      (fun h => by rcases hw with rfl | rfl | rfl <;> simp at h) (isMask_lo (w := 16) (c := 8) rfl h)
    refine ⟨y, e, hy.congr fun i hi => ?_⟩
    have : i < 8 := by rcases hw with rfl | rfl | rfl <;> omega
    rw [if_pos (by omega), if_pos (by omega)]
  rcases hv with rfl | rfl | rfl <;> rcases hw with rfl | rfl | rfl
  · exact cast rfl
  · exact cast rfl
  · exact cast rfl
  · exact ⟨_, rfl, (packed32 h).congr fun i hi => (if_pos (by omega)).symm⟩
  · exact ⟨_, rfl, (isMask_lo (w := 32) (c := 4) rfl h).congr fun i hi => (if_pos (by omega)).symm⟩
  · exact ⟨_, rfl, (unpacklo_isMask (v := 32) (by decide) (isMask_lo (w := 32) (c := 4) rfl h)).congr
      fun i hi => (if_pos (by omega)).symm⟩
  · exact ⟨_, rfl, packs_isMask (c := 2) (by decide) (packed64 h) (isMask_zero 32)⟩
  · exact ⟨_, rfl, (packed64 h).congr fun i hi => (if_pos (by omega)).symm⟩
  · exact ⟨_, rfl, (isMask_lo (w := 64) (c := 2) rfl h).congr fun i hi => (if_pos (by omega)).symm⟩

/-- Two `double_m` to an SSE mask of eight lanes. -/
theorem C63_toSse2 {x0 x1 : M256} {b0 b1 : Nat → Bool} (h0 : IsMask 64 x0 b0) (h1 : IsMask 64 x1 b1) :
    IsMask 16 (amToSse2 x0 x1) (joined 4 [b0, b1]) := by
  refine (packs_isMask (c := 2) (by decide) (packed64 h0) (packed64 h1)).congr fun i hi => ?_
  rw [j2 (by decide)]
  by_cases h : i < 4
  · rw [if_pos (by omega), if_pos h]
  · rw [if_neg (by omega), if_neg h, if_pos (by omega)]

example : ∃ r, amToSse 32 16 exAvxMask = some r ∧
    maskStore 8 r = [1#8, 0#8, 0#8, 1#8, 0#8, 0#8, 1#8, 0#8] := by
  obtain ⟨r, e, hr⟩ := C63_toSse (.inr (.inl rfl)) (.inl rfl) exAvx
  exact ⟨r, e, C36_store (.inr (.inl rfl)) hr⟩

example : maskGet 8 (amToSse2 (amInit false) (amInit true)) 5 = true :=
  (C36_subscript (w := 16) (.inr (.inl rfl)) (C63_toSse2 (C63_init 64 false) (C63_init 64 true)) (i := 5) (by decide)).1

/-! ### Casts with an offset -/

/-- AVX to AVX with an offset: the lanes from `offset * size` onwards, `size` being the number of lanes
of the result. -/
theorem C63_cast_offset {v w : Nat} (hv : AvxMaskWidth v) (hw : AvxMaskWidth w) {offset : Nat}
    (ho : 0 < offset) (hin : offset * (256 / w) < 256 / v) {k : M256} {b : Nat → Bool} (h : IsMask v k b) :
    ∃ r, amCastOffset (256 / v) (256 / w) offset k = some r ∧
      IsMask w r (fun i => b (offset * (256 / w) + i)) := by
  have wide8 : ∀ {c : Nat} {x : M128} {b' : Nat → Bool}, c = 2 ∨ c = 4 → IsMask (8 * c) x b' →
      IsMask (16 * c) (concat128 (unpacklo 8 x x) (unpackhi 8 x x)) b' := by
    intro c x b' hc hx
    refine IsMask_wide (v := 16) (c := c) (by decide) (widen_isMask (v := 8) (by decide) (by decide)
      (hx.narrow (by omega) (by decide) (by rcases hc with rfl | rfl <;> decide)))
  have wide16 : ∀ {x : M128} {b' : Nat → Bool}, IsMask 32 x b' →
      IsMask 64 (concat128 (unpacklo 16 x x) (unpackhi 16 x x)) b' := by
    intro x b' hx
    exact IsMask_wide (v := 32) (c := 2) (by decide) (widen_isMask (v := 16) (by decide) (by decide)
      (hx.narrow (v := 16) (c := 2) (by decide) (by decide) (by decide)))
  rcases hv with rfl | rfl | rfl <;> rcases hw with rfl | rfl | rfl <;>
    simp only [Nat.reduceDiv] at hin <;> try omega
  · obtain rfl : offset = 1 := by omega
    exact ⟨_, rfl, wide8 (c := 2) (.inl rfl) (isMask_hi (w := 16) (c := 8) rfl h)⟩
  · have : offset = 1 ∨ offset = 2 ∨ offset = 3 := by omega
    rcases this with rfl | rfl | rfl
    · exact ⟨_, rfl, wide16 (unpackhi8_isMask (v := 8) (c := 2) (by decide) (by decide) (by decide)
        (isMask_lo (w := 16) (c := 8) rfl h))⟩
    · exact ⟨_, rfl, wide16 (unpacklo8_isMask (v := 8) (c := 2) (by decide) (by decide) (by decide)
        (isMask_hi (w := 16) (c := 8) rfl h))⟩
    · refine ⟨_, rfl, (wide16 (unpackhi8_isMask (v := 8) (c := 2) (by decide) (by decide) (by decide)
        (isMask_hi (w := 16) (c := 8) rfl h))).congr fun i _ => ?_⟩
      congr 1; omega
  · obtain rfl : offset = 1 := by omega
    exact ⟨_, rfl, wide8 (c := 4) (.inr rfl) (isMask_hi (w := 32) (c := 4) rfl h)⟩

/-- An SSE mask of eight lanes to `double_m` with offset 1: lanes 4 to 7. -/
theorem C63_fromSse_offset {x : M128} {b : Nat → Bool} (h : IsMask 16 x b) :
    IsMask 64 (amFromSseOffset1 x) (fun i => b (4 + i)) :=
  widen_isMask (v := 32) (by decide) (by decide) (unpackhi_isMask (v := 16) (by decide) (by decide) h)

/-- AVX to SSE with an offset. -/
theorem C63_toSse_offset {v w : Nat} (hv : AvxMaskWidth v) (hw : AvxMaskWidth w) {offset : Nat}
    (ho : 0 < offset) (hin : offset * (128 / w) < 256 / v) {k : M256} {b : Nat → Bool} (h : IsMask v k b) :
    ∃ r, amToSseOffset v w offset k = some r ∧ IsMask w r (fun i => b (offset * (128 / w) + i)) := by
  have hc := aw_half hv
  have e256 := aw_two hv
  have hb : 32 / (256 / v) = v / 8 := by rcases hv with rfl | rfl | rfl <;> rfl
  have h8 : 8 * (v / 8) = v := by rcases hv with rfl | rfl | rfl <;> rfl
  have fit : ∀ i, w * (i + 1) ≤ 128 → offset * (128 / w) + i < 256 / v ∧ i < 128 / v := by
    intro i hi
    rcases hv with rfl | rfl | rfl <;> rcases hw with rfl | rfl | rfl <;>
      simp only [Nat.reduceDiv] at hin ⊢ <;> omega
  have hpos : 0 < offset * (128 / w) := Nat.mul_pos ho (by rcases hw with rfl | rfl | rfl <;> decide)
  unfold amToSseOffset
  rw [hb]
  simp only [Nat.mul_assoc]
  generalize hp : offset * (128 / w) = p at *
  have hs : 0 < v / 8 * p ∧ v / 8 * p < 32 := by
    refine ⟨Nat.mul_pos (by rcases hv with rfl | rfl | rfl <;> decide) hpos, ?_⟩
    rcases hv with rfl | rfl | rfl <;> simp only [Nat.reduceDiv] at * <;> omega
  rw [if_pos hs]
  have key : ∀ {y : M128}, IsMask v y (fun i => if p + i < 256 / v then b (p + i) else false) →
      ∃ r, maskCast (128 / v) (128 / w) y = some r ∧ IsMask w r (fun i => b (p + i)) := by
    intro y hy
    obtain ⟨r, e, hr⟩ := C36_cast (sse_width hv) (sse_width hw)
      (fun h => by rcases hw with rfl | rfl | rfl <;> simp at h) hy
    refine ⟨r, e, hr.congr fun i hi => ?_⟩
    have := fit i hi
    rw [if_pos this.2, if_pos this.1]
  by_cases h16 : v / 8 * p = 16
  · rw [if_pos h16]
    have hpc : p = 128 / v := by rcases hv with rfl | rfl | rfl <;> simp only [Nat.reduceDiv] at * <;> omega
    refine key ((isMask_hi hc h).congr fun i hi => ?_)
    have := lt_of_room1 hc hi
    rw [← hpc] at this ⊢
    rw [if_pos (by omega)]
  · rw [if_neg h16]
    refine key (isMask_of fun i hi => ?_)
    have hic := lt_of_room1 hc hi
    rw [lane_alignr _ _ (j := p) (by rw [← Nat.mul_assoc, h8]) hc hic]
    by_cases h1 : i + p < 128 / v
    · rw [if_pos h1, lane_lo128 hc _ h1, if_pos (by omega), h.lane_eq (room (by omega)), Nat.add_comm]
    · rw [if_neg h1]
      by_cases h2 : p + i < 256 / v
      · rw [if_pos h2, lane_hi128 hc _ (by omega), h.lane_eq (room (by omega))]
        congr 2; omega
      · rw [if_neg h2, lane_out]
        · rfl
        · have := Nat.mul_le_mul_left v (show 128 / v ≤ i + p - 128 / v by omega)
          omega

example : ∃ r, amCastOffset 8 4 1 exAvxMask = some r ∧ amStore 4 r = [0#8, 0#8, 1#8, 0#8] := by
  obtain ⟨r, e, hr⟩ := C63_cast_offset (.inr (.inl rfl)) (w := 64) (.inr (.inr rfl)) (offset := 1) (by decide)
    (by decide) exAvx
  exact ⟨r, e, C63_store (.inr (.inr rfl)) hr⟩

example : ∃ r, amToSseOffset 32 64 3 exAvxMask = some r ∧ maskStore 2 r = [1#8, 0#8] := by
  obtain ⟨r, e, hr⟩ := C63_toSse_offset (.inr (.inl rfl)) (w := 64) (.inr (.inr rfl)) (offset := 3) (by decide)
    (by decide) exAvx
  exact ⟨r, e, C36_store (.inr (.inr (.inr rfl))) hr⟩

example : amStore 4 (amFromSseOffset1 (maskGenerate 16 fun i => i == 5)) = [0#8, 1#8, 0#8, 0#8] :=
  C63_store (.inr (.inr rfl)) (C63_fromSse_offset (C36_generate 16 fun i => i == 5))

end Vc.Prop
