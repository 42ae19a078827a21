import Verif.Lemma.SseConv

/-!
C34, C35, C52, C53: integer operations of the SSE vectors.

All statements hold for every combination of instruction set extensions `I`, for entry widths of 16 and
32 bit (short, ushort, int, uint; 64 bit for the helper comparisons) and for every lane `i` of a
128 bit register.  `Spec.val sgn` is the number an entry stands for, `Spec.boolLane` the mask lane of a
truth value.
-/

namespace Vc.Prop
open Vc.Model Vc.Lemma

/-- The ISA of plain SSE2, and one with everything. -/
def sse2 : Isa := ⟨false, false, false, false⟩
def sse42 : Isa := ⟨true, true, true, true⟩

/-- Entry widths of the integer vectors. -/
def IntWidth (w : Nat) : Prop := w = 16 ∨ w = 32

private theorem IntWidth.pos {w : Nat} (h : IntWidth w) : 0 < w := by
  rcases h with rfl | rfl <;> decide

private theorem boolLane_eq (w : Nat) (b : Bool) : Spec.boolLane w b = laneMask b := rfl

private theorem toInt_satSigned16 (a : BitVec 32) :
    (satSigned 16 a).toInt = max (-32768) (min 32767 a.toInt) := by
  have h16 : (2 : Int) ^ (16 - 1) = 32768 := by decide
  unfold satSigned
  rw [h16]
  have hb : ∀ z : Int, -32768 ≤ z → z ≤ 32767 → (BitVec.ofInt 16 z).toInt = z := fun z h1 h2 => by
    rw [BitVec.toInt_ofInt]
    apply Int.bmod_eq_of_le <;> simp <;> omega
  split
  · rw [hb _ (by omega) (by omega)]; omega
  · split
    · rw [hb _ (by omega) (by omega)]; omega
    · rw [hb _ (by omega) (by omega)]; omega

/-! ### C34 -/

theorem C34_eq {w : Nat} (hw : IntWidth w) (sgn : Bool) (a b : M128) {i : Nat}
    (hi : w * (i + 1) ≤ 128) :
    lane w (vEq w a b) i =
      Spec.boolLane w (decide (Spec.val sgn (lane w a i) = Spec.val sgn (lane w b i))) := by
  have _ := hw
  unfold vEq
  rw [lane_cmpeqEpi hi, boolLane_eq]
  congr 1
  cases sgn
  · simp only [Spec.val, Bool.false_eq_true, if_false, Int.natCast_inj, BitVec.toNat_inj]
  · simp [Spec.val, BitVec.toInt_inj]

theorem C34_ne {w : Nat} (hw : IntWidth w) (sgn : Bool) (a b : M128) {i : Nat}
    (hi : w * (i + 1) ≤ 128) :
    lane w (vNe w a b) i =
      Spec.boolLane w (decide (Spec.val sgn (lane w a i) ≠ Spec.val sgn (lane w b i))) := by
  have h := C34_eq hw sgn a b hi
  unfold vEq at h
  unfold vNe
  rw [lane_vnot hi, h, boolLane_eq, boolLane_eq, not_laneMask]
  simp

theorem C34_gt {w : Nat} (hw : IntWidth w) (sgn : Bool) (a b : M128) {i : Nat}
    (hi : w * (i + 1) ≤ 128) :
    lane w (vGt sgn w a b) i =
      Spec.boolLane w (decide (Spec.val sgn (lane w a i) > Spec.val sgn (lane w b i))) := by
  rw [boolLane_eq]
  cases sgn
  · simp only [vGt, Spec.val, Bool.false_eq_true, if_false]
    rw [lane_cmpgtEpu hw.pos hi]
    simp
  · simp only [vGt, Spec.val, if_true]
    rw [lane_cmpgtEpi hi]

theorem C34_lt {w : Nat} (hw : IntWidth w) (sgn : Bool) (a b : M128) {i : Nat}
    (hi : w * (i + 1) ≤ 128) :
    lane w (vLt sgn w a b) i =
      Spec.boolLane w (decide (Spec.val sgn (lane w a i) < Spec.val sgn (lane w b i))) := by
  rw [boolLane_eq]
  cases sgn
  · simp only [vLt, Spec.val, Bool.false_eq_true, if_false]
    rw [lane_cmpltEpu hw.pos hi]
    simp
  · simp only [vLt, Spec.val, if_true]
    rw [lane_cmpltEpi hi]

theorem C34_ge {w : Nat} (hw : IntWidth w) (sgn : Bool) (a b : M128) {i : Nat}
    (hi : w * (i + 1) ≤ 128) :
    lane w (vGe sgn w a b) i =
      Spec.boolLane w (decide (Spec.val sgn (lane w a i) ≥ Spec.val sgn (lane w b i))) := by
  unfold vGe
  rw [lane_vnot hi, C34_lt hw sgn a b hi, boolLane_eq, boolLane_eq, not_laneMask, ← decide_not]
  congr 1
  exact decide_eq_decide.mpr Int.not_lt

theorem C34_le {w : Nat} (hw : IntWidth w) (sgn : Bool) (a b : M128) {i : Nat}
    (hi : w * (i + 1) ≤ 128) :
    lane w (vLe sgn w a b) i =
      Spec.boolLane w (decide (Spec.val sgn (lane w a i) ≤ Spec.val sgn (lane w b i))) := by
  unfold vLe
  rw [lane_vnot hi, C34_gt hw sgn a b hi, boolLane_eq, boolLane_eq, not_laneMask, ← decide_not]
  congr 1
  exact decide_eq_decide.mpr Int.not_lt

/-- An unsigned comparison where the signed one would answer differently: `0x8000 > 1`. -/
example : lane 16 (vGt false 16 (set1 16 0x8000#16) (set1 16 1#16)) 7 = 0xffff#16 ∧
    lane 16 (vGt true 16 (set1 16 0x8000#16) (set1 16 1#16)) 7 = 0#16 := by
  rw [C34_gt (.inl rfl) _ _ _ (by decide), C34_gt (.inl rfl) _ _ _ (by decide),
    lane_set1 _ (by decide), lane_set1 _ (by decide)]
  decide

/-- `max` and `min` of two vectors give the larger / smaller number in every lane. -/
theorem C34_max (I : Isa) {w : Nat} (hw : IntWidth w) (sgn : Bool) (a b : M128) {i : Nat}
    (hi : w * (i + 1) ≤ 128) :
    Spec.val sgn (lane w (vMax I sgn w a b) i) =
      max (Spec.val sgn (lane w a i)) (Spec.val sgn (lane w b i)) := by
  obtain ⟨c, hc, hc0⟩ : ∃ c, w = 8 * c ∧ 0 < c := by
    rcases hw with rfl | rfl
    · exact ⟨2, rfl, by decide⟩
    · exact ⟨4, rfl, by decide⟩
  cases sgn
  · simp only [vMax, Bool.false_eq_true, if_false]
    rw [lane_vmaxEpu I hc hc0 hi]
    simp only [Spec.val, Bool.false_eq_true, if_false]
    split <;> omega
  · simp only [vMax, if_true]
    rw [lane_vmaxEpi I hc hi]
    simp only [Spec.val, if_true]
    split <;> omega

theorem C34_min (I : Isa) {w : Nat} (hw : IntWidth w) (sgn : Bool) (a b : M128) {i : Nat}
    (hi : w * (i + 1) ≤ 128) :
    Spec.val sgn (lane w (vMin I sgn w a b) i) =
      min (Spec.val sgn (lane w a i)) (Spec.val sgn (lane w b i)) := by
  obtain ⟨c, hc, hc0⟩ : ∃ c, w = 8 * c ∧ 0 < c := by
    rcases hw with rfl | rfl
    · exact ⟨2, rfl, by decide⟩
    · exact ⟨4, rfl, by decide⟩
  cases sgn
  · simp only [vMin, Bool.false_eq_true, if_false]
    rw [lane_vminEpu I hc hc0 hi]
    simp only [Spec.val, Bool.false_eq_true, if_false]
    split <;> omega
  · simp only [vMin, if_true]
    rw [lane_vminEpi I hc hi]
    simp only [Spec.val, if_true]
    split <;> omega

/-- The byte versions of the minimum and maximum helpers. -/
theorem C34_minmax8 (I : Isa) (sgn : Bool) (a b : M128) {i : Nat} (hi : i < 16) :
    Spec.val sgn (lane 8 (vMax I sgn 8 a b) i) =
      max (Spec.val sgn (lane 8 a i)) (Spec.val sgn (lane 8 b i)) ∧
    Spec.val sgn (lane 8 (vMin I sgn 8 a b) i) =
      min (Spec.val sgn (lane 8 a i)) (Spec.val sgn (lane 8 b i)) := by
  have h : 8 * (i + 1) ≤ 128 := by omega
  cases sgn
  · simp only [vMin, vMax, Bool.false_eq_true, if_false]
    rw [lane_vminEpu I (w := 8) (c := 1) rfl (by decide) h,
      lane_vmaxEpu I (w := 8) (c := 1) rfl (by decide) h]
    simp only [Spec.val, Bool.false_eq_true, if_false]
    constructor <;> split <;> omega
  · simp only [vMin, vMax, if_true]
    rw [lane_vminEpi I (w := 8) (c := 1) rfl h, lane_vmaxEpi I (w := 8) (c := 1) rfl h]
    simp only [Spec.val, if_true]
    constructor <;> split <;> omega

/-- Unsigned minimum and maximum of `0xffffffff` and `1` without SSE4.1. -/
example : Spec.val false (lane 32 (vMax sse2 false 32 (set1 32 0xffffffff#32) (set1 32 1#32)) 3) =
      4294967295 ∧
    Spec.val false (lane 32 (vMin sse2 false 32 (set1 32 0xffffffff#32) (set1 32 1#32)) 3) = 1 := by
  rw [C34_max _ (.inr rfl) _ _ _ (by decide), C34_min _ (.inr rfl) _ _ _ (by decide),
    lane_set1 _ (by decide), lane_set1 _ (by decide)]
  decide

/-- The 64 bit comparisons, with and without SSE4.1 / SSE4.2. -/
theorem C34_cmp64 (I : Isa) (a b : M128) {i : Nat} (hi : i < 2) :
    lane 64 (cmpgtEpi64 I a b) i =
      Spec.boolLane 64 (decide (Spec.val true (lane 64 a i) > Spec.val true (lane 64 b i))) ∧
    lane 64 (cmpeqEpi64 I a b) i =
      Spec.boolLane 64 (decide (Spec.val true (lane 64 a i) = Spec.val true (lane 64 b i))) := by
  rw [lane_cmpgtEpi64 I a b hi, lane_cmpeqEpi64 I a b hi]
  simp [Spec.val, boolLane_eq, BitVec.toInt_inj]

/-- Numbers that differ only in the unsigned order of their low halves. -/
example : lane 64 (cmpgtEpi64 sse2 (set1 64 0x180000000#64) (set1 64 0x100000001#64)) 1 =
    BitVec.allOnes 64 := by
  rw [(C34_cmp64 _ _ _ (by decide)).1, lane_set1 _ (by decide), lane_set1 _ (by decide)]
  decide

/-! ### C35 -/

/-- Multiplication gives in every lane the product modulo `2 ^ w`, for signed and unsigned entries. -/
theorem C35_mul (I : Isa) {w : Nat} (hw : IntWidth w) (sgn : Bool) (a b : M128) {i : Nat}
    (hi : w * (i + 1) ≤ 128) :
    ∃ k : Int, Spec.val sgn (lane w (vMul I w a b) i) =
      Spec.val sgn (lane w a i) * Spec.val sgn (lane w b i) + k * 2 ^ w := by
  rw [lane_vMul I hw hi]
  generalize lane w a i = x
  generalize lane w b i = y
  cases sgn
  · refine ⟨-((x.toNat * y.toNat / 2 ^ w : Nat) : Int), ?_⟩
    simp only [Spec.val, Bool.false_eq_true, if_false, BitVec.toNat_mul]
    have h2 : ((2 : Int) ^ w) = ((2 ^ w : Nat) : Int) := by simp
    rw [h2, ← Int.natCast_mul]
    generalize 2 ^ w = N
    generalize x.toNat * y.toNat = p
    have := Int.mul_ediv_add_emod (p : Int) (N : Int)
    rw [Int.natCast_emod, Int.natCast_ediv, Int.neg_mul, Int.mul_comm]
    omega
  · simp only [Spec.val, if_true, BitVec.toInt_mul]
    have h := Int.emod_add_mul_ediv (x.toInt * y.toInt) (2 ^ w : Nat)
    have h' := Int.bmod_def (x.toInt * y.toInt) (2 ^ w)
    have h2 : ((2 : Int) ^ w) = ((2 ^ w : Nat) : Int) := by simp
    rw [h2]
    generalize x.toInt * y.toInt = p at *
    generalize 2 ^ w = N at *
    rw [h']
    split
    · refine ⟨-(p / N), ?_⟩
      rw [Int.neg_mul, Int.mul_comm]
      omega
    · refine ⟨-(p / N) - 1, ?_⟩
      rw [Int.sub_mul, Int.neg_mul, Int.mul_comm (p / N)]
      omega

/-- In particular no lane is wrong when the product fits, and unsigned lanes are the product modulo
`2 ^ w`. -/
theorem C35_mul_unsigned (I : Isa) {w : Nat} (hw : IntWidth w) (a b : M128) {i : Nat}
    (hi : w * (i + 1) ≤ 128) :
    (lane w (vMul I w a b) i).toNat = (lane w a i).toNat * (lane w b i).toNat % 2 ^ w := by
  rw [lane_vMul I hw hi, BitVec.toNat_mul]

theorem C35_mul_signed_fits (I : Isa) {w : Nat} (hw : IntWidth w) (a b : M128) {i : Nat}
    (hi : w * (i + 1) ≤ 128)
    (h1 : -(2 ^ (w - 1) : Int) ≤ (lane w a i).toInt * (lane w b i).toInt)
    (h2 : (lane w a i).toInt * (lane w b i).toInt < 2 ^ (w - 1)) :
    (lane w (vMul I w a b) i).toInt = (lane w a i).toInt * (lane w b i).toInt := by
  rw [lane_vMul I hw hi, BitVec.toInt_mul]
  rcases hw with rfl | rfl
  · apply Int.bmod_eq_of_le <;> simp at h1 h2 ⊢ <;> omega
  · apply Int.bmod_eq_of_le <;> simp at h1 h2 ⊢ <;> omega

example : (lane 32 (vMul sse2 32 (set1 32 0x10003#32) (set1 32 0x10005#32)) 1).toNat = 0x8000f := by
  rw [C35_mul_unsigned _ (.inr rfl) _ _ (by decide), lane_set1 _ (by decide), lane_set1 _ (by decide)]
  decide

example : (lane 32 (vMul sse2 32 (set1 32 (-7)) (set1 32 6#32)) 2).toInt = -42 := by
  rw [C35_mul_signed_fits _ (.inr rfl) _ _ (by decide)] <;>
    rw [lane_set1 _ (by decide), lane_set1 _ (by decide)] <;> decide

/-! ### C52: integer conversions between entry types -/

/-- Widening conversions keep the number: short to int / uint, ushort to int / uint, for the low and
the high half of the register, with every instruction set. -/
theorem C52_widen (I : Isa) (x : M128) {i : Nat} (hi : i < 4) :
    Spec.val true (lane 32 (convertShortInt I x) i) = Spec.val true (lane 16 x i) ∧
    Spec.val true (lane 32 (convertUshortInt I x) i) = Spec.val false (lane 16 x i) ∧
    Spec.val true (lane 32 (expand0S x) i) = Spec.val true (lane 16 x i) ∧
    Spec.val true (lane 32 (expand1S x) i) = Spec.val true (lane 16 x (4 + i)) ∧
    Spec.val true (lane 32 (expand0U x) i) = Spec.val false (lane 16 x i) ∧
    Spec.val true (lane 32 (expand1U x) i) = Spec.val false (lane 16 x (4 + i)) := by
  have s : ∀ y : BitVec 16, Spec.val true (y.signExtend 32) = Spec.val true y := fun y => by
    simp [Spec.val, BitVec.toInt_signExtend_of_le]
  have z : ∀ y : BitVec 16, Spec.val true (y.zeroExtend 32) = Spec.val false y := fun y => by
    have := y.isLt
    simp only [Spec.val, if_true, Bool.false_eq_true, if_false]
    rw [BitVec.toInt_eq_toNat_of_lt]
    · simp [BitVec.toNat_setWidth]; omega
    · simp [BitVec.toNat_setWidth]; omega
  rw [lane_convertShortInt I x hi, lane_convertUshortInt I x hi, lane_expand0S x hi,
    lane_expand1S x hi, lane_expand0U x hi, lane_expand1U x hi]
  exact ⟨s _, z _, s _, s _, z _, z _⟩

/-- The sign / zero extension helpers used by the converting loads. -/
theorem C52_cvt (I : Isa) (x : M128) :
    (∀ i, i < 8 → (lane 16 (cvtepi8epi16 I x) i).toInt = (lane 8 x i).toInt ∧
      (lane 16 (cvtepu8epi16 I x) i).toNat = (lane 8 x i).toNat) ∧
    (∀ i, i < 4 → (lane 32 (cvtepi16epi32 I x) i).toInt = (lane 16 x i).toInt ∧
      (lane 32 (cvtepu16epi32 I x) i).toNat = (lane 16 x i).toNat ∧
      (lane 32 (cvtepi8epi32 I x) i).toInt = (lane 8 x i).toInt ∧
      (lane 32 (cvtepu8epi32 I x) i).toNat = (lane 8 x i).toNat) := by
  refine ⟨fun i hi => ⟨?_, ?_⟩, fun i hi => ⟨?_, ?_, ?_, ?_⟩⟩
  · rw [lane_cvtepi8epi16 I x hi, BitVec.toInt_signExtend_of_le (by decide)]
  · rw [lane_cvtepu8epi16 I x hi]
    have := (lane 8 x i).isLt
    simp only [BitVec.toNat_setWidth]; omega
  · rw [lane_cvtepi16epi32 I x hi, BitVec.toInt_signExtend_of_le (by decide)]
  · rw [lane_cvtepu16epi32 I x hi]
    have := (lane 16 x i).isLt
    simp only [BitVec.toNat_setWidth]; omega
  · rw [lane_cvtepi8epi32 I x hi, BitVec.toInt_signExtend_of_le (by decide)]
  · rw [lane_cvtepu8epi32 I x hi]
    have := (lane 8 x i).isLt
    simp only [BitVec.toNat_setWidth]; omega

/-- `simd_cast` from one or two vectors of int or uint (`sgn`) to short or ushort (`sgn'`) is the
`static_cast` in every lane, in order. -/
theorem C52_simdCast_narrow (sgn sgn' : Bool) (a b : M128) {i : Nat} (hi : i < 8) :
    Spec.val sgn' (lane 16 (convertInt32ToInt16 a b) i) =
      Spec.cast16 sgn' (Spec.val sgn (if i < 4 then lane 32 a i else lane 32 b (i - 4))) := by
  have e : lane 16 (convertInt32ToInt16 a b) i =
      (if i < 4 then lane 32 a i else lane 32 b (i - 4)).setWidth 16 := by
    unfold convertInt32ToInt16
    rw [lane_unpack3 a b hi, lane_low_half, lane_low_half]
    split <;> rfl
  rw [e]
  generalize (if i < 4 then lane 32 a i else lane 32 b (i - 4)) = x
  have := x.isLt
  cases sgn <;> cases sgn' <;>
  · simp only [Spec.val, Spec.cast16, Bool.false_eq_true, if_false, if_true, BitVec.toNat_setWidth,
      BitVec.toInt_eq_toNat_cond]
    repeat' split
    all_goals omega

/-- `simd_cast<int_v, 1>` of short_v / ushort_v converts the upper half. -/
theorem C52_simdCast_offset (I : Isa) (x : M128) :
    (∃ r, simdCastOffset (convertShortInt I) 16 1 4 x = some r ∧
      ∀ i, i < 4 → Spec.val true (lane 32 r i) = Spec.val true (lane 16 x (4 + i))) ∧
    (∃ r, simdCastOffset (convertUshortInt I) 16 1 4 x = some r ∧
      ∀ i, i < 4 → Spec.val true (lane 32 r i) = Spec.val false (lane 16 x (4 + i))) := by
  refine ⟨⟨_, rfl, fun i hi => ?_⟩, ⟨_, rfl, fun i hi => ?_⟩⟩
  · rw [(C52_widen I _ hi).1, lane_srliSi128 (w := 16) (j := 4) x (by decide), Nat.add_comm]
  · rw [(C52_widen I _ hi).2.1, lane_srliSi128 (w := 16) (j := 4) x (by decide), Nat.add_comm]

/-- The explicit conversion to ushort is the `static_cast`; the upper half is zero. -/
theorem C52_narrow_ushort (sgn : Bool) (x : M128) :
    (∀ i, i < 4 → Spec.val false (lane 16 (convertIntUshort x) i) =
      Spec.cast16 false (Spec.val sgn (lane 32 x i))) ∧
    (∀ i, 4 ≤ i → i < 8 → lane 16 (convertIntUshort x) i = 0#16) := by
  refine ⟨fun i hi => ?_, fun i h4 hi => ?_⟩
  · rw [lane_convertIntUshort x (by omega), if_pos hi]
    have := (lane 32 x i).isLt
    cases sgn
    · simp only [Spec.val, Spec.cast16, Bool.false_eq_true, if_false, BitVec.toNat_setWidth]
      omega
    · simp only [Spec.val, Spec.cast16, Bool.false_eq_true, if_false, if_true, BitVec.toNat_setWidth,
        BitVec.toInt_eq_toNat_cond]
      split <;> omega
  · rw [lane_convertIntUshort x hi, if_neg (by omega)]

/-- The explicit conversion of int to short (deprecated constructor and `staticCast`) saturates: it is the `static_cast` whenever the number is a short. -/
theorem C52_narrow_short_partial (x : M128) {i : Nat} (hi : i < 4) :
    (-32768 ≤ Spec.val true (lane 32 x i) → Spec.val true (lane 32 x i) < 32768 →
      Spec.val true (lane 16 (convertIntShort x) i) = Spec.cast16 true (Spec.val true (lane 32 x i))) ∧
    Spec.val true (lane 16 (convertIntShort x) i) =
      max (-32768) (min 32767 (Spec.val true (lane 32 x i))) := by
  have e : (lane 16 (convertIntShort x) i).toInt = max (-32768) (min 32767 (lane 32 x i).toInt) := by
    unfold convertIntShort
    rw [lane_packs _ _ (by omega), if_pos (by omega)]
    exact toInt_satSigned16 _
  simp only [Spec.val, if_true, Spec.cast16, e]
  refine ⟨fun h h' => ?_, trivial⟩
  omega

/-- The full claim "the explicit conversion of int to short is the static_cast" is false: 40000 becomes 32767 and not
-25536. -/
theorem C52_narrow_short_violated :
    ¬ ∀ (x : M128) (i : Nat), i < 4 →
      Spec.val true (lane 16 (convertIntShort x) i) = Spec.cast16 true (Spec.val true (lane 32 x i)) := by
  intro h
  have h0 := h (set1 32 40000#32) 0 (by decide)
  rw [(C52_narrow_short_partial _ (by decide)).2, lane_set1 _ (by decide)] at h0
  exact absurd h0 (by decide)

example : Spec.val true (lane 16 (convertInt32ToInt16 (set1 32 40000#32) 0#128) 2) = -25536 := by
  rw [C52_simdCast_narrow true true _ _ (by decide), if_pos (by decide), lane_set1 _ (by decide)]
  decide

example : Spec.val true (lane 32 (convertShortInt sse2 (set1 16 (-5))) 3) = -5 ∧
    Spec.val false (lane 16 (convertIntUshort (set1 32 70000#32)) 3) = 4464 := by
  rw [(C52_widen _ _ (by decide)).1, (C52_narrow_ushort true _).1 _ (by decide),
    lane_set1 _ (by decide), lane_set1 _ (by decide)]
  decide

/-! ### C53: negation and absolute value -/

/-- Unary minus: the negated number modulo `2 ^ w`, with every instruction set. -/
theorem C53_negate (I : Isa) {w : Nat} (hw : IntWidth w) (a : M128) {i : Nat}
    (hi : w * (i + 1) ≤ 128) :
    ((lane w (vNeg I w a) i).toNat + (lane w a i).toNat) % 2 ^ w = 0 ∧
    ((lane w a i).toInt ≠ -(2 ^ (w - 1) : Int) →
      (lane w (vNeg I w a) i).toInt = -(lane w a i).toInt) := by
  rw [lane_vNeg I hw.pos hi]
  generalize lane w a i = x
  have hx := x.isLt
  rcases hw with rfl | rfl
  · rw [BitVec.toNat_neg]
    refine ⟨by omega, fun h => ?_⟩
    simp only [BitVec.toInt_eq_toNat_cond, BitVec.toNat_neg] at h ⊢
    split at h <;> split <;> omega
  · rw [BitVec.toNat_neg]
    refine ⟨by omega, fun h => ?_⟩
    simp only [BitVec.toInt_eq_toNat_cond, BitVec.toNat_neg] at h ⊢
    split at h <;> split <;> omega

/-- `abs`: the absolute value, which for the smallest number is `2 ^ (w - 1)` as an unsigned lane. -/
theorem C53_abs (I : Isa) {w : Nat} (hw : w = 8 ∨ w = 16 ∨ w = 32) (a : M128) {i : Nat}
    (hi : w * (i + 1) ≤ 128) :
    (lane w (vAbs I w a) i).toNat = (lane w a i).toInt.natAbs := by
  rw [lane_vAbs I hw hi]
  generalize lane w a i = x
  have hx := x.isLt
  rcases hw with rfl | rfl | rfl <;>
  · simp only [BitVec.toInt_eq_toNat_cond]
    split <;> split <;> (try rw [BitVec.toNat_neg]) <;> omega

example : (lane 16 (vAbs sse2 16 (set1 16 (-5))) 7).toNat = 5 := by
  rw [C53_abs _ (.inr (.inl rfl)) _ (by decide), lane_set1 _ (by decide)]
  decide

example : (lane 16 (vNeg sse42 16 (set1 16 5#16)) 7).toInt = -5 := by
  rw [(C53_negate _ (.inl rfl) _ (by decide)).2] <;> rw [lane_set1 _ (by decide)] <;> decide

end Vc.Prop
