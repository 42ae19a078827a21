import Verif.Lemma.Reg
import Verif.Lemma.SseInt2
import Verif.Lemma.Float
import Verif.Model.FloatOps
import Verif.Spec.Lane

namespace Vc.Lemma

open Vc.Model Vc.Spec

/-- The floating-point vector types: format, register width, entry width, constants. -/
inductive Platform : Fmt → (n : Nat) → Nat → FConst n → Prop
  | sseFloat : Platform f32 128 32 sseFloat
  | sseDouble : Platform f64 128 64 sseDouble
  | avxFloat : Platform f32 256 32 avxFloat
  | avxDouble : Platform f64 256 64 avxDouble

/-- The two formats and the width of their patterns. -/
inductive FmtW : Fmt → Nat → Prop
  | single : FmtW f32 32
  | double : FmtW f64 64

theorem Platform.fmtW {F : Fmt} {n w : Nat} {K : FConst n} (h : Platform F n w K) : FmtW F w := by
  cases h <;> constructor

theorem FmtW.width {F : Fmt} {w : Nat} (h : FmtW F w) : w = F.e + F.m + 1 := by cases h <;> rfl

theorem FmtW.lt {F : Fmt} {w : Nat} (h : FmtW F w) : F.e + F.m < w := by rw [h.width]; omega

theorem Platform.absMask {F : Fmt} {n w : Nat} {K : FConst n} (h : Platform F n w K) {i : Nat}
    (hi : w * (i + 1) ≤ n) : lane w K.absMask i = BitVec.ofNat w (2 ^ (F.e + F.m) - 1) := by
  cases h <;> exact (lane_set1 _ hi).trans (by decide)

theorem Platform.signMask {F : Fmt} {n w : Nat} {K : FConst n} (h : Platform F n w K) {i : Nat}
    (hi : w * (i + 1) ≤ n) : lane w K.signMask i = BitVec.ofNat w (2 ^ (F.e + F.m)) := by
  cases h <;> exact (lane_set1 _ hi).trans (by decide)

theorem Platform.expMask {F : Fmt} {n w : Nat} {K : FConst n} (h : Platform F n w K) {i : Nat}
    (hi : w * (i + 1) ≤ n) : lane w K.expMask i = BitVec.ofNat w (infMag F) := by
  cases h <;> exact (lane_set1 _ hi).trans (by decide)

theorem Platform.one {F : Fmt} {n w : Nat} {K : FConst n} (h : Platform F n w K) {i : Nat}
    (hi : w * (i + 1) ≤ n) : lane w K.one i = BitVec.ofNat w (bias F * 2 ^ F.m) := by
  cases h <;> exact (lane_set1 _ hi).trans (by decide)

theorem pow_lt_width {F : Fmt} {w : Nat} (hw : w = F.e + F.m + 1) : 2 ^ (F.e + F.m) < 2 ^ w := by
  rw [hw]; exact Nat.pow_lt_pow_right (by decide) (by omega)

theorem toNat_ofNat_lt {w k : Nat} (h : k < 2 ^ w) : (BitVec.ofNat w k).toNat = k := by
  rw [BitVec.toNat_ofNat, Nat.mod_eq_of_lt h]

/-- Clearing the sign. -/
theorem sm_abs {F : Fmt} {w : Nat} (hw : w = F.e + F.m + 1) (x : BitVec w) :
    fneg F (x &&& BitVec.ofNat w (2 ^ (F.e + F.m) - 1)) = false ∧
    fmag F (x &&& BitVec.ofNat w (2 ^ (F.e + F.m) - 1)) = fmag F x := by
  have h := pow_lt_width hw
  unfold fneg fmag
  rw [BitVec.toNat_and, toNat_ofNat_lt (Nat.lt_of_le_of_lt (Nat.sub_le _ _) h), Nat.and_two_pow_sub_one_eq_mod]
  exact ⟨Nat.testBit_lt_two_pow (Nat.mod_lt _ (pow_pos2 _)), Nat.mod_mod _ _⟩

theorem toNat_abs {F : Fmt} {w : Nat} (hw : w = F.e + F.m + 1) (x : BitVec w) :
    (x &&& BitVec.ofNat w (2 ^ (F.e + F.m) - 1)).toNat = fmag F x := by
  have h := pow_lt_width hw
  unfold fmag
  rw [BitVec.toNat_and, toNat_ofNat_lt (Nat.lt_of_le_of_lt (Nat.sub_le _ _) h), Nat.and_two_pow_sub_one_eq_mod]

/-- Flipping the sign. -/
theorem sm_neg {F : Fmt} {w : Nat} (hw : w = F.e + F.m + 1) (x : BitVec w) :
    fneg F (x ^^^ BitVec.ofNat w (2 ^ (F.e + F.m))) = !fneg F x ∧
    fmag F (x ^^^ BitVec.ofNat w (2 ^ (F.e + F.m))) = fmag F x := by
  have h := pow_lt_width hw
  unfold fneg fmag
  rw [BitVec.toNat_xor, toNat_ofNat_lt h]
  constructor
  · rw [Nat.testBit_xor, Nat.testBit_two_pow_self, Bool.xor_true]
  · rw [Nat.xor_mod_two_pow, Nat.mod_self, Nat.xor_zero]

/-- The sign of one pattern with the magnitude of another. -/
theorem sm_copysign {F : Fmt} {w : Nat} (hw : w = F.e + F.m + 1) (m s : BitVec w) :
    fneg F ((s &&& BitVec.ofNat w (2 ^ (F.e + F.m))) ||| (m &&& BitVec.ofNat w (2 ^ (F.e + F.m) - 1))) = fneg F s ∧
    fmag F ((s &&& BitVec.ofNat w (2 ^ (F.e + F.m))) ||| (m &&& BitVec.ofNat w (2 ^ (F.e + F.m) - 1))) =
      fmag F m := by
  have h := pow_lt_width hw
  have ha := sm_abs hw m
  unfold fneg fmag at *
  rw [BitVec.toNat_or, Nat.testBit_or, Nat.or_mod_two_pow, ha.1, ha.2, BitVec.toNat_and, toNat_ofNat_lt h]
  constructor
  · rw [Nat.testBit_and, Nat.testBit_two_pow_self, Bool.and_true, Bool.or_false]
  · rw [Nat.and_mod_two_pow, Nat.mod_self, Nat.and_zero, Nat.zero_or]

/-- A pattern is determined by sign and magnitude. -/
theorem sm_ext {F : Fmt} {w : Nat} (hw : w = F.e + F.m + 1) {x y : BitVec w} (h1 : fneg F x = fneg F y)
    (h2 : fmag F x = fmag F y) : x = y := by
  apply BitVec.eq_of_toNat_eq
  apply Nat.eq_of_testBit_eq
  intro k
  rcases Nat.lt_trichotomy k (F.e + F.m) with hk | hk | hk
  · have := congrArg (fun z => z.testBit k) h2
    unfold fmag at this
    simpa [Nat.testBit_mod_two_pow, hk] using this
  · rw [hk]; exact h1
  · have hx : x.toNat < 2 ^ k := Nat.lt_of_lt_of_le x.isLt (Nat.pow_le_pow_right (by decide) (by omega))
    have hy : y.toNat < 2 ^ k := Nat.lt_of_lt_of_le y.isLt (Nat.pow_le_pow_right (by decide) (by omega))
    rw [Nat.testBit_lt_two_pow hx, Nat.testBit_lt_two_pow hy]

theorem fneg_msb {F : Fmt} {w : Nat} (hw : w = F.e + F.m + 1) (x : BitVec w) : fneg F x = x.msb := by
  unfold fneg
  rw [BitVec.msb_eq_getLsbD_last, ← BitVec.testBit_toNat]
  congr 1; omega

theorem fmag_lt (F : Fmt) {w : Nat} (x : BitVec w) : fmag F x < 2 ^ (F.e + F.m) := Nat.mod_lt _ (pow_pos2 _)

/-- `srai` of the masked sign bit by 31. -/
theorem srai_sign (x : BitVec 32) : (0x80000000#32 &&& x).sshiftRight 31 = laneMask x.msb := by
  apply BitVec.eq_of_getLsbD_eq
  intro j hj
  rw [BitVec.getLsbD_sshiftRight]
  have hm : (0x80000000#32 &&& x).msb = x.msb := by
    rw [BitVec.msb_and, show (0x80000000#32).msb = true from by decide, Bool.true_and]
  rw [hm]
  have h31 : 31 + j < 32 → (0x80000000#32 &&& x).getLsbD (31 + j) = x.msb := by
    intro h
    have : j = 0 := by omega
    subst this
    rw [BitVec.getLsbD_and, BitVec.msb_eq_getLsbD_last]
    rfl
  have hr : (laneMask x.msb : BitVec 32).getLsbD j = x.msb := by
    unfold laneMask
    cases x.msb
    · exact BitVec.getLsbD_zero
    · rw [if_pos rfl, BitVec.getLsbD_allOnes, decide_eq_true hj]
  rw [hr, decide_eq_false (show ¬ 32 ≤ j by omega), Bool.not_false, Bool.true_and]
  by_cases h : 31 + j < 32
  · rw [if_pos h, h31 h]
  · rw [if_neg h]

theorem isNaN_mk {F : Fmt} {w : Nat} (hw : F.e + F.m < w) (s : Bool) {k : Nat} (hk : k < 2 ^ (F.e + F.m)) :
    isNaN F (mkFloat F w s k) = decide (infMag F < k) := by
  unfold isNaN; rw [(fneg_mk F hw s hk).2]

theorem fval_zero_of_mag {F : Fmt} {w : Nat} {x : BitVec w} (h : fmag F x = 0) : fval F x = 0 := by
  unfold fval; rw [h, magVal_zero]; simp

theorem roundMag_zero (F : Fmt) (den : Nat) : roundMag F 0 den = 0 := by
  unfold roundMag rne
  simp

/-- `0 * x` is NaN exactly if `x` is not finite. -/
theorem isNaN_zero_mul {F : Fmt} {w : Nat} (h : FmtW F w) (x : BitVec w) :
    (isNaN F x || isNaN F (fMul F 0#w x)) = !isFinite F x := by
  have hz : fmag F (0#w) = 0 := by unfold fmag; simp
  have hz1 : isNaN F (0#w) = false := by unfold isNaN; rw [hz]; simp
  have hz2 : isInf F (0#w) = false := by
    unfold isInf; rw [hz]; cases h <;> decide
  have hz3 : fval F (0#w) = 0 := fval_zero_of_mag hz
  have hif : isFinite F x = (!isNaN F x && !isInf F x) := by
    unfold isFinite isNaN isInf
    by_cases h1 : fmag F x < infMag F
    · have h2 : ¬ infMag F < fmag F x := by omega
      have h3 : ¬ fmag F x = infMag F := by omega
      simp [h1, h2, h3]
    · by_cases h2 : infMag F < fmag F x
      · simp [h1, h2]
      · have h3 : fmag F x = infMag F := by omega
        simp [h3]
  unfold fMul
  simp only
  rw [hz1, hz2, hz3, hif]
  cases hx : isNaN F x
  · cases hi : isInf F x
    · simp only [Bool.false_eq_true, if_false, Bool.or_false, Int.natAbs_zero, Nat.zero_mul, roundMag_zero,
        Bool.false_or, Bool.not_false, Bool.and_true]
      rw [isNaN_mk h.lt _ (pow_pos2 _)]
      simp
    · simp only [Bool.false_eq_true, if_false, if_true, Bool.or_true, true_or, Bool.false_or]
      unfold defaultNaN
      rw [isNaN_mk h.lt _ (by cases h <;> decide)]
      cases h <;> decide
  · simp

end Vc.Lemma
