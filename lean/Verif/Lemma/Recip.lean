import Verif.Model.Recip
import Verif.Lemma.Sqrt
import Verif.Lemma.ArcSpecial
import Verif.Lemma.TrigSmall
import Verif.Lemma.Fma2

/-!
`1 / x` and `1 / sqrt(x)` of one number.
-/

namespace Vc.Lemma
open Vc.Model Vc.Spec

section
variable {F : Fmt} {w : Nat}

theorem one_facts (h : FmtW F w) : isNaN F (oneBits F w) = false ∧ isInf F (oneBits F w) = false ∧ isFinite F (oneBits F w) = true ∧
    fneg F (oneBits F w) = false ∧ fmag F (oneBits F w) ≠ 0 ∧ fval F (oneBits F w) = 2 ^ oneExp F := by
  cases h <;> decide +kernel

theorem one_rval (h : FmtW F w) : rval F (oneBits F w) = 1 := by
  unfold rval
  rw [(one_facts h).2.2.2.2.2]
  push_cast
  exact div_self (one_pos F).ne'

theorem recip_nan {x : BitVec w} (h : FmtW F w) (hx : isNaN F x = true) : isNaN F (sReciprocal F x) = true := by
  unfold sReciprocal fDiv
  simp only [(one_facts h).1, hx, Bool.false_eq_true, if_false, if_true]
  exact isNaN_quiet hx

theorem recip_zero {x : BitVec w} (h : FmtW F w) (hx : fmag F x = 0) :
    isInf F (sReciprocal F x) = true ∧ fneg F (sReciprocal F x) = fneg F x := by
  obtain ⟨o1, o2, o3, o4, o5, -⟩ := one_facts h
  have hI : 0 < infMag F := by cases h <;> decide
  have h1 : isInf F x = false := by unfold isInf; rw [hx]; exact decide_eq_false (by omega)
  have h2 : isNaN F x = false := by unfold isNaN; rw [hx]; exact decide_eq_false (by omega)
  unfold sReciprocal
  rw [fDiv_zero_right o5 o2 o1 hx h1 h2, o4]
  have := isInf_mk F h.lt (false != fneg F x)
  refine ⟨this.1, this.2.1.trans ?_⟩
  cases fneg F x <;> rfl

theorem recip_inf {x : BitVec w} (h : FmtW F w) (hx : isInf F x = true) :
    fmag F (sReciprocal F x) = 0 ∧ fneg F (sReciprocal F x) = fneg F x := by
  obtain ⟨o1, o2, o3, o4, o5, -⟩ := one_facts h
  unfold sReciprocal
  rw [fDiv_inf_right o2 o1 hx (isInf_not_nan hx).1, o4]
  have := fneg_mk F h.lt (false != fneg F x) (k := 0) (by positivity)
  refine ⟨this.2, this.1.trans ?_⟩
  cases fneg F x <;> rfl

theorem recip_sign {x : BitVec w} (h : FmtW F w) (hx : isFinite F x = true) (h0 : fval F x ≠ 0) :
    fneg F (sReciprocal F x) = fneg F x := by
  obtain ⟨o1, o2, o3, o4, o5, o6⟩ := one_facts h
  unfold sReciprocal
  rw [fDiv_fin o3 hx h0, o4]
  have hle : roundMag F ((fval F (oneBits F w)).natAbs * 2 ^ oneExp F) (fval F x).natAbs < 2 ^ (F.e + F.m) := by
    rw [roundMag_raw]; exact lt_of_le_of_lt (Nat.min_le_right _ _) (infMag_lt F)
  rw [(fneg_mk F h.lt _ hle).1]
  cases fneg F x <;> rfl

/-- No other number is closer to the quotient. -/
theorem recip_nearest {x : BitVec w} (h : FmtW F w) (hx : isFinite F x = true) (h0 : fval F x ≠ 0) :
    NearestTo F (signed (fneg F x) (2 ^ oneExp F * 2 ^ oneExp F)) (fval F x).natAbs (sReciprocal F x) := by
  obtain ⟨o1, o2, o3, o4, o5, o6⟩ := one_facts h
  unfold sReciprocal
  rw [fDiv_fin o3 hx h0, o4, o6]
  have := mk_nearest h (false != fneg F x) (((2 : Int) ^ oneExp F).natAbs * 2 ^ oneExp F) (den := (fval F x).natAbs) (by omega)
  rw [show ((2 : Int) ^ oneExp F).natAbs = 2 ^ oneExp F by rw [Int.natAbs_pow]; rfl] at this ⊢
  cases e : fneg F x <;> rw [e] at this <;> exact this

/-- The same for real numbers. -/
theorem recip_real {x y : BitVec w} (h : FmtW F w) (hx : isFinite F x = true) (h0 : rval F x ≠ 0) (hy : isNaN F y = false) :
    |rval F (sReciprocal F x) - 1 / rval F x| ≤ |rval F y - 1 / rval F x| := by
  have hv : fval F x ≠ 0 := rval_ne h0
  have hn := ((recip_nearest h hx hv).2 y hy).1
  have hp := one_pos F
  have hD : (0 : ℝ) < ((fval F x).natAbs : ℝ) := by
    have : 0 < (fval F x).natAbs := by omega
    exact_mod_cast this
  have e1 : (1 : ℝ) / rval F x = ((signed (fneg F x) (2 ^ oneExp F * 2 ^ oneExp F) : Int) : ℝ) / (fval F x).natAbs / 2 ^ oneExp F := by
    have hs : ((signed (fneg F x) (2 ^ oneExp F * 2 ^ oneExp F) : Int) : ℝ) * (fval F x : ℝ) = 2 ^ oneExp F * 2 ^ oneExp F * ((fval F x).natAbs : ℝ) := by
      have hz : signed (fneg F x) (2 ^ oneExp F * 2 ^ oneExp F) * fval F x = 2 ^ oneExp F * 2 ^ oneExp F * ((fval F x).natAbs : Int) := by
        unfold signed
        unfold fval
        cases fneg F x <;> simp
      have := congrArg (Int.cast (R := ℝ)) hz
      rw [Int.cast_mul, Int.cast_mul, Int.cast_natCast] at this
      rw [this]; push_cast; rfl
    have hvr : (fval F x : ℝ) ≠ 0 := by exact_mod_cast hv
    unfold rval
    rw [div_div, div_eq_div_iff (by positivity) (by positivity)]
    field_simp
    linarith
  have key : ∀ z : BitVec w, |rval F z - 1 / rval F x| = (((fval F z * ((fval F x).natAbs : Int) - signed (fneg F x) (2 ^ oneExp F * 2 ^ oneExp F)).natAbs : Nat) : ℝ) / (fval F x).natAbs / 2 ^ oneExp F := by
    intro z
    rw [e1]
    have hq : rval F z - ((signed (fneg F x) (2 ^ oneExp F * 2 ^ oneExp F) : Int) : ℝ) / (fval F x).natAbs / 2 ^ oneExp F =
        ((fval F z * ((fval F x).natAbs : Int) - signed (fneg F x) (2 ^ oneExp F * 2 ^ oneExp F) : Int) : ℝ) / (fval F x).natAbs / 2 ^ oneExp F := by
      unfold rval
      rw [Int.cast_sub, Int.cast_mul, Int.cast_natCast]
      field_simp
    rw [hq, abs_div, abs_div, abs_of_pos hp, abs_of_pos hD, ← Int.cast_abs, Int.abs_eq_natAbs, Int.cast_natCast]
  rw [key, key]
  have : (((fval F (sReciprocal F x) * ((fval F x).natAbs : Int) - signed (fneg F x) (2 ^ oneExp F * 2 ^ oneExp F)).natAbs : Nat) : ℝ) ≤
      (((fval F y * ((fval F x).natAbs : Int) - signed (fneg F x) (2 ^ oneExp F * 2 ^ oneExp F)).natAbs : Nat) : ℝ) := by exact_mod_cast hn
  exact div_le_div_of_nonneg_right (div_le_div_of_nonneg_right this hD.le) hp.le

theorem fSqrt_nan {x : BitVec w} (hx : isNaN F x = true) : isNaN F (fSqrt F x) = true := by
  unfold fSqrt; simp only [hx, if_true]; exact isNaN_quiet hx

theorem fSqrt_neg {x : BitVec w} (h : FmtW F w) (hs : fneg F x = true) (h0 : fmag F x ≠ 0) : isNaN F (fSqrt F x) = true := by
  have v : fval F x ≠ 0 := fun c => h0 ((fval_eq_zero x).mp c)
  cases e : isNaN F x with
  | true => exact fSqrt_nan e
  | false =>
    unfold fSqrt
    simp only [e, hs, v, Bool.false_eq_true, if_false, if_true]
    exact isNaN_default h

theorem fSqrt_zero {x : BitVec w} (h : FmtW F w) (h0 : fmag F x = 0) : fSqrt F x = x := by
  have hI : 0 < infMag F := by cases h <;> decide
  have h2 : isNaN F x = false := by unfold isNaN; rw [h0]; exact decide_eq_false (by omega)
  unfold fSqrt
  simp only [h2, (fval_eq_zero x).mpr h0, Bool.false_eq_true, if_false, if_true]

theorem fSqrt_inf {x : BitVec w} (hx : isInf F x = true) (hs : fneg F x = false) : fSqrt F x = x := by
  unfold fSqrt
  simp only [(isInf_not_nan hx).1, hs, hx, Bool.false_eq_true, if_false, if_true]
  split <;> rfl

/-- Finite numbers are not too large. -/
theorem finite_lt (h : FmtW F w) {x : BitVec w} (hx : isFinite F x = true) : rval F x < 2 ^ (2 ^ (F.e - 1) : Nat) := by
  have hm : fmag F x < infMag F := by unfold isFinite at hx; exact of_decide_eq_true hx
  have hI : magVal F (infMag F) = 2 ^ (2 ^ (F.e - 1)) * 2 ^ oneExp F := by cases h <;> decide +kernel
  have h1 := magVal_lt F hm
  rw [hI] at h1
  have h2 : fval F x ≤ (magVal F (fmag F x) : Int) := by unfold fval; split <;> omega
  unfold rval
  rw [div_lt_iff₀ (one_pos F)]
  have h3 : fval F x < ((2 ^ (2 ^ (F.e - 1)) * 2 ^ oneExp F : Nat) : Int) := by omega
  have h4 : (fval F x : ℝ) < (((2 ^ (2 ^ (F.e - 1)) * 2 ^ oneExp F : Nat) : Int) : ℝ) := by exact_mod_cast h3
  refine lt_of_lt_of_eq h4 ?_
  push_cast; ring

theorem pos_ge {x : BitVec w} (h0 : 0 < rval F x) : 1 / 2 ^ oneExp F ≤ rval F x := by
  have hp := one_pos F
  unfold rval at *
  rw [lt_div_iff₀ hp, zero_mul] at h0
  have : (0 : Int) < fval F x := by exact_mod_cast h0
  have : (1 : Int) ≤ fval F x := this
  have : (1 : ℝ) ≤ fval F x := by exact_mod_cast this
  exact div_le_div_of_nonneg_right this hp.le

/-- Two roundings. -/
theorem rsqrt_rel (h : FmtW F w) {x : BitVec w} (hx : isFinite F x = true) (h0 : 0 < rval F x) :
    isFinite F (sRsqrt F x) = true ∧
    |rval F (sRsqrt F x) - 1 / Real.sqrt (rval F x)| ≤ 2.001 * uRel F * |1 / Real.sqrt (rval F x)| := by
  have hS0 : 0 < Real.sqrt (rval F x) := Real.sqrt_pos.mpr h0
  have hSu : Real.sqrt (rval F x) ≤ 2 ^ (2 ^ (F.e - 2) : Nat) := by
    rw [Real.sqrt_le_left (by positivity), ← pow_mul]
    refine le_trans (finite_lt h hx).le (le_of_eq ?_)
    congr 1; cases h <;> decide
  have hSl : (2 : ℝ) ^ (-((oneExp F : Int) / 2 + 1)) ≤ Real.sqrt (rval F x) := by
    apply Real.le_sqrt_of_sq_le
    refine le_trans ?_ (pos_ge h0)
    rw [← zpow_natCast, ← zpow_mul, one_div, ← zpow_natCast, ← zpow_neg]
    refine zpow_le_zpow_right₀ (by norm_num) ?_
    push_cast; omega
  obtain ⟨fs, es⟩ := fSqrt_rel h (k := ((2 ^ (F.e - 2) : Nat) : Int) + 1) (by cases h <;> decide) hx h0 (by
    rw [add_sub_cancel_right, zpow_natCast]; exact hSu)
  have hu : uRel F ≤ 1 / 2 ^ 24 := by
    unfold uRel
    rw [show (1 : ℝ) / 2 ^ 24 = 2 ^ (-24 : Int) by norm_num]
    refine zpow_le_zpow_right₀ (by norm_num) ?_
    cases h <;> decide
  have u0 := uRel_pos F
  have hA : uAbs F ≤ uRel F * (1 / 2 ^ 20) * (1 / Real.sqrt (rval F x)) := by
    have : (2 : ℝ) ^ (-((2 ^ (F.e - 2) : Nat) : Int)) ≤ 1 / Real.sqrt (rval F x) := by
      rw [zpow_neg, ← one_div, zpow_natCast]
      exact one_div_le_one_div_of_le hS0 hSu
    refine le_trans ?_ (mul_le_mul_of_nonneg_left this (by positivity))
    unfold uAbs uRel
    rw [show (1 : ℝ) / 2 ^ 20 = 2 ^ (-20 : Int) by norm_num, ← zpow_add₀ (by norm_num), ← zpow_add₀ (by norm_num)]
    refine zpow_le_zpow_right₀ (by norm_num) ?_
    cases h <;> decide
  have eS : sRsqrt F x = fDiv F (oneBits F w) (fSqrt F x) := rfl
  rw [eS]
  generalize Real.sqrt (rval F x) = S at *
  obtain ⟨e1, e2⟩ := abs_le.mp es
  have hsl : S * (1 - 1 / 2 ^ 23) ≤ rval F (fSqrt F x) := by
    have : uRel F * (1 + 1 / 2 ^ 40) * S ≤ 1 / 2 ^ 24 * (1 + 1 / 2 ^ 40) * S := by gcongr
    norm_num at this ⊢; linarith
  have hs0 : 0 < rval F (fSqrt F x) := lt_of_lt_of_le (by norm_num; linarith) hsl
  have hq : 1 / rval F (fSqrt F x) ≤ 1 / S * (1 + 1 / 2 ^ 22) := by
    rw [div_mul_eq_mul_div, div_le_div_iff₀ hs0 hS0]
    nlinarith
  obtain ⟨fd, ed⟩ := fDiv_rel h (k := (oneExp F : Int) / 2 + 2) (by cases h <;> decide) (one_facts h).2.2.1 fs hs0.ne' (by
    rw [one_rval h, abs_of_pos (by positivity)]
    refine le_trans hq ?_
    have : 1 / S ≤ 2 ^ ((oneExp F : Int) / 2 + 1) := by
      rw [zpow_neg] at hSl
      rw [div_le_iff₀ hS0, ← div_le_iff₀' (by positivity), one_div]; exact hSl
    rw [show (oneExp F : Int) / 2 + 2 = ((oneExp F : Int) / 2 + 1) + 1 by ring, zpow_add₀ (by norm_num), zpow_one]
    have hp : (0 : ℝ) < 2 ^ ((oneExp F : Int) / 2 + 1) := by positivity
    have h1S : (0 : ℝ) < 1 / S := by positivity
    nlinarith)
  refine ⟨fd, ?_⟩
  unfold RelErr at ed
  rw [one_rval h, if_neg (by positivity)] at ed
  generalize rval F (fDiv F (oneBits F w) (fSqrt F x)) = r at *
  generalize rval F (fSqrt F x) = s at *
  have hd : |1 / s - 1 / S| ≤ uRel F * (1 + 1 / 2 ^ 40) * (1 / s) := by
    have : 1 / s - 1 / S = (S - s) * (1 / s) * (1 / S) := by field_simp
    rw [this, abs_mul, abs_mul, abs_sub_comm, abs_of_pos (show (0 : ℝ) < 1 / s by positivity), abs_of_pos (show (0 : ℝ) < 1 / S by positivity)]
    calc |s - S| * (1 / s) * (1 / S) ≤ (uRel F * (1 + 1 / 2 ^ 40) * S) * (1 / s) * (1 / S) := by gcongr
      _ = uRel F * (1 + 1 / 2 ^ 40) * (1 / s) := by field_simp
  have ht := abs_sub_le r (1 / s) (1 / S)
  rw [abs_of_pos (show (0 : ℝ) < 1 / s by positivity)] at ed
  rw [abs_of_pos (show (0 : ℝ) < 1 / S by positivity)]
  have g1 : uRel F * (1 / s) ≤ uRel F * (1 / S * (1 + 1 / 2 ^ 22)) := mul_le_mul_of_nonneg_left hq u0.le
  have hU : 0 < uRel F * (1 / S) := by positivity
  have e3 : uRel F * (1 + 1 / 2 ^ 40) * (1 / s) = uRel F * (1 / s) * (1 + 1 / 2 ^ 40) := by ring
  have e4 : uRel F * (1 / S * (1 + 1 / 2 ^ 22)) = uRel F * (1 / S) * (1 + 1 / 2 ^ 22) := by ring
  have e5 : uRel F * (1 / 2 ^ 20) * (1 / S) = uRel F * (1 / S) * (1 / 2 ^ 20) := by ring
  have e6 : 2.001 * uRel F * (1 / S) = uRel F * (1 / S) * 2.001 := by ring
  rw [e3] at hd
  rw [e4] at g1
  rw [e5] at hA
  rw [e6]
  generalize uRel F * (1 / S) = U at *
  generalize uRel F * (1 / s) = V at *
  norm_num at *
  linarith

end
end Vc.Lemma
