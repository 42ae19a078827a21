import Verif.Model.Asin
import Verif.Lemma.RelApx
import Verif.Lemma.FloatRound3
import Mathlib.Analysis.Real.Sqrt

/-!
The square root is correctly rounded.
-/

namespace Vc.Lemma
open Vc.Model Vc.Spec

/-- The number that is rounded, in halves. -/
def sqrtNum (n : Nat) : Nat := 2 * Nat.sqrt n + if Nat.sqrt n * Nat.sqrt n = n then 0 else 1

theorem sqrtNum_real (n : Nat) : |(sqrtNum n : ℝ) / 2 - Real.sqrt n| ≤ 1 / 2 := by
  have h1 := Real.nat_sqrt_le_real_sqrt (a := n)
  have h2 := Real.real_sqrt_lt_nat_sqrt_succ (a := n)
  unfold sqrtNum
  split
  · rename_i h
    push_cast
    have : Real.sqrt n = Nat.sqrt n := by
      conv_lhs => rw [← h]
      push_cast
      exact Real.sqrt_mul_self (by positivity)
    rw [this]; norm_num
  · push_cast
    rw [abs_le]; constructor <;> linarith

section
variable {F : Fmt} {w : Nat} {a : BitVec w}

theorem fSqrt_fin (ha : isFinite F a = true) (h0 : 0 < rval F a) :
    fSqrt F a = mkFloat F w false (roundMag F (sqrtNum ((fval F a).natAbs * 2 ^ oneExp F)) 2) ∧
    0 < (fval F a).natAbs ∧ rval F a = ((fval F a).natAbs : ℝ) / 2 ^ oneExp F := by
  have hp := one_pos F
  have hv : 0 < fval F a := by
    unfold rval at h0
    rw [lt_div_iff₀ hp, zero_mul] at h0
    exact_mod_cast h0
  have hs : fneg F a = false := by
    cases e : fneg F a with
    | false => rfl
    | true => unfold fval at hv; rw [if_pos e] at hv; omega
  refine ⟨?_, by omega, ?_⟩
  · unfold fSqrt
    rw [(isFinite_not ha).1, if_neg (by decide), if_neg (by omega), hs, if_neg (by decide), (isFinite_not ha).2, if_neg (by decide)]
    rfl
  · unfold rval
    rw [← Int.cast_natCast, Int.natCast_natAbs, abs_of_pos hv]

theorem sqrt_units {v : ℝ} (hv : 0 ≤ v) : Real.sqrt (v / 2 ^ oneExp F) = Real.sqrt (v * 2 ^ oneExp F) / 2 ^ oneExp F := by
  have hp := one_pos F
  rw [show v / 2 ^ oneExp F = v * 2 ^ oneExp F / (2 ^ oneExp F) ^ 2 by field_simp]
  rw [Real.sqrt_div (by positivity), Real.sqrt_sq hp.le]

/-- The relative error. -/
theorem fSqrt_rel (h : FmtW F w) {k : Int} (hk : KRange F k) (ha : isFinite F a = true) (h0 : 0 < rval F a)
    (hv : Real.sqrt (rval F a) ≤ 2 ^ (k - 1)) :
    isFinite F (fSqrt F a) = true ∧
    |rval F (fSqrt F a) - Real.sqrt (rval F a)| ≤ uRel F * (1 + 1 / 2 ^ 40) * Real.sqrt (rval F a) := by
  obtain ⟨e, hp, er⟩ := fSqrt_fin ha h0
  have hone := one_pos F
  have es : Real.sqrt (rval F a) = Real.sqrt (((fval F a).natAbs * 2 ^ oneExp F : Nat) : ℝ) / 2 ^ oneExp F := by
    rw [er, sqrt_units (by positivity)]; push_cast; rfl
  rw [e, es]
  rw [es] at hv
  clear es er h0 e
  have hn : 2 ^ oneExp F ≤ (fval F a).natAbs * 2 ^ oneExp F := Nat.le_mul_of_pos_left _ hp
  generalize (fval F a).natAbs * 2 ^ oneExp F = n at *
  have hq := sqrtNum_real n
  have hlow : (2 : ℝ) ^ (oneExp F / 2) ≤ Real.sqrt n := by
    apply Real.le_sqrt_of_sq_le
    have : ((2 ^ oneExp F : Nat) : ℝ) ≤ n := by exact_mod_cast hn
    push_cast at this
    refine le_trans ?_ this
    rw [← pow_mul]
    exact pow_le_pow_right₀ (by norm_num) (by omega)
  have h1 : (1 : ℝ) ≤ Real.sqrt n := le_trans (one_le_pow₀ (by norm_num)) hlow
  generalize Real.sqrt n = S at *
  obtain ⟨q1, q2⟩ := abs_le.mp hq
  have hk2 : (2 : ℝ) ^ k = 2 ^ (k - 1) * 2 := by
    rw [zpow_sub₀ (by norm_num), zpow_one]; ring
  have hv' := (div_le_iff₀ hone).mp hv
  obtain ⟨f1, f2⟩ := mk_rel h false (sqrtNum n) (den := 2) (by decide) hk (by
    rw [div_le_iff₀ hone, hk2]; push_cast; linarith)
  refine ⟨f1, ?_⟩
  unfold RelErr at f2
  have f3 : |rval F (mkFloat F w false (roundMag F (sqrtNum n) 2)) - (sqrtNum n : ℝ) / 2 / 2 ^ oneExp F| ≤
      uRel F * ((sqrtNum n : ℝ) / 2 / 2 ^ oneExp F) + uAbs F := by
    have hnn : (0 : ℝ) ≤ (sqrtNum n : ℝ) / 2 / 2 ^ oneExp F := by positivity
    simp only [Bool.false_eq_true, if_false, one_mul, Nat.cast_ofNat] at f2
    rw [abs_of_nonneg hnn] at f2
    refine le_trans f2 ?_
    have := uAbs_pos F
    split <;> linarith
  have u0 := uRel_pos F
  have ha : uAbs F = 1 / 2 / 2 ^ oneExp F := by
    unfold uAbs
    rw [neg_add, zpow_add₀ (by norm_num), zpow_neg, zpow_natCast]
    field_simp
  have hsmall : (1 : ℝ) ≤ uRel F * (1 / 2 ^ 41) * S := by
    have : (1 : ℝ) ≤ uRel F * (1 / 2 ^ 41) * 2 ^ (oneExp F / 2) := by
      unfold uRel
      rw [show (1 : ℝ) / 2 ^ 41 = 2 ^ (-41 : Int) by norm_num, ← zpow_natCast, ← zpow_add₀ (by norm_num), ← zpow_add₀ (by norm_num),
        ← zpow_zero (2 : ℝ)]
      refine zpow_le_zpow_right₀ (by norm_num) ?_
      cases h <;> decide
    exact le_trans this (mul_le_mul_of_nonneg_left hlow (by positivity))
  have hu1 : uRel F ≤ 1 := by
    unfold uRel
    exact zpow_le_one_of_nonpos₀ (by norm_num) (by omega)
  rw [ha] at f3
  have hd : |(sqrtNum n : ℝ) / 2 / 2 ^ oneExp F - S / 2 ^ oneExp F| ≤ 1 / 2 / 2 ^ oneExp F := by
    rw [← sub_div, abs_div, abs_of_pos hone]
    exact div_le_div_of_nonneg_right hq hone.le
  have hd2 : uRel F * ((sqrtNum n : ℝ) / 2 / 2 ^ oneExp F) ≤ uRel F * (S / 2 ^ oneExp F) + 1 / 2 / 2 ^ oneExp F := by
    have h1 : (sqrtNum n : ℝ) / 2 / 2 ^ oneExp F ≤ S / 2 ^ oneExp F + 1 / 2 / 2 ^ oneExp F := by
      rw [← add_div]; exact div_le_div_of_nonneg_right (by linarith) hone.le
    have h2 : uRel F * (1 / 2 / 2 ^ oneExp F) ≤ 1 * (1 / 2 / 2 ^ oneExp F) := mul_le_mul_of_nonneg_right hu1 (by positivity)
    have := mul_le_mul_of_nonneg_left h1 u0.le
    linarith
  have h4 := abs_sub_le (rval F (mkFloat F w false (roundMag F (sqrtNum n) 2))) ((sqrtNum n : ℝ) / 2 / 2 ^ oneExp F) (S / 2 ^ oneExp F)
  have h5 : 3 * (1 / 2 / 2 ^ oneExp F) ≤ uRel F * (1 / 2 ^ 40) * (S / 2 ^ oneExp F) := by
    rw [show 3 * (1 / 2 / 2 ^ oneExp F) = (3 / 2 : ℝ) / 2 ^ oneExp F by ring, ← mul_div_assoc]
    refine div_le_div_of_nonneg_right ?_ hone.le
    have : uRel F * (1 / 2 ^ 40) * S = 2 * (uRel F * (1 / 2 ^ 41) * S) := by ring
    linarith
  have e3 : uRel F * (1 + 1 / 2 ^ 40) * (S / 2 ^ oneExp F) = uRel F * (S / 2 ^ oneExp F) + uRel F * (1 / 2 ^ 40) * (S / 2 ^ oneExp F) := by ring
  linarith

theorem fval_parity (F : Fmt) {w : Nat} (x : BitVec w) : 2 ∣ fval F x ∨ |fval F x| < 2 ^ (F.m + 1) := by
  obtain ⟨r, j, e, hr, -⟩ := magVal_split F (fmag F x)
  have hab : |fval F x| = (magVal F (fmag F x) : Int) := by
    unfold fval; split
    · rw [abs_neg, abs_of_nonneg (by omega)]
    · rw [abs_of_nonneg (by omega)]
  rcases Nat.eq_zero_or_pos j with h0 | h0
  · right
    rw [hab, e, h0, pow_zero, mul_one]
    exact_mod_cast hr
  · left
    rw [← dvd_abs, hab, e]
    obtain ⟨i, rfl⟩ : ∃ i, j = i + 1 := ⟨j - 1, by omega⟩
    exact ⟨(r * 2 ^ i : Nat), by push_cast; ring⟩

/-- No other finite number is closer to the root. -/
theorem fSqrt_nearest (h : FmtW F w) (ha : isFinite F a = true) (h0 : 0 < rval F a) {y : BitVec w} (hy : isFinite F y = true) :
    |rval F (fSqrt F a) - Real.sqrt (rval F a)| ≤ |rval F y - Real.sqrt (rval F a)| := by
  obtain ⟨e, hp, er⟩ := fSqrt_fin ha h0
  have hone := one_pos F
  have es : Real.sqrt (rval F a) = Real.sqrt (((fval F a).natAbs * 2 ^ oneExp F : Nat) : ℝ) / 2 ^ oneExp F := by
    rw [er, sqrt_units (by positivity)]; push_cast; rfl
  rw [e, es]
  clear es er h0 e
  have hn : 2 ^ oneExp F ≤ (fval F a).natAbs * 2 ^ oneExp F := Nat.le_mul_of_pos_left _ hp
  generalize (fval F a).natAbs * 2 ^ oneExp F = n at *
  have hnear := mk_nearest h false (sqrtNum n) (den := 2) (by decide)
  have hsig : signed false (sqrtNum n) = (sqrtNum n : Int) := rfl
  rw [hsig] at hnear
  have hy1 := (hnear.2 y (isFinite_not hy).1).1
  obtain ⟨c, hc, hcv⟩ : ∃ c : BitVec w, isFinite F c = true ∧ rval F c = 2 ^ ((F.m : Int) + 1 - oneExp F) := by
    refine repr_pattern h ⟨1, (F.m : Int) + 1 - oneExp F, by norm_num, ?_, ?_, ?_⟩ <;> cases h <;> decide +kernel
  have hcv' : fval F c = 2 ^ (F.m + 1) := by
    unfold rval at hcv
    rw [div_eq_iff hone.ne', ← zpow_natCast (2 : ℝ) (oneExp F), ← zpow_add₀ (by norm_num)] at hcv
    rw [show (F.m : Int) + 1 - oneExp F + (oneExp F : Int) = ((F.m + 1 : Nat) : Int) by push_cast; ring, zpow_natCast] at hcv
    exact_mod_cast hcv
  have hc1 := (hnear.2 c (isFinite_not hc).1).1
  have hslow : 2 ^ (F.m + 1) < Nat.sqrt n := by
    have h1 : 2 ^ (oneExp F / 2) ≤ Nat.sqrt n := by
      rw [Nat.le_sqrt, ← pow_add]
      exact le_trans (Nat.pow_le_pow_right (by decide) (by omega)) hn
    refine lt_of_lt_of_le (Nat.pow_lt_pow_right (by decide) ?_) h1
    cases h <;> decide
  rw [hcv'] at hc1
  have p1 := fval_parity F y
  have p2 := fval_parity F (mkFloat F w false (roundMag F (sqrtNum n) 2))
  have r1 := Real.nat_sqrt_le_real_sqrt (a := n)
  have r2 := Real.real_sqrt_lt_nat_sqrt_succ (a := n)
  unfold rval
  rw [← sub_div, ← sub_div, abs_div, abs_div]
  refine div_le_div_of_nonneg_right ?_ (abs_nonneg _)
  clear hnear hy hc hcv
  generalize fval F (mkFloat F w false (roundMag F (sqrtNum n) 2)) = R at *
  generalize fval F y = Y at *
  unfold sqrtNum at hy1 hc1
  generalize hs : Nat.sqrt n = s at *
  generalize hP : (2 : Int) ^ (F.m + 1) = P at *
  have hsP : P < s := by rw [← hP]; exact_mod_cast hslow
  have hP0 : 0 < P := by rw [← hP]; positivity
  by_cases hsq : s * s = n
  · have hr : Real.sqrt n = s := by
      rw [← hsq]; push_cast; exact Real.sqrt_mul_self (by positivity)
    rw [hr]
    rw [if_pos hsq] at hy1
    have : |R - (s : Int)| ≤ |Y - (s : Int)| := by rw [Int.abs_eq_natAbs, Int.abs_eq_natAbs]; omega
    exact_mod_cast this
  · rw [if_neg hsq] at hy1 hc1
    have goal : (R ≤ s ∧ Y ≤ R) ∨ (R ≤ s ∧ s + 1 ≤ Y ∧ 2 * s + 2 ≤ R + Y) ∨ ((s : Int) + 1 ≤ R ∧ R ≤ Y) ∨
        ((s : Int) + 1 ≤ R ∧ Y ≤ s ∧ R + Y ≤ 2 * s) := by
      rw [abs_lt] at p1 p2
      clear r1 r2 hslow hn hP hcv' hsig
      omega
    rcases goal with ⟨g1, g2⟩ | ⟨g1, g2, g3⟩ | ⟨g1, g2⟩ | ⟨g1, g2, g3⟩
    · have g1' : (R : ℝ) ≤ s := by exact_mod_cast g1
      have g2' : (Y : ℝ) ≤ R := by exact_mod_cast g2
      rw [abs_of_nonpos (by linarith), abs_of_nonpos (by linarith)]; linarith
    · have g1' : (R : ℝ) ≤ s := by exact_mod_cast g1
      have g2' : (s : ℝ) + 1 ≤ Y := by exact_mod_cast g2
      have g3' : 2 * (s : ℝ) + 2 ≤ R + Y := by exact_mod_cast g3
      rw [abs_of_nonpos (by linarith), abs_of_nonneg (by linarith)]; linarith
    · have g1' : (s : ℝ) + 1 ≤ R := by exact_mod_cast g1
      have g2' : (R : ℝ) ≤ Y := by exact_mod_cast g2
      rw [abs_of_nonneg (by linarith), abs_of_nonneg (by linarith)]; linarith
    · have g1' : (s : ℝ) + 1 ≤ R := by exact_mod_cast g1
      have g2' : (Y : ℝ) ≤ s := by exact_mod_cast g2
      have g3' : (R : ℝ) + Y ≤ 2 * s := by exact_mod_cast g3
      rw [abs_of_nonneg (by linarith), abs_of_nonpos (by linarith)]; linarith
end

end Vc.Lemma
