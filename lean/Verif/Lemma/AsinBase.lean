import Verif.Lemma.AsinReal
import Verif.Lemma.AtanBase
import Verif.Lemma.Sqrt

/-!
Common parts of the precision of `asin`.
-/

namespace Vc.Lemma
open Vc.Model Vc.Spec

/-- Reduction of arguments near one. -/
theorem arcsin_half {a : ℝ} (h0 : 0 ≤ a) (h1 : a ≤ 1) : Real.arcsin a = Real.pi / 2 - 2 * Real.arcsin (Real.sqrt ((1 - a) / 2)) := by
  have hz0 : 0 ≤ (1 - a) / 2 := by linarith
  have hs0 := Real.sqrt_nonneg ((1 - a) / 2)
  have hs1 : Real.sqrt ((1 - a) / 2) ^ 2 ≤ 1 / 2 := by rw [Real.sq_sqrt hz0]; linarith
  have hs2 : Real.sqrt ((1 - a) / 2) ≤ 1 := by nlinarith
  have h4 : Real.arcsin (Real.sqrt ((1 - a) / 2)) ≤ Real.pi / 4 := by
    have e : Real.sin (Real.pi / 4) = Real.sqrt 2 / 2 := Real.sin_pi_div_four
    have := Real.pi_pos
    rw [Real.arcsin_le_iff_le_sin ⟨by linarith, hs2⟩ ⟨by linarith, by linarith⟩, e]
    apply Real.sqrt_le_iff.mpr
    constructor
    · positivity
    · rw [div_pow, Real.sq_sqrt (by norm_num)]; linarith
  have h5 : 0 ≤ Real.arcsin (Real.sqrt ((1 - a) / 2)) := Real.arcsin_nonneg.mpr hs0
  refine Real.arcsin_eq_of_sin_eq ?_ ⟨by linarith [Real.pi_pos], by linarith⟩
  rw [Real.sin_pi_div_two_sub, Real.cos_two_mul', Real.sin_arcsin (by linarith) hs2, Real.cos_sq', Real.sin_arcsin (by linarith) hs2,
    Real.sq_sqrt hz0]
  ring

theorem le_arcsin {t : ℝ} (h0 : 0 ≤ t) (h1 : t ≤ 1) : t ≤ Real.arcsin t := by
  have h := Real.sin_le (Real.arcsin_nonneg.mpr h0)
  rwa [Real.sin_arcsin (by linarith) h1] at h

/-- A polynomial in `t²` compared with the series. -/
theorem asin_apx {A : List ℚ} {n : Nat} {lo hi c ε T K : ℚ} {t : ℝ} (hc : chebBound lo hi (pAdd A (pScale (-1) (asinTaylor 0 (n + 1)))) ≤ c)
    (hlh : lo < hi) (h1 : (lo : ℝ) ≤ t * t) (h2 : t * t ≤ (hi : ℝ)) (hT : T < 1) (hK : 1 ≤ K ^ 2 * (1 - T ^ 2)) (hK0 : 0 ≤ K)
    (hε : K * asinC (n + 1) * T ^ (2 * n + 2) ≤ ε) (h0 : 0 ≤ t) (htT : t ≤ T) :
    |t * pEval A (t * t) - Real.arcsin t| ≤ (c + ε) * Real.arcsin t := by
  have hT' : (T : ℝ) < 1 := by exact_mod_cast hT
  have hb := asinSum_bound (n := n) hT' (K := K) (by exact_mod_cast hK) (by exact_mod_cast hK0) h0 htT
  have hd : |pEval (pAdd A (pScale (-1) (asinTaylor 0 (n + 1)))) (t * t)| ≤ c := le_trans (cheb_bound hlh h1 h2) (Rat.cast_le.mpr hc)
  rw [pEval_add, pEval_scale] at hd
  have ha := le_arcsin h0 (by linarith)
  have hA := Real.arcsin_nonneg.mpr h0
  have hε' : (K : ℝ) * asinC (n + 1) * T ^ (2 * n + 2) ≤ ε := by exact_mod_cast hε
  rw [← asinTaylor_sum] at hb
  have e : t * pEval A (t * t) - Real.arcsin t = t * (pEval A (t * t) + ((-1 : ℚ) : ℝ) * pEval (asinTaylor 0 (n + 1)) (t * t)) +
      (t * pEval (asinTaylor 0 (n + 1)) (t * t) - Real.arcsin t) := by push_cast; ring
  rw [e]
  have hc0 := le_trans (abs_nonneg _) hd
  refine le_trans (abs_add_le _ _) ?_
  rw [abs_mul, abs_of_nonneg h0, abs_of_nonpos (show t * pEval (asinTaylor 0 (n + 1)) (t * t) - Real.arcsin t ≤ 0 by linarith [hb.1])]
  have h3 := mul_le_mul ha hd (abs_nonneg _) hA
  have h4 := mul_le_mul_of_nonneg_right hε' hA
  linarith [hb.2]

/-- A quotient of polynomials in `t²` compared with the series. -/
theorem asin_apxQ {P Q : List ℚ} {n : Nat} {lo hi c q0 ε T K : ℚ} {t : ℝ}
    (hc : chebBound lo hi (pAdd (pAdd Q P) (pScale (-1) (pMul Q (asinTaylor 0 (n + 1))))) ≤ c)
    (hlh : lo < hi) (h1 : (lo : ℝ) ≤ t * t) (h2 : t * t ≤ (hi : ℝ)) (hq : (q0 : ℝ) ≤ |pEval Q (t * t)|) (hq0 : 0 < q0)
    (hT : T < 1) (hK : 1 ≤ K ^ 2 * (1 - T ^ 2)) (hK0 : 0 ≤ K)
    (hε : K * asinC (n + 1) * T ^ (2 * n + 2) ≤ ε) (h0 : 0 ≤ t) (htT : t ≤ T) :
    |t * (1 + pEval P (t * t) / pEval Q (t * t)) - Real.arcsin t| ≤ (c / q0 + ε) * Real.arcsin t := by
  have hT' : (T : ℝ) < 1 := by exact_mod_cast hT
  have hb := asinSum_bound (n := n) hT' (K := K) (by exact_mod_cast hK) (by exact_mod_cast hK0) h0 htT
  have hd := le_trans (cheb_bound hlh h1 h2) (Rat.cast_le.mpr hc)
  rw [pEval_add, pEval_add, pEval_scale, pEval_mul] at hd
  have ha := le_arcsin h0 (by linarith)
  have hA := Real.arcsin_nonneg.mpr h0
  have hq0' : (0 : ℝ) < q0 := by exact_mod_cast hq0
  have hε' : (K : ℝ) * asinC (n + 1) * T ^ (2 * n + 2) ≤ ε := by exact_mod_cast hε
  have hQ : pEval Q (t * t) ≠ 0 := abs_pos.mp (lt_of_lt_of_le hq0' hq)
  rw [← asinTaylor_sum] at hb
  generalize pEval (asinTaylor 0 (n + 1)) (t * t) = S at *
  generalize pEval Q (t * t) = X at *
  generalize pEval P (t * t) = Y at *
  have e : t * (1 + Y / X) - Real.arcsin t = t * ((X + Y + ((-1 : ℚ) : ℝ) * (X * S)) / X) + (t * S - Real.arcsin t) := by
    push_cast; field_simp; ring
  have hc0 := le_trans (abs_nonneg _) hd
  have h6 : |(X + Y + ((-1 : ℚ) : ℝ) * (X * S)) / X| ≤ c / q0 := by
    rw [abs_div]
    exact div_le_div₀ hc0 hd hq0' hq
  rw [e]
  refine le_trans (abs_add_le _ _) ?_
  rw [abs_mul, abs_of_nonneg h0, abs_of_nonpos (show t * S - Real.arcsin t ≤ 0 by linarith [hb.1])]
  have h3 := mul_le_mul ha h6 (abs_nonneg _) hA
  have h4 := mul_le_mul_of_nonneg_right hε' hA
  linarith [hb.2]

section
variable {F : Fmt} {w : Nat} {a : BitVec w}

/-- The absolute error of the square root. -/
theorem fSqrt_err (h : FmtW F w) {k : Int} (hk : KRange F k) (ha : isFinite F a = true) (h0 : 0 < rval F a)
    (hv : Real.sqrt (rval F a) ≤ 2 ^ k - 1 / 2 ^ oneExp F) :
    isFinite F (fSqrt F a) = true ∧
    |rval F (fSqrt F a) - Real.sqrt (rval F a)| ≤ 2 ^ (k - F.m - 2) + 1 / 2 ^ oneExp F := by
  obtain ⟨e, hp, er⟩ := fSqrt_fin ha h0
  have hone := one_pos F
  have es : Real.sqrt (rval F a) = Real.sqrt (((fval F a).natAbs * 2 ^ oneExp F : Nat) : ℝ) / 2 ^ oneExp F := by
    rw [er, sqrt_units (by positivity)]; push_cast; rfl
  rw [e, es]
  rw [es] at hv
  clear es er h0 e
  generalize (fval F a).natAbs * 2 ^ oneExp F = n at *
  have hq := sqrtNum_real n
  generalize Real.sqrt n = S at *
  have hd : |(sqrtNum n : ℝ) / 2 / 2 ^ oneExp F - S / 2 ^ oneExp F| ≤ 1 / 2 / 2 ^ oneExp F := by
    rw [← sub_div, abs_div, abs_of_pos hone]
    exact div_le_div_of_nonneg_right hq hone.le
  have hh : (1 : ℝ) / 2 / 2 ^ oneExp F ≤ 1 / 2 ^ oneExp F := div_le_div_of_nonneg_right (by norm_num) hone.le
  obtain ⟨f1, f2⟩ := mk_err h false (sqrtNum n) (den := 2) (by decide) hk.1 hk.2 (by
    have := (abs_le.mp hd).2
    push_cast; linarith)
  refine ⟨f1, ?_⟩
  simp only [Bool.false_eq_true, if_false, one_mul, Nat.cast_ofNat] at f2
  have h4 := abs_sub_le (rval F (mkFloat F w false (roundMag F (sqrtNum n) 2))) ((sqrtNum n : ℝ) / 2 / 2 ^ oneExp F) (S / 2 ^ oneExp F)
  linarith

/-- The last step of the series: `t * x + x`. -/
theorem asin_tail (h : FmtW F w) {t x : BitVec w} {T b P : ℝ} (ht : Apx F t T b P) (hx : isFinite F x = true) (h0 : 1 / 2 ^ 60 ≤ rval F x)
    (h1 : rval F x ≤ 1) (hP : P ≤ 1 / 4) (hb : b ≤ uRel F * 8) {v m : BitVec w} (hv : v = fAdd F m x) (hm : m = fMul F t x ∨ m = fMul F x t) :
    isFinite F v = true ∧ |rval F v - rval F x * (1 + T)| ≤ (b + (1 + 2 * P) * uRel F + uRel F / 2 ^ 17) * rval F x := by
  have hu := uRel_pos F
  have hu1 := RApx.small_u h
  have hx0 : 0 < rval F x := lt_of_lt_of_le (by norm_num) h0
  have b0 := ht.nonneg
  have hP0 := le_trans (abs_nonneg _) ht.bnd
  have htb := ht.abs_le
  have hua : uAbs F ≤ uRel F / 2 ^ 21 * rval F x := by
    have := RB.uAbs_small (F := F) h (v := rval F x) (by rw [abs_of_pos hx0]; exact h0)
    rwa [abs_of_pos hx0] at this
  have hm' : isFinite F m = true ∧ |rval F m - rval F t * rval F x| ≤ uRel F * |rval F t * rval F x| + uAbs F := by
    have hbound : |rval F t * rval F x| ≤ 2 ^ (20 : Int) := by
      rw [abs_mul, abs_of_pos hx0]
      have : |rval F t| * rval F x ≤ 1 * 1 := mul_le_mul (by nlinarith) h1 hx0.le (by norm_num)
      refine le_trans this (by norm_num)
    have hup := uAbs_pos F
    rcases hm with rfl | rfl
    · obtain ⟨f, e⟩ := fMul_rel h (k := 20) (by cases h <;> decide) ht.fin hx hbound
      refine ⟨f, le_trans e ?_⟩
      split <;> linarith
    · obtain ⟨f, e⟩ := fMul_rel h (k := 20) (by cases h <;> decide) hx ht.fin (by rw [mul_comm]; exact hbound)
      rw [mul_comm (rval F x)] at e
      refine ⟨f, le_trans e ?_⟩
      split <;> linarith
  obtain ⟨fm, em⟩ := hm'
  have e1 : |rval F t * rval F x - T * rval F x| ≤ b * rval F x := by
    rw [← sub_mul, abs_mul, abs_of_pos hx0]
    exact mul_le_mul_of_nonneg_right ht.err hx0.le
  have e2 : |rval F t * rval F x| ≤ (P + b) * rval F x := by
    rw [abs_mul, abs_of_pos hx0]
    exact mul_le_mul_of_nonneg_right htb hx0.le
  have e3 : |T * rval F x| ≤ P * rval F x := by
    rw [abs_mul, abs_of_pos hx0]
    exact mul_le_mul_of_nonneg_right ht.bnd hx0.le
  have e4 : |rval F m - T * rval F x| ≤ (b + (P + b) * uRel F + uRel F / 2 ^ 21) * rval F x := by
    have := abs_sub_le (rval F m) (rval F t * rval F x) (T * rval F x)
    have := mul_le_mul_of_nonneg_left e2 hu.le
    linarith
  have bu : b * uRel F ≤ uRel F / 2 ^ 21 := by
    have := mul_le_mul hb hu1 hu.le (by positivity)
    linarith
  have e5 : |rval F m + rval F x - rval F x * (1 + T)| ≤ (b + P * uRel F + uRel F / 2 ^ 20) * rval F x := by
    rw [show rval F m + rval F x - rval F x * (1 + T) = rval F m - T * rval F x by ring]
    refine le_trans e4 (mul_le_mul_of_nonneg_right ?_ hx0.le)
    linarith
  have e6 : |rval F x * (1 + T)| ≤ (1 + P) * rval F x := by
    rw [show rval F x * (1 + T) = rval F x + T * rval F x by ring]
    refine le_trans (abs_add_le _ _) ?_
    rw [abs_of_pos hx0]; linarith
  have e7 : |rval F m + rval F x| ≤ (1 + P + (b + P * uRel F + uRel F / 2 ^ 20)) * rval F x := by
    have := abs_add_le (rval F m + rval F x - rval F x * (1 + T)) (rval F x * (1 + T))
    rw [sub_add_cancel] at this
    linarith
  have e8 : (1 + P + (b + P * uRel F + uRel F / 2 ^ 20)) ≤ 1 + P + uRel F * 10 := by nlinarith
  have e9 : |rval F m + rval F x| ≤ (1 + P + uRel F * 10) * rval F x := le_trans e7 (mul_le_mul_of_nonneg_right e8 hx0.le)
  obtain ⟨f, e⟩ := fAdd_rel h (k := 20) (by cases h <;> decide) fm hx (by
    refine le_trans e9 ?_
    have : (1 + P + uRel F * 10) * rval F x ≤ 2 * 1 := mul_le_mul (by linarith) h1 hx0.le (by norm_num)
    refine le_trans this (by norm_num))
  rw [hv]
  refine ⟨f, ?_⟩
  have e10 : |rval F (fAdd F m x) - (rval F m + rval F x)| ≤ uRel F * |rval F m + rval F x| + uAbs F := by
    refine le_trans e ?_
    have hup := uAbs_pos F
    split <;> linarith
  have e11 := mul_le_mul_of_nonneg_left e9 hu.le
  have e12 := abs_sub_le (rval F (fAdd F m x)) (rval F m + rval F x) (rval F x * (1 + T))
  have e13 : uRel F * (uRel F * 10) ≤ uRel F / 2 ^ 20 := by
    have := mul_le_mul_of_nonneg_left hu1 hu.le
    linarith
  have e14 := mul_le_mul_of_nonneg_right e13 hx0.le
  have e15 : 0 ≤ uRel F * rval F x := by positivity
  nlinarith
end

end Vc.Lemma
