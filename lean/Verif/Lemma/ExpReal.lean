import Mathlib.Analysis.Complex.Exponential
import Mathlib.Analysis.SpecialFunctions.Log.Deriv
import Mathlib.Tactic.Linarith
import Mathlib.Tactic.NormNum
import Mathlib.Tactic.Ring
import Mathlib.Tactic.Positivity

/-!
Bounds for the exponential function and the logarithm of two.
-/

namespace Vc.Lemma

theorem log2_near : |Real.log 2 - 0.6931471805599453094172| ≤ 1 / 10 ^ 22 := by
  have t : |(2⁻¹ : ℝ)| = 2⁻¹ := by rw [abs_of_pos]; norm_num
  have z := Real.abs_log_sub_add_sum_range_le (show |(2⁻¹ : ℝ)| < 1 by rw [t]; norm_num) 80
  rw [t] at z
  norm_num [Finset.sum_range_succ] at z
  rw [show (1 : ℝ) / 2 = 2⁻¹ by norm_num, Real.log_inv, ← sub_eq_add_neg, abs_sub_comm] at z
  refine le_trans (abs_sub_le _ _ _) (le_trans (add_le_add z le_rfl) ?_)
  norm_num

theorem log2_gt : 0.693147180559945309417 < Real.log 2 := by
  have := (abs_le.mp log2_near).1; norm_num at this ⊢; linarith

theorem log2_lt : Real.log 2 < 0.6931471805599453094174 := by
  have := (abs_le.mp log2_near).2; norm_num at this ⊢; linarith

theorem exp_add_log2 (x : ℝ) (n : Int) : Real.exp x = Real.exp (x - n * Real.log 2) * 2 ^ n := by
  rw [← Real.exp_log (show (0 : ℝ) < 2 ^ n by positivity), ← Real.exp_add, Real.log_zpow]
  congr 1; ring

/-- Nearby arguments. -/
theorem exp_close {a b δ : ℝ} (h : |a - b| ≤ δ) (hδ : δ ≤ 1) :
    |Real.exp a - Real.exp b| ≤ (δ + δ ^ 2) * Real.exp b := by
  have h0 := abs_nonneg (a - b)
  have e : Real.exp a - Real.exp b = (Real.exp (a - b) - 1) * Real.exp b := by
    rw [sub_mul, ← Real.exp_add]; ring_nf
  rw [e, abs_mul, abs_of_pos (Real.exp_pos b)]
  apply mul_le_mul_of_nonneg_right _ (Real.exp_pos b).le
  have h1 := Real.abs_exp_sub_one_sub_id_le (x := a - b) (by linarith)
  have h2 := abs_add_le (Real.exp (a - b) - 1 - (a - b)) (a - b)
  rw [sub_add_cancel] at h2
  have h3 : (a - b) ^ 2 ≤ δ ^ 2 := by rw [← sq_abs]; exact pow_le_pow_left₀ h0 h 2
  linarith

end Vc.Lemma
