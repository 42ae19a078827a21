import Verif.Lemma.PiDigits
import Verif.Lemma.Cheb
import Mathlib.Analysis.SpecialFunctions.Trigonometric.Bounds

/-!
The arctangent: power series, reduction of the argument, sensitivity.
-/

namespace Vc.Lemma

/-- Coefficients of `arctan t / t` in powers of `t²`, from number `i` on. -/
def atanTaylor : Nat → Nat → List ℚ
  | _, 0 => []
  | i, n + 1 => (-1) ^ i / (2 * i + 1 : Nat) :: atanTaylor (i + 1) n

theorem atanTaylor_sum (i n : Nat) (t : ℝ) : (t * t) ^ i * t * pEval (atanTaylor i n) (t * t) =
    ∑ j ∈ Finset.range n, (-1) ^ (i + j) * t ^ (2 * (i + j) + 1) / ((2 * (i + j) + 1 : Nat) : ℝ) := by
  induction n generalizing i with
  | zero => simp [atanTaylor, pEval]
  | succ n ih =>
    rw [Finset.sum_range_succ']
    have h := ih (i + 1)
    simp only [show ∀ j, i + 1 + j = i + (j + 1) by intro j; omega] at h
    rw [← h]
    simp only [atanTaylor, pEval, Nat.add_zero]
    push_cast
    rw [show t ^ (2 * i + 1) = (t * t) ^ i * t by rw [pow_succ, pow_mul, sq]]
    ring

theorem arctan_taylor {t : ℝ} (ht : |t| < 1) (n : Nat) :
    |t * pEval (atanTaylor 0 n) (t * t) - Real.arctan t| ≤ |t| * (t ^ 2) ^ n / (1 - t ^ 2) := by
  have h := arctan_series ht n
  have e := atanTaylor_sum 0 n t
  simp only [Nat.zero_add, pow_zero, one_mul] at e
  rw [e]; exact h

theorem arctan_abs_le (t : ℝ) : |Real.arctan t| ≤ |t| := by
  have key : ∀ s : ℝ, 0 ≤ s → Real.arctan s ≤ s := by
    intro s hs
    have h1 := Real.arctan_nonneg.mpr hs
    have := Real.le_tan h1 (Real.arctan_lt_pi_div_two s)
    rwa [Real.tan_arctan] at this
  rcases le_total 0 t with h | h
  · rw [abs_of_nonneg h, abs_of_nonneg (Real.arctan_nonneg.mpr h)]; exact key t h
  · rw [abs_of_nonpos h, abs_of_nonpos (Real.arctan_le_zero.mpr h), ← Real.arctan_neg]
    exact key (-t) (by linarith)

theorem arctan_sub {a b : ℝ} (h : -1 < a * b) : Real.arctan a - Real.arctan b = Real.arctan ((a - b) / (1 + a * b)) := by
  have := Real.arctan_add (x := a) (y := -b) (by linarith)
  rw [Real.arctan_neg] at this
  rw [sub_eq_add_neg, this]
  congr 1
  (congr 1; ring)

/-- The arctangent changes less than its argument, and even less away from zero. -/
theorem arctan_lip {a b c : ℝ} (hc : 0 ≤ c) (h : c ≤ a * b) : |Real.arctan a - Real.arctan b| ≤ |a - b| / (1 + c) := by
  rw [arctan_sub (by linarith)]
  refine le_trans (arctan_abs_le _) ?_
  rw [abs_div, abs_of_pos (show 0 < 1 + a * b by linarith)]
  exact div_le_div_of_nonneg_left (abs_nonneg _) (by linarith) (by linarith)

theorem arctan_lip1 (a b : ℝ) : |Real.arctan a - Real.arctan b| ≤ |a - b| := by
  have key : ∀ a b : ℝ, 0 ≤ a → |Real.arctan a - Real.arctan b| ≤ |a - b| := by
    intro a b ha
    rcases le_total 0 b with hb | hb
    · have := arctan_lip le_rfl (mul_nonneg ha hb)
      rwa [add_zero, div_one] at this
    · have h1 := arctan_abs_le a
      have h2 := arctan_abs_le b
      rw [abs_of_nonneg ha] at h1
      rw [abs_of_nonpos hb] at h2
      rw [abs_of_nonneg (show 0 ≤ a - b by linarith)]
      refine le_trans (abs_sub _ _) ?_
      linarith
  rcases le_total 0 a with ha | ha
  · exact key a b ha
  · have := key (-a) (-b) (by linarith)
    rw [Real.arctan_neg, Real.arctan_neg] at this
    rwa [show -Real.arctan a - -Real.arctan b = -(Real.arctan a - Real.arctan b) by ring, abs_neg,
      show -a - -b = -(a - b) by ring, abs_neg] at this

theorem arctan_mid {x : ℝ} (hx : 0 ≤ x) : Real.arctan x = Real.pi / 4 + Real.arctan ((x - 1) / (x + 1)) := by
  have := arctan_sub (a := x) (b := 1) (by linarith)
  rw [Real.arctan_one] at this
  rw [show (x - 1) / (x + 1) = (x - 1) / (1 + x * 1) by rw [mul_one, add_comm], ← this]
  ring

theorem arctan_far {x : ℝ} (hx : 0 < x) : Real.arctan x = Real.pi / 2 + Real.arctan (-1 / x) := by
  have := Real.arctan_inv_of_pos hx
  rw [neg_div, one_div, Real.arctan_neg, this]; ring

/-- Lower bound from the first two terms of the series. -/
theorem arctan_ge {t : ℝ} (h0 : 0 ≤ t) (h1 : t < 1) : t - t ^ 3 / (1 - t ^ 2) ≤ Real.arctan t := by
  have h := arctan_taylor (t := t) (by rw [abs_of_nonneg h0]; exact h1) 1
  simp only [atanTaylor, pEval] at h
  norm_num at h
  rw [abs_of_nonneg h0] at h
  have := (abs_le.mp h).2
  have e : t * t ^ 2 = t ^ 3 := by ring
  rw [e] at this
  linarith
end Vc.Lemma
