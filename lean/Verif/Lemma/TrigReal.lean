import Verif.Lemma.Cheb
import Mathlib.Analysis.Complex.Exponential
import Mathlib.Analysis.Complex.Trigonometric
import Mathlib.Analysis.SpecialFunctions.Trigonometric.Bounds

/-!
The Taylor polynomials of the sine and the cosine, and the quadrants.
-/

namespace Vc.Lemma

/-- The coefficients of `cos t` as a polynomial in `t²`. -/
def cosTaylor : Nat → Nat → List ℚ
  | _, 0 => []
  | k, n + 1 => (-1) ^ k / (2 * k).factorial :: cosTaylor (k + 1) n

/-- The coefficients of `sin t / t` as a polynomial in `t²`. -/
def sinTaylor : Nat → Nat → List ℚ
  | _, 0 => []
  | k, n + 1 => (-1) ^ k / (2 * k + 1).factorial :: sinTaylor (k + 1) n

theorem cosTaylor_sum (k n : Nat) (t : ℝ) :
    ∑ i ∈ Finset.range n, (-1) ^ (k + i) * t ^ (2 * (k + i)) / ((2 * (k + i)).factorial : ℝ) =
      t ^ (2 * k) * pEval (cosTaylor k n) (t * t) := by
  induction n generalizing k with
  | zero => simp [cosTaylor, pEval]
  | succ n ih =>
    rw [Finset.sum_range_succ', cosTaylor, pEval]
    have e : ∑ i ∈ Finset.range n, (-1) ^ (k + (i + 1)) * t ^ (2 * (k + (i + 1))) / ((2 * (k + (i + 1))).factorial : ℝ) =
        ∑ i ∈ Finset.range n, (-1) ^ (k + 1 + i) * t ^ (2 * (k + 1 + i)) / ((2 * (k + 1 + i)).factorial : ℝ) :=
      Finset.sum_congr rfl (fun i _ => by rw [show k + (i + 1) = k + 1 + i by omega])
    rw [e, ih (k + 1), Nat.add_zero]
    push_cast
    ring_nf

theorem sinTaylor_sum (k n : Nat) (t : ℝ) :
    ∑ i ∈ Finset.range n, (-1) ^ (k + i) * t ^ (2 * (k + i) + 1) / ((2 * (k + i) + 1).factorial : ℝ) =
      t ^ (2 * k + 1) * pEval (sinTaylor k n) (t * t) := by
  induction n generalizing k with
  | zero => simp [sinTaylor, pEval]
  | succ n ih =>
    rw [Finset.sum_range_succ', sinTaylor, pEval]
    have e : ∑ i ∈ Finset.range n, (-1) ^ (k + (i + 1)) * t ^ (2 * (k + (i + 1)) + 1) / ((2 * (k + (i + 1)) + 1).factorial : ℝ) =
        ∑ i ∈ Finset.range n, (-1) ^ (k + 1 + i) * t ^ (2 * (k + 1 + i) + 1) / ((2 * (k + 1 + i) + 1).factorial : ℝ) :=
      Finset.sum_congr rfl (fun i _ => by rw [show k + (i + 1) = k + 1 + i by omega])
    rw [e, ih (k + 1), Nat.add_zero]
    push_cast
    ring_nf

theorem exp_sum (n : Nat) (t : ℝ) :
    ∑ m ∈ Finset.range (2 * n), ((t : ℂ) * Complex.I) ^ m / (m.factorial : ℂ) =
      ((∑ i ∈ Finset.range n, (-1) ^ i * t ^ (2 * i) / ((2 * i).factorial : ℝ) : ℝ) : ℂ) +
      ((∑ i ∈ Finset.range n, (-1) ^ i * t ^ (2 * i + 1) / ((2 * i + 1).factorial : ℝ) : ℝ) : ℂ) * Complex.I := by
  induction n with
  | zero => simp
  | succ n ih =>
    rw [show 2 * (n + 1) = 2 * n + 1 + 1 by ring, Finset.sum_range_succ, Finset.sum_range_succ, ih, Finset.sum_range_succ,
      Finset.sum_range_succ]
    have e : Complex.I ^ (2 * n) = (-1) ^ n := by rw [pow_mul, Complex.I_sq]
    rw [mul_pow, mul_pow, pow_succ Complex.I, e]
    push_cast
    ring

theorem taylor {t : ℝ} (ht : |t| ≤ 1) {n : Nat} (hn : 0 < n) :
    |pEval (cosTaylor 0 n) (t * t) - Real.cos t| ≤ |t| ^ (2 * n) * (((2 * n : Nat) + 1 : ℝ) / ((2 * n).factorial * (2 * n : Nat))) ∧
    |t * pEval (sinTaylor 0 n) (t * t) - Real.sin t| ≤ |t| ^ (2 * n) * (((2 * n : Nat) + 1 : ℝ) / ((2 * n).factorial * (2 * n : Nat))) := by
  have h := Complex.exp_bound (x := (t : ℂ) * Complex.I) (by simpa using ht) (n := 2 * n) (by omega)
  have hc := cosTaylor_sum 0 n t
  have hs := sinTaylor_sum 0 n t
  simp only [Nat.zero_add, Nat.mul_zero, pow_zero, pow_one, one_mul] at hc hs
  rw [exp_sum, hc, hs, Complex.exp_mul_I] at h
  have hnorm : ‖(t : ℂ) * Complex.I‖ = |t| := by simp
  rw [hnorm, ← div_eq_mul_inv, ← Complex.ofReal_cos, ← Complex.ofReal_sin] at h
  have e : ((Real.cos t : ℂ) + (Real.sin t : ℂ) * Complex.I -
      (((pEval (cosTaylor 0 n) (t * t) : ℝ) : ℂ) + ((t * pEval (sinTaylor 0 n) (t * t) : ℝ) : ℂ) * Complex.I)) =
      ((Real.cos t - pEval (cosTaylor 0 n) (t * t) : ℝ) : ℂ) +
      ((Real.sin t - t * pEval (sinTaylor 0 n) (t * t) : ℝ) : ℂ) * Complex.I := by
    push_cast; ring
  rw [e] at h
  have h' : ∀ a b : ℝ, |a| ≤ ‖(a : ℂ) + (b : ℂ) * Complex.I‖ ∧ |b| ≤ ‖(a : ℂ) + (b : ℂ) * Complex.I‖ := by
    intro a b
    have h1 := Complex.abs_re_le_norm ((a : ℂ) + (b : ℂ) * Complex.I)
    have h2 := Complex.abs_im_le_norm ((a : ℂ) + (b : ℂ) * Complex.I)
    simp only [Complex.add_re, Complex.ofReal_re, Complex.mul_re, Complex.I_re, mul_zero, Complex.ofReal_im, Complex.I_im,
      mul_one, sub_self, add_zero, Complex.add_im, Complex.mul_im, zero_add] at h1 h2
    exact ⟨h1, h2⟩
  have hh := h' (Real.cos t - pEval (cosTaylor 0 n) (t * t)) (Real.sin t - t * pEval (sinTaylor 0 n) (t * t))
  have e2 : ((2 * n).succ : ℝ) = ((2 * n : Nat) : ℝ) + 1 := by push_cast; ring
  rw [e2] at h
  constructor
  · rw [abs_sub_comm]; exact le_trans hh.1 h
  · rw [abs_sub_comm]; exact le_trans hh.2 h

/-- The sine and the cosine change by no more than the argument. -/
theorem sin_lip (a b : ℝ) : |Real.sin a - Real.sin b| ≤ |a - b| := Real.abs_sin_sub_sin_le a b
theorem cos_lip (a b : ℝ) : |Real.cos a - Real.cos b| ≤ |a - b| := Real.abs_cos_sub_cos_le a b

/-- The sine and the cosine of `z + Y π/2`. -/
def quadSin (r : Nat) (s c : ℝ) : ℝ := if r = 0 then s else if r = 1 then c else if r = 2 then -s else -c
def quadCos (r : Nat) (s c : ℝ) : ℝ := if r = 0 then c else if r = 1 then -s else if r = 2 then -c else s

theorem sin_quad (z : ℝ) (Y : Nat) : Real.sin (z + Y * (Real.pi / 2)) = quadSin (Y % 4) (Real.sin z) (Real.cos z) ∧
    Real.cos (z + Y * (Real.pi / 2)) = quadCos (Y % 4) (Real.sin z) (Real.cos z) := by
  have e : z + Y * (Real.pi / 2) = (z + ((Y % 4 : Nat) : ℝ) * (Real.pi / 2)) + ((Y / 4 : Nat) : ℝ) * (2 * Real.pi) := by
    have : (Y : ℝ) = ((4 * (Y / 4) + Y % 4 : Nat) : ℝ) := by rw [Nat.div_add_mod]
    rw [this]; push_cast; ring
  rw [e, Real.sin_add_nat_mul_two_pi, Real.cos_add_nat_mul_two_pi]
  have h4 : Y % 4 < 4 := Nat.mod_lt _ (by decide)
  generalize Y % 4 = r at *
  rcases (show r = 0 ∨ r = 1 ∨ r = 2 ∨ r = 3 by omega) with h | h | h | h <;> subst h <;> simp only [quadSin, quadCos]
  · simp
  · simp [Real.sin_add_pi_div_two, Real.cos_add_pi_div_two]
  · rw [show ((2 : Nat) : ℝ) * (Real.pi / 2) = Real.pi by push_cast; ring]; simp [Real.sin_add_pi, Real.cos_add_pi]
  · rw [show ((3 : Nat) : ℝ) * (Real.pi / 2) = Real.pi / 2 + Real.pi by push_cast; ring, ← add_assoc, Real.sin_add_pi, Real.cos_add_pi]
    simp [Real.sin_add_pi_div_two, Real.cos_add_pi_div_two]

/-- Approximations of the sine and the cosine of `z` give those of `z + Y π/2`. -/
theorem quad_near {r : Nat} {s c S C ε : ℝ} (hs : |s - S| ≤ ε) (hc : |c - C| ≤ ε) :
    |quadSin r s c - quadSin r S C| ≤ ε ∧ |quadCos r s c - quadCos r S C| ≤ ε := by
  unfold quadSin quadCos
  have hs' : |-s - -S| ≤ ε := by rw [show -s - -S = -(s - S) by ring, abs_neg]; exact hs
  have hc' : |-c - -C| ≤ ε := by rw [show -c - -C = -(c - C) by ring, abs_neg]; exact hc
  constructor <;> split_ifs <;> assumption

end Vc.Lemma
