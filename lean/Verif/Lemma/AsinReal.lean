import Verif.Lemma.Cheb
import Mathlib.Analysis.SpecialFunctions.Trigonometric.InverseDeriv
import Mathlib.Analysis.SpecialFunctions.Sqrt
import Mathlib.Analysis.Calculus.Deriv.MeanValue

/-!
The power series of the arcus sinus.
-/

namespace Vc.Lemma
open Finset

/-- Coefficients of `1 / √(1 - z)`. -/
def asinC : Nat → ℚ
  | 0 => 1
  | k + 1 => asinC k * ((2 * k + 1 : Nat) / (2 * k + 2 : Nat))

theorem asinC_pos (k : Nat) : 0 < asinC k := by
  induction k with
  | zero => simp [asinC]
  | succ k ih => unfold asinC; positivity

theorem asinC_succ (k : Nat) : (asinC (k + 1) : ℝ) * (2 * k + 2) = asinC k * (2 * k + 1) := by
  simp only [asinC]; push_cast
  have : (2 * (k : ℝ) + 2) ≠ 0 := by positivity
  field_simp

/-- Coefficients of `arcsin t / t` in powers of `t²`, from number `i` on. -/
def asinTaylor : Nat → Nat → List ℚ
  | _, 0 => []
  | i, n + 1 => asinC i / (2 * i + 1 : Nat) :: asinTaylor (i + 1) n

noncomputable def asinSum (n : Nat) (t : ℝ) : ℝ := ∑ k ∈ range n, (asinC k : ℝ) * (t ^ (2 * k + 1) / (2 * k + 1))
noncomputable def asinDer (n : Nat) (t : ℝ) : ℝ := ∑ k ∈ range n, (asinC k : ℝ) * t ^ (2 * k)
noncomputable def asinDer2 (n : Nat) (t : ℝ) : ℝ := ∑ k ∈ range n, (asinC k : ℝ) * ((2 * k : Nat) * t ^ (2 * k - 1))

theorem asinTaylor_sum' (i n : Nat) (t : ℝ) : (t * t) ^ i * t * pEval (asinTaylor i n) (t * t) =
    ∑ j ∈ range n, (asinC (i + j) : ℝ) * (t ^ (2 * (i + j) + 1) / (2 * ((i + j : Nat) : ℝ) + 1)) := by
  induction n generalizing i with
  | zero => simp [asinTaylor, pEval]
  | succ n ih =>
    rw [Finset.sum_range_succ']
    have h := ih (i + 1)
    simp only [show ∀ j, i + 1 + j = i + (j + 1) by intro j; omega] at h
    rw [← h]
    simp only [asinTaylor, pEval, Nat.add_zero]
    push_cast
    rw [show t ^ (2 * i + 1) = (t * t) ^ i * t by rw [pow_succ, pow_mul, sq]]
    ring

theorem asinTaylor_sum (n : Nat) (t : ℝ) : t * pEval (asinTaylor 0 n) (t * t) = asinSum n t := by
  have e := asinTaylor_sum' 0 n t
  simp only [Nat.zero_add, pow_zero, one_mul] at e
  exact e

theorem asinSum_deriv (n : Nat) (t : ℝ) : HasDerivAt (asinSum n) (asinDer n t) t := by
  unfold asinSum asinDer
  refine HasDerivAt.fun_sum fun k _ => ?_
  have h := ((hasDerivAt_pow (2 * k + 1) t).div_const (2 * (k : ℝ) + 1)).const_mul (asinC k : ℝ)
  refine h.congr_deriv ?_
  push_cast
  have : (2 * (k : ℝ) + 1) ≠ 0 := by positivity
  field_simp

theorem asinDer_deriv (n : Nat) (t : ℝ) : HasDerivAt (asinDer n) (asinDer2 n t) t := by
  unfold asinDer asinDer2
  exact HasDerivAt.fun_sum fun k _ => (hasDerivAt_pow (2 * k) t).const_mul (asinC k : ℝ)

theorem asinDer_ode (n : Nat) (t : ℝ) : asinDer2 (n + 1) t * (1 - t ^ 2) - t * asinDer (n + 1) t =
    -((2 * (n : ℝ) + 2) * asinC (n + 1) * t ^ (2 * n + 1)) := by
  induction n with
  | zero =>
    have := asinC_succ 0
    simp only [asinDer2, asinDer]
    simp [asinC]
  | succ n ih =>
    have e2 : asinDer2 (n + 1 + 1) t = asinDer2 (n + 1) t + asinC (n + 1) * ((2 * (n : ℝ) + 2) * t ^ (2 * n + 1)) := by
      unfold asinDer2; rw [sum_range_succ]; push_cast; rw [show 2 * (n + 1) - 1 = 2 * n + 1 by omega]; ring
    have e1 : asinDer (n + 1 + 1) t = asinDer (n + 1) t + asinC (n + 1) * t ^ (2 * n + 2) := by
      unfold asinDer; rw [sum_range_succ]; rfl
    have hc := asinC_succ (n + 1)
    rw [e1, e2]
    push_cast at hc ⊢
    have : asinDer2 (n + 1) t * (1 - t ^ 2) = t * asinDer (n + 1) t - ((2 * (n : ℝ) + 2) * asinC (n + 1) * t ^ (2 * n + 1)) := by linarith
    have e3 : t ^ (2 * (n + 1) + 1) = t ^ 2 * t ^ (2 * n + 1) := by ring
    have e4 : t ^ (2 * n + 2) = t * t ^ (2 * n + 1) := by ring
    rw [e3, e4]
    generalize t ^ (2 * n + 1) = X at *
    linear_combination this + t ^ 2 * X * hc

/-- A function whose derivative is nowhere negative. -/
theorem le_of_hasDeriv {f f' : ℝ → ℝ} {T : ℝ} (hf : ∀ x, 0 ≤ x → x ≤ T → HasDerivAt f (f' x) x)
    (h0 : ∀ x, 0 ≤ x → x ≤ T → 0 ≤ f' x) {t : ℝ} (ht : 0 ≤ t) (hT : t ≤ T) : f 0 ≤ f t := by
  have hm : MonotoneOn f (Set.Icc 0 T) := by
    refine monotoneOn_of_deriv_nonneg (convex_Icc 0 T) (fun x hx => (hf x hx.1 hx.2).continuousAt.continuousWithinAt) ?_ ?_
    · intro x hx
      rw [interior_Icc] at hx
      exact (hf x hx.1.le hx.2.le).differentiableAt.differentiableWithinAt
    · intro x hx
      rw [interior_Icc] at hx
      rw [(hf x hx.1.le hx.2.le).deriv]
      exact h0 x hx.1.le hx.2.le
  exact hm ⟨le_rfl, le_trans ht hT⟩ ⟨ht, hT⟩ ht

theorem asinSum_bound {n : Nat} {T K t : ℝ} (hT : T < 1) (hK : 1 ≤ K ^ 2 * (1 - T ^ 2)) (hK0 : 0 ≤ K) (ht : 0 ≤ t) (htT : t ≤ T) :
    asinSum (n + 1) t ≤ Real.arcsin t ∧ Real.arcsin t - asinSum (n + 1) t ≤ K * asinC (n + 1) * T ^ (2 * n + 2) * Real.arcsin t := by
  have hT0 : 0 ≤ T := le_trans ht htT
  have hc : (0 : ℝ) < asinC (n + 1) := by exact_mod_cast asinC_pos (n + 1)
  have pos : ∀ x, 0 ≤ x → x ≤ T → 0 < 1 - x ^ 2 := fun x h1 h2 => by
    have := pow_le_pow_left₀ h1 h2 2
    nlinarith
  have sp : ∀ x, 0 ≤ x → x ≤ T → 0 < Real.sqrt (1 - x ^ 2) := fun x h1 h2 => Real.sqrt_pos.mpr (pos x h1 h2)
  have dS : ∀ x, 0 ≤ x → x ≤ T → HasDerivAt (fun x => Real.sqrt (1 - x ^ 2)) (-x / Real.sqrt (1 - x ^ 2)) x := by
    intro x h1 h2
    have h := ((hasDerivAt_pow 2 x).const_sub 1).sqrt (pos x h1 h2).ne'
    refine h.congr_deriv ?_
    have := (sp x h1 h2).ne'
    field_simp
    simp [mul_comm]
  have dg : ∀ x, 0 ≤ x → x ≤ T → HasDerivAt (fun x => asinDer (n + 1) x * Real.sqrt (1 - x ^ 2))
      (-((2 * (n : ℝ) + 2) * asinC (n + 1) * x ^ (2 * n + 1)) / Real.sqrt (1 - x ^ 2)) x := by
    intro x h1 h2
    have h := (asinDer_deriv (n + 1) x).fun_mul (dS x h1 h2)
    refine h.congr_deriv ?_
    rw [← asinDer_ode n x]
    have hs := (sp x h1 h2).ne'
    have hq := Real.sq_sqrt (pos x h1 h2).le
    generalize Real.sqrt (1 - x ^ 2) = S at *
    rw [← hq]
    field_simp
    ring
  have g0 : asinDer (n + 1) 0 * Real.sqrt (1 - 0 ^ 2) = 1 := by
    unfold asinDer
    rw [sum_range_succ']
    simp [asinC]
  -- the product is at most one
  have up : ∀ x, 0 ≤ x → x ≤ T → asinDer (n + 1) x * Real.sqrt (1 - x ^ 2) ≤ 1 := by
    intro x h1 h2
    have h := le_of_hasDeriv (f := fun x => -(asinDer (n + 1) x * Real.sqrt (1 - x ^ 2))) (fun y y1 y2 => (dg y y1 y2).fun_neg) (fun y y1 y2 => by
      have := sp y y1 y2
      rw [neg_div, neg_neg]; positivity) h1 h2
    rw [g0] at h; linarith
  have lo : ∀ x, 0 ≤ x → x ≤ T → 1 - K * asinC (n + 1) * T ^ (2 * n + 2) ≤ asinDer (n + 1) x * Real.sqrt (1 - x ^ 2) := by
    intro x h1 h2
    have h := le_of_hasDeriv (f := fun x => asinDer (n + 1) x * Real.sqrt (1 - x ^ 2) + K * asinC (n + 1) * x ^ (2 * n + 2))
      (fun y y1 y2 => (dg y y1 y2).fun_add ((hasDerivAt_pow (2 * n + 2) y).const_mul _)) (fun y y1 y2 => by
      have hs := sp y y1 y2
      have hk : 1 / Real.sqrt (1 - y ^ 2) ≤ K := by
        rw [div_le_iff₀ hs]
        have hq := Real.sq_sqrt (pos y y1 y2).le
        have : (1 : ℝ) ≤ (K * Real.sqrt (1 - y ^ 2)) ^ 2 := by
          rw [mul_pow, hq]
          have := pow_le_pow_left₀ y1 y2 2
          nlinarith [sq_nonneg K]
        exact (one_le_sq_iff₀ (by positivity)).mp this
      have e : (((2 * n + 2 : Nat) : ℝ) * y ^ (2 * n + 2 - 1)) = (2 * (n : ℝ) + 2) * y ^ (2 * n + 1) := by
        push_cast; rfl
      rw [e]
      have h3 : -((2 * (n : ℝ) + 2) * asinC (n + 1) * y ^ (2 * n + 1)) / Real.sqrt (1 - y ^ 2) + K * asinC (n + 1) * ((2 * (n : ℝ) + 2) * y ^ (2 * n + 1)) =
        (2 * (n : ℝ) + 2) * asinC (n + 1) * y ^ (2 * n + 1) * (K - 1 / Real.sqrt (1 - y ^ 2)) := by ring
      rw [h3]
      exact mul_nonneg (by positivity) (by linarith)) h1 h2
    rw [g0, zero_pow (by omega)] at h
    have h4 : K * asinC (n + 1) * x ^ (2 * n + 2) ≤ K * asinC (n + 1) * T ^ (2 * n + 2) :=
      mul_le_mul_of_nonneg_left (pow_le_pow_left₀ h1 h2 _) (by positivity)
    linarith
  have da : ∀ x, 0 ≤ x → x ≤ T → HasDerivAt Real.arcsin (1 / Real.sqrt (1 - x ^ 2)) x := fun x h1 h2 =>
    Real.hasDerivAt_arcsin (by linarith) (by linarith)
  have z1 : asinSum (n + 1) 0 = 0 := by unfold asinSum; simp
  constructor
  · have h := le_of_hasDeriv (f := fun x => Real.arcsin x - asinSum (n + 1) x) (fun y y1 y2 => (da y y1 y2).fun_sub (asinSum_deriv (n + 1) y))
      (fun y y1 y2 => by
        have := up y y1 y2
        rw [← le_div_iff₀ (sp y y1 y2)] at this
        linarith) ht htT
    simp only [z1, Real.arcsin_zero] at h
    linarith
  · have h := le_of_hasDeriv (f := fun x => K * asinC (n + 1) * T ^ (2 * n + 2) * Real.arcsin x - (Real.arcsin x - asinSum (n + 1) x))
      (fun y y1 y2 => ((da y y1 y2).const_mul _).fun_sub ((da y y1 y2).fun_sub (asinSum_deriv (n + 1) y)))
      (fun y y1 y2 => by
        have := lo y y1 y2
        rw [← div_le_iff₀ (sp y y1 y2), sub_div] at this
        rw [mul_one_div]
        linarith) ht htT
    simp only [z1, Real.arcsin_zero] at h
    linarith

end Vc.Lemma
