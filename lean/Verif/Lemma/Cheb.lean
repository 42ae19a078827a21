import Mathlib.Analysis.SpecialFunctions.Trigonometric.Inverse
import Mathlib.Tactic.Linarith
import Mathlib.Tactic.Ring
import Mathlib.Tactic.FieldSimp

/-!
Bounds for polynomials with rational coefficients on an interval: the polynomial is written as a linear combination of
Chebyshev polynomials, none of which exceeds 1.
-/

namespace Vc.Lemma

/-- The polynomial with the given coefficients (the constant one first). -/
noncomputable def pEval : List ℚ → ℝ → ℝ
  | [], _ => 0
  | c :: cs, r => c + r * pEval cs r

def pAdd : List ℚ → List ℚ → List ℚ
  | [], q => q
  | p, [] => p
  | a :: p, b :: q => (a + b) :: pAdd p q

def pScale (a : ℚ) : List ℚ → List ℚ
  | [] => []
  | c :: cs => a * c :: pScale a cs

def pMul : List ℚ → List ℚ → List ℚ
  | [], _ => []
  | a :: p, q => pAdd (pScale a q) (0 :: pMul p q)

theorem pEval_add (p q : List ℚ) (r : ℝ) : pEval (pAdd p q) r = pEval p r + pEval q r := by
  induction p generalizing q with
  | nil => simp [pAdd, pEval]
  | cons a p ih =>
    cases q with
    | nil => simp [pAdd, pEval]
    | cons b q => simp only [pAdd, pEval, ih]; push_cast; ring

theorem pEval_scale (a : ℚ) (q : List ℚ) (r : ℝ) : pEval (pScale a q) r = a * pEval q r := by
  induction q with
  | nil => simp [pScale, pEval]
  | cons b q ih => simp only [pScale, pEval, ih]; push_cast; ring

theorem pEval_mul (p q : List ℚ) (r : ℝ) : pEval (pMul p q) r = pEval p r * pEval q r := by
  induction p with
  | nil => simp [pMul, pEval]
  | cons a p ih => simp only [pMul, pEval_add, pEval_scale, pEval, ih]; push_cast; ring

/-- `Σ cᵢ cos ((k + i) θ)`. -/
noncomputable def cEval (θ : ℝ) : Int → List ℚ → ℝ
  | _, [] => 0
  | k, c :: cs => c * Real.cos (k * θ) + cEval θ (k + 1) cs

theorem cEval_add (θ : ℝ) (k : Int) (p q : List ℚ) : cEval θ k (pAdd p q) = cEval θ k p + cEval θ k q := by
  induction p generalizing q k with
  | nil => simp [pAdd, cEval]
  | cons a p ih =>
    cases q with
    | nil => simp [pAdd, cEval]
    | cons b q => simp only [pAdd, cEval, ih]; push_cast; ring

theorem cEval_scale (θ : ℝ) (k : Int) (a : ℚ) (q : List ℚ) : cEval θ k (pScale a q) = a * cEval θ k q := by
  induction q generalizing k with
  | nil => simp [pScale, cEval]
  | cons b q ih => simp only [pScale, cEval, ih]; push_cast; ring

theorem cEval_cos (θ : ℝ) (k : Int) (q : List ℚ) :
    cEval θ (k + 1) q + cEval θ (k - 1) q = 2 * Real.cos θ * cEval θ k q := by
  induction q generalizing k with
  | nil => simp [cEval]
  | cons c q ih =>
    have h := ih (k + 1)
    rw [show k + 1 - 1 = k by ring] at h
    have h1 : Real.cos (((k + 1 : Int) : ℝ) * θ) + Real.cos (((k - 1 : Int) : ℝ) * θ) =
        2 * Real.cos θ * Real.cos (k * θ) := by
      push_cast
      rw [add_mul, sub_mul, one_mul, Real.cos_add, Real.cos_sub]; ring
    simp only [cEval]
    rw [show k - 1 + 1 = k by ring]
    have : (c : ℝ) * (Real.cos (((k + 1 : Int) : ℝ) * θ) + Real.cos (((k - 1 : Int) : ℝ) * θ)) =
        c * (2 * Real.cos θ * Real.cos (k * θ)) := by rw [h1]
    linarith

/-- The coefficients one step down; the first one is reflected. -/
def cDown : List ℚ → List ℚ
  | [] => []
  | [a] => [0, a]
  | [a, b] => [b, a]
  | a :: b :: c :: cs => b :: (c + a) :: cs

theorem cEval_down (θ : ℝ) (q : List ℚ) : cEval θ 0 (cDown q) = cEval θ (-1) q := by
  match q with
  | [] => rfl
  | [a] => simp [cDown, cEval]
  | [a, b] => simp [cDown, cEval]; ring
  | a :: b :: c :: cs => simp [cDown, cEval]; ring

/-- Multiplication by `2 cos θ`. -/
def cTwice (q : List ℚ) : List ℚ := pAdd (0 :: q) (cDown q)

theorem cEval_twice (θ : ℝ) (q : List ℚ) : cEval θ 0 (cTwice q) = 2 * Real.cos θ * cEval θ 0 q := by
  rw [cTwice, cEval_add, cEval_down, ← cEval_cos]
  simp [cEval]

/-- The coefficients of `Σ cᵢ (a + 2 b cos θ) ^ i`. -/
def chebOf (a b : ℚ) : List ℚ → List ℚ
  | [] => []
  | c :: cs => pAdd [c] (pAdd (pScale a (chebOf a b cs)) (pScale b (cTwice (chebOf a b cs))))

theorem cEval_chebOf (a b : ℚ) (θ : ℝ) (p : List ℚ) :
    cEval θ 0 (chebOf a b p) = pEval p (a + 2 * b * Real.cos θ) := by
  induction p with
  | nil => rfl
  | cons c p ih =>
    simp only [chebOf, cEval_add, cEval_scale, cEval_twice, ih, pEval, cEval]
    simp; ring

def absSum : List ℚ → ℚ
  | [] => 0
  | c :: cs => (if c < 0 then -c else c) + absSum cs

theorem cEval_abs (θ : ℝ) (k : Int) (q : List ℚ) : |cEval θ k q| ≤ absSum q := by
  induction q generalizing k with
  | nil => simp [cEval, absSum]
  | cons c q ih =>
    have hc : ((if c < 0 then -c else c : ℚ) : ℝ) = |(c : ℝ)| := by
      split
      · rename_i h
        have : (c : ℝ) < 0 := by exact_mod_cast h
        rw [abs_of_neg this]; push_cast; rfl
      · rename_i h
        have : (0 : ℝ) ≤ c := by exact_mod_cast not_lt.mp h
        rw [abs_of_nonneg this]
    simp only [cEval, absSum]
    rw [Rat.cast_add, hc]
    refine le_trans (abs_add_le _ _) (add_le_add ?_ (ih _))
    rw [abs_mul]
    have h2 := mul_le_mul_of_nonneg_left (Real.abs_cos_le_one (k * θ)) (abs_nonneg (c : ℝ))
    rwa [mul_one] at h2

/-- The bound. -/
def chebBound (lo hi : ℚ) (p : List ℚ) : ℚ := absSum (chebOf ((lo + hi) / 2) ((hi - lo) / 4) p)

theorem cheb_bound {lo hi : ℚ} {p : List ℚ} {r : ℝ} (hlh : lo < hi) (h1 : (lo : ℝ) ≤ r) (h2 : r ≤ hi) :
    |pEval p r| ≤ chebBound lo hi p := by
  have hd : (0 : ℝ) < hi - lo := by rw [sub_pos]; exact_mod_cast hlh
  have hc : Real.cos (Real.arccos ((2 * r - (lo + hi)) / (hi - lo))) = (2 * r - (lo + hi)) / (hi - lo) := by
    apply Real.cos_arccos
    · rw [le_div_iff₀ hd]; linarith
    · rw [div_le_iff₀ hd]; linarith
  have h := cEval_abs (Real.arccos ((2 * r - (lo + hi)) / (hi - lo))) 0 (chebOf ((lo + hi) / 2) ((hi - lo) / 4) p)
  rw [cEval_chebOf, hc] at h
  have e : ((((lo + hi) / 2 : ℚ)) : ℝ) + 2 * (((hi - lo) / 4 : ℚ) : ℝ) * ((2 * r - (lo + hi)) / (hi - lo)) = r := by
    push_cast; field_simp; ring
  rw [e] at h
  exact h

end Vc.Lemma
