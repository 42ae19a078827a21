import Verif.Lemma.AtanReal
import Mathlib.Analysis.Convex.Deriv
import Mathlib.Analysis.SpecialFunctions.Complex.Arg
import Mathlib.Analysis.SpecialFunctions.Trigonometric.ArctanDeriv

/-!
The argument of a complex number and the arcus tangens of a quotient.
-/

namespace Vc.Lemma

theorem arctan_concave : ConcaveOn ℝ (Set.Ici 0) Real.arctan := by
  refine AntitoneOn.concaveOn_of_deriv (convex_Ici 0) Real.continuous_arctan.continuousOn
    Real.differentiable_arctan.differentiableOn ?_
  rw [interior_Ici]
  intro a ha b hb hab
  rw [Real.deriv_arctan]
  have h0 : 0 < a := ha
  exact one_div_le_one_div_of_le (by positivity) (by nlinarith)

theorem arctan_scale {c q : ℝ} (h0 : 0 ≤ c) (h1 : c ≤ 1) (hq : 0 ≤ q) : c * Real.arctan q ≤ Real.arctan (c * q) := by
  have := arctan_concave.2 (Set.mem_Ici.mpr le_rfl) (Set.mem_Ici.mpr hq) (sub_nonneg.mpr h1) h0 (sub_add_cancel 1 c)
  simpa using this

/-- A relative error of the argument is at most that error of the result. -/
theorem arctan_rel {p q u : ℝ} (hu : u ≤ 1) (hp : |p - q| ≤ u * |q|) : |Real.arctan p - Real.arctan q| ≤ u * |Real.arctan q| := by
  have key : ∀ p q : ℝ, 0 ≤ q → |p - q| ≤ u * q → |Real.arctan p - Real.arctan q| ≤ u * Real.arctan q := by
    intro p q hq hp
    rcases eq_or_lt_of_le hq with h | h
    · subst h
      have : p = 0 := by simpa using hp
      rw [this]; simp
    · have hA := Real.arctan_nonneg.mpr hq
      obtain ⟨e1, e2⟩ := abs_le.mp hp
      have hp0 : 0 ≤ p := by nlinarith
      rcases le_total p q with h1 | h1
      · have hm := Real.arctan_strictMono.monotone h1
        rw [abs_of_nonpos (by linarith)]
        have hs := arctan_scale (c := p / q) (by positivity) (by rwa [div_le_one h]) hq
        rw [div_mul_cancel₀ _ h.ne'] at hs
        have : 1 - u ≤ p / q := by rw [le_div_iff₀ h]; linarith
        nlinarith
      · have hm := Real.arctan_strictMono.monotone h1
        rw [abs_of_nonneg (by linarith)]
        have hpp : 0 < p := by linarith
        have hs := arctan_scale (c := q / p) (by positivity) (by rwa [div_le_one hpp]) hp0
        rw [div_mul_cancel₀ _ hpp.ne', div_mul_eq_mul_div, div_le_iff₀ hpp] at hs
        have h3 : q * Real.arctan p ≤ q * ((1 + u) * Real.arctan q) := by
          refine le_trans hs ?_
          have : p ≤ (1 + u) * q := by linarith
          nlinarith
        have := le_of_mul_le_mul_left h3 h
        linarith
  rcases le_total 0 q with h | h
  · rw [abs_of_nonneg h] at hp
    rw [abs_of_nonneg (Real.arctan_nonneg.mpr h)]
    exact key p q h hp
  · rw [abs_of_nonpos h] at hp
    have := key (-p) (-q) (by linarith) (by rw [← abs_neg]; convert hp using 2; ring)
    rw [Real.arctan_neg, Real.arctan_neg, ← abs_neg] at this
    rw [← abs_neg (Real.arctan q), abs_of_nonneg (show 0 ≤ -Real.arctan q by rw [← Real.arctan_neg]; exact Real.arctan_nonneg.mpr (by linarith))]
    convert this using 2; ring

/-- The same with an absolute error. -/
theorem arctan_relAbs {p q u a : ℝ} (h0 : 0 ≤ u) (hu : u ≤ 1) (ha : 0 ≤ a) (hp : |p - q| ≤ u * |q| + a) :
    |Real.arctan p - Real.arctan q| ≤ u * |Real.arctan q| + a := by
  have hn : 0 ≤ u * |q| := by positivity
  obtain ⟨m, h1, h2⟩ : ∃ m : ℝ, |m - q| ≤ u * |q| ∧ |p - m| ≤ a := by
    generalize u * |q| = d at *
    obtain ⟨e1, e2⟩ := abs_le.mp hp
    rcases le_total p (q - d) with h | h
    · exact ⟨q - d, by rw [abs_le]; constructor <;> linarith, by rw [abs_le]; constructor <;> linarith⟩
    rcases le_total p (q + d) with h' | h'
    · exact ⟨p, by rw [abs_le]; constructor <;> linarith, by simpa using ha⟩
    · exact ⟨q + d, by rw [abs_le]; constructor <;> linarith, by rw [abs_le]; constructor <;> linarith⟩
  have e1 := arctan_rel hu h1
  have e2 := arctan_lip1 p m
  have := abs_sub_le (Real.arctan p) (Real.arctan m) (Real.arctan q)
  linarith

/-- Far out it is close to `π/2`. -/
theorem arctan_big {p : ℝ} (hp : (2 : ℝ) ^ 100 ≤ p) : |Real.arctan p - Real.pi / 2| ≤ 1 / 2 ^ 100 := by
  have h0 : 0 < p := lt_of_lt_of_le (by positivity) hp
  have h1 := arctan_abs_le (-1 / p)
  rw [arctan_far h0, show Real.pi / 2 + Real.arctan (-1 / p) - Real.pi / 2 = Real.arctan (-1 / p) by ring]
  refine le_trans h1 ?_
  rw [abs_div, abs_neg, abs_one, abs_of_pos h0]
  exact one_div_le_one_div_of_le (by positivity) hp

theorem arg_pos {x y : ℝ} (hx : 0 < x) : Complex.arg ⟨x, y⟩ = Real.arctan (y / x) := by
  have h1 : |Complex.arg ⟨x, y⟩| < Real.pi / 2 := Complex.abs_arg_lt_pi_div_two_iff.mpr (Or.inl hx)
  have h2 := Complex.tan_arg ⟨x, y⟩
  obtain ⟨e1, e2⟩ := abs_lt.mp h1
  rw [← Real.arctan_tan e1 e2, h2]

theorem arg_neg {x y : ℝ} (hx : x < 0) (hy : y ≠ 0) :
    Complex.arg ⟨x, y⟩ = Real.arctan (y / x) + if y < 0 then -Real.pi else Real.pi := by
  have hn : (-⟨x, y⟩ : ℂ) = ⟨-x, -y⟩ := rfl
  have hq := arg_pos (x := -x) (y := -y) (by linarith)
  rw [neg_div_neg_eq, ← hn] at hq
  rcases lt_or_gt_of_ne hy with h | h
  · rw [Complex.arg_neg_eq_arg_add_pi_of_im_neg (by exact h)] at hq
    rw [if_pos h]; linarith
  · rw [Complex.arg_neg_eq_arg_sub_pi_of_im_pos (by exact h)] at hq
    rw [if_neg (by linarith)]; linarith

theorem arg_zero {y : ℝ} (hy : y ≠ 0) : Complex.arg ⟨0, y⟩ = if y < 0 then -(Real.pi / 2) else Real.pi / 2 := by
  rcases lt_or_gt_of_ne hy with h | h
  · rw [if_pos h]
    have := Complex.arg_eq_neg_pi_div_two_iff (z := ⟨0, y⟩)
    rw [this.mpr ⟨rfl, h⟩]
  · rw [if_neg (by linarith)]
    exact (Complex.arg_eq_pi_div_two_iff (z := ⟨0, y⟩)).mpr ⟨rfl, h⟩

end Vc.Lemma
