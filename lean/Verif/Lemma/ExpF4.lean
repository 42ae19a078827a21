import Verif.Lemma.ExpF3

/-!
The accuracy of `exp` of float.
-/

namespace Vc.Lemma
open Vc.Model Vc.Spec

attribute [local irreducible] LdexpR

/-- Bounds for the computed mantissa. -/
theorem mant_bounds {Z E ε : ℝ} (h1 : 0.70705 ≤ E) (h2 : E ≤ 1.41435) (hε : ε ≤ 1 / 2 ^ 20) (hz : |Z - E| ≤ ε * E) :
    0.7 ≤ Z ∧ Z < 2 := by
  have h3 : ε * E ≤ 1 / 2 ^ 20 * 1.41435 := by
    have : (0 : ℝ) ≤ E := by norm_num at h1; linarith
    calc ε * E ≤ 1 / 2 ^ 20 * E := mul_le_mul_of_nonneg_right hε this
      _ ≤ 1 / 2 ^ 20 * 1.41435 := mul_le_mul_of_nonneg_left h2 (by norm_num)
  have h4 := abs_le.mp hz
  norm_num at *
  constructor <;> linarith

theorem expF_main {B : CmpBuild} {x r : BitVec 32} (h : ExpLaneF B x r) (hx : isFinite f32 x = true)
    (hlo : 2 ^ (-126 : Int) * (1 + 1 / 2 ^ 20) ≤ Real.exp (rval f32 x)) (hhi : Real.exp (rval f32 x) < 2 ^ (128 : Int)) :
    isFinite f32 r = true ∧ |rval f32 r - Real.exp (rval f32 x)| ≤ 1 / 2 ^ 22 * Real.exp (rval f32 x) := by
  have l1 := log2_gt
  have l2 := log2_lt
  have hX1 : rval f32 x ≤ rval f32 maxlogf := by
    by_contra hc
    have := expF_over (not_le.mp hc)
    rw [exp_lt_zpow] at hhi
    push_cast at hhi
    linarith
  have hX2 : rval f32 minlogf ≤ rval f32 x := by
    have : (2 : ℝ) ^ (-126 : Int) ≤ Real.exp (rval f32 x) := by
      refine le_trans ?_ hlo
      have : (0 : ℝ) < 2 ^ (-126 : Int) := by positivity
      norm_num at this ⊢
    rw [zpow_le_exp] at this
    rw [minlogf_real.2]
    norm_num at l1 l2 this ⊢
    linarith
  obtain ⟨n, z, hr, hn, zf, hR, hz⟩ := expF_scaled h hx hX2 hX1
  have he := exp_add_log2 (rval f32 x) n
  obtain ⟨e1, e2⟩ := exp_range hR
  have hX3 := hX1
  rw [maxlogf_real.2] at hX3
  have hn128 : n = 128 → Real.exp (rval f32 x - n * Real.log 2) ≤ 1 - 1 / 2 ^ 18 := by
    intro hn
    rw [hn]
    have hd : rval f32 x - ((128 : Int) : ℝ) * Real.log 2 ≤ -(1 / 2 ^ 18 + 1 / 2 ^ 19) := by
      push_cast
      norm_num at l1 hX3 ⊢
      linarith
    refine le_trans (Real.exp_le_exp.mpr hd) ?_
    rw [Real.exp_neg]
    have h1 := Real.add_one_le_exp (1 / 2 ^ 18 + 1 / 2 ^ 19 : ℝ)
    refine le_trans (inv_anti₀ (by norm_num) h1) ?_
    norm_num
  generalize hE : Real.exp (rval f32 x - n * Real.log 2) = E at *
  obtain ⟨z1, z2⟩ := mant_bounds e1 e2 (by norm_num) hz
  have hz' := abs_le.mp hz
  have hb : (bias f32 : Int) = 127 := by decide
  have h2n : (0 : ℝ) < 2 ^ n := by positivity
  have hn' := abs_le.mp hn
  rw [he] at hlo
  have key : isFinite f32 r = true ∧ fneg f32 r = false ∧ rval f32 r = rval f32 z * 2 ^ n := by
    refine mant_scale .single hr z1 z2 ?_ ?_
    · rw [hb]
      rcases lt_or_ge n (-126) with hlt | hge
      · exfalso
        have : (2 : ℝ) ^ n ≤ 2 ^ (-127 : Int) := zpow_le_zpow_right₀ (by norm_num) (by omega)
        have h3 : E * 2 ^ n ≤ 1.41435 * 2 ^ (-127 : Int) := mul_le_mul e2 this (le_of_lt h2n) (by norm_num)
        have := le_trans hlo h3
        norm_num at this
      · rcases eq_or_lt_of_le hge with heq | hlt
        · right
          refine ⟨by omega, ?_⟩
          rw [← heq, mul_comm] at hlo
          have := le_of_mul_le_mul_right hlo (by positivity)
          norm_num at this hz' ⊢
          linarith
        · left; omega
    · rw [hb]
      rcases eq_or_lt_of_le hn'.2 with heq | hlt
      · right
        refine ⟨heq, ?_⟩
        have := hn128 heq
        norm_num at this hz' ⊢
        linarith
      · left; omega
  refine ⟨key.1, ?_⟩
  rw [key.2.2, he, ← sub_mul, abs_mul, abs_of_pos h2n, ← mul_assoc]
  exact mul_le_mul_of_nonneg_right hz (le_of_lt h2n)

/-- Small results. -/
theorem expF_small_main {B : CmpBuild} {x r : BitVec 32} (h : ExpLaneF B x r) (hx : isFinite f32 x = true)
    (hlo : Real.exp (rval f32 x) < 2 ^ (-126 : Int) * (1 + 1 / 2 ^ 20)) :
    isFinite f32 r = true ∧ fneg f32 r = false ∧ rval f32 r ≤ 2 ^ (-126 : Int) * (1 + 1 / 2 ^ 19) := by
  have l1 := log2_gt
  have l2 := log2_lt
  rcases lt_or_ge (rval f32 x) (rval f32 minlogf) with hlt | hX2
  · obtain ⟨z, t, hz, ht, hr⟩ := h
    rw [fLt_real hx minlogf_real.1, decide_eq_true hlt] at hr
    simp only [if_true] at hr
    rw [hr]
    refine ⟨by decide, by decide, ?_⟩
    have : rval f32 0#32 = 0 := by
      unfold rval
      have : fval f32 0#32 = 0 := by decide
      rw [this]; simp
    rw [this]
    positivity
  have hX1 : rval f32 x ≤ -86 := by
    have : Real.exp (rval f32 x) < 2 ^ (-125 : Int) := by
      refine lt_trans hlo ?_
      norm_num
    rw [exp_lt_zpow] at this
    by_contra hc
    norm_num at *
    linarith
  have hX3 : rval f32 x ≤ rval f32 maxlogf := by rw [maxlogf_real.2]; norm_num; linarith
  obtain ⟨n, z, hr, hn, zf, hR, hz⟩ := expF_scaled h hx hX2 hX3
  have he := exp_add_log2 (rval f32 x) n
  obtain ⟨e1, e2⟩ := exp_range hR
  rw [minlogf_real.2] at hX2
  have hge : -127 ≤ n := by
    by_contra hc
    have : (n : ℝ) ≤ -128 := by exact_mod_cast (by omega : n ≤ -128)
    have h3 : (n : ℝ) * Real.log 2 ≤ -128 * Real.log 2 := mul_le_mul_of_nonneg_right this (by norm_num at l1; linarith)
    have := (abs_le.mp hR).2
    norm_num at l1 hX2 this
    linarith
  have h127 : n = -127 → 1 + 1 / 2 ^ 18 ≤ Real.exp (rval f32 x - n * Real.log 2) := by
    intro hn
    rw [hn]
    have hd : 1 / 2 ^ 18 ≤ rval f32 x - ((-127 : Int) : ℝ) * Real.log 2 := by
      push_cast
      norm_num at l1 hX2 ⊢
      linarith
    refine le_trans ?_ (Real.exp_le_exp.mpr hd)
    have := Real.add_one_le_exp (1 / 2 ^ 18 : ℝ)
    linarith
  generalize hE : Real.exp (rval f32 x - n * Real.log 2) = E at *
  obtain ⟨z1, z2⟩ := mant_bounds e1 e2 (by norm_num) hz
  have hz' := abs_le.mp hz
  have hb : (bias f32 : Int) = 127 := by decide
  rw [he] at hlo
  have hle : n ≤ -126 := by
    by_contra hc
    have h1 : (2 : ℝ) ^ (-125 : Int) ≤ 2 ^ n := zpow_le_zpow_right₀ (by norm_num) (by omega)
    have h2 : 0.70705 * (2 : ℝ) ^ (-125 : Int) ≤ E * 2 ^ n := mul_le_mul e1 h1 (by positivity) (by norm_num at e1; linarith)
    have := lt_of_le_of_lt h2 hlo
    norm_num at this
  have hub : (2 : ℝ) ^ (1 - (bias f32 : Int)) ≤ 2 ^ (-126 : Int) * (1 + 1 / 2 ^ 19) := by
    rw [hb]; norm_num
  rcases eq_or_lt_of_le hle with heq | hlt
  · rcases lt_or_ge (rval f32 z) 1 with hl | hg
    · have := mant_under .single hr z1 z2 (Or.inl ⟨by omega, hl⟩)
      exact ⟨this.1, this.2.1, le_trans this.2.2 hub⟩
    · have := mant_scale .single hr z1 z2 (Or.inr ⟨by omega, hg⟩) (Or.inl (by omega))
      refine ⟨this.1, this.2.1, ?_⟩
      rw [this.2.2, heq, mul_comm]
      refine mul_le_mul_of_nonneg_left ?_ (by positivity)
      rw [heq, mul_comm] at hlo
      have := lt_of_mul_lt_mul_left hlo (by positivity)
      norm_num at this hz' ⊢
      linarith
  · have hn : n = -127 := by omega
    have := h127 hn
    have := mant_under .single hr z1 z2 (Or.inr ⟨by omega, by norm_num at this hz' ⊢; linarith⟩)
    exact ⟨this.1, this.2.1, le_trans this.2.2 hub⟩

/-- Large results. -/
theorem expF_large_main {B : CmpBuild} {x r : BitVec 32} (h : ExpLaneF B x r) (hx : isFinite f32 x = true)
    (hlo : 2 ^ (128 : Int) ≤ Real.exp (rval f32 x)) : r = 0x7f800000#32 := by
  have l1 := log2_gt
  rw [zpow_le_exp] at hlo
  push_cast at hlo
  have h1 : rval f32 maxlogf < rval f32 x := by
    rw [maxlogf_real.2]; norm_num at l1 ⊢; linarith
  have h2 : ¬rval f32 x < rval f32 minlogf := by
    rw [maxlogf_real.2] at h1
    rw [minlogf_real.2]; norm_num at h1 ⊢; linarith
  obtain ⟨z, t, hz, ht, hr⟩ := h
  rw [fLt_real hx minlogf_real.1, gtL_real B hx maxlogf_real.1, decide_eq_true h1, decide_eq_false h2] at hr
  simpa using hr

end Vc.Lemma
