import Verif.Lemma.RelApx

/-!
Rounding errors relative to the exact value, for expressions without cancellation.
-/

namespace Vc.Lemma
open Vc.Model Vc.Spec

/-- The pattern `t` is finite and its value is `p` up to `β` half units in the last place. -/
structure RB (F : Fmt) {w : Nat} (t : BitVec w) (p β : ℝ) : Prop where
  fin : isFinite F t = true
  err : |rval F t - p| ≤ β * uRel F * |p|

namespace RB
variable {F : Fmt} {w : Nat} {s t : BitVec w} {p q β γ δ S T : ℝ}

theorem exact (h : isFinite F t = true) : RB F t (rval F t) 0 := ⟨h, by simp⟩
theorem const (h : isFinite F t = true ∧ rval F t = q) : RB F t q 0 := ⟨h.1, by rw [h.2]; simp⟩

/-- Numbers that are not very small: the error of the smallest numbers does not matter. -/
theorem uAbs_small (h : FmtW F w) {v : ℝ} (hv : 1 / 2 ^ 60 ≤ |v|) : uAbs F ≤ uRel F / 2 ^ 21 * |v| := by
  have h1 : uAbs F ≤ uRel F / 2 ^ 21 * (1 / 2 ^ 60) := by
    unfold uAbs uRel
    rw [show (1 : ℝ) / 2 ^ 60 = 2 ^ (-60 : Int) by norm_num, div_eq_mul_inv, show ((2 : ℝ) ^ 21)⁻¹ = 2 ^ (-21 : Int) by norm_num,
      ← zpow_add₀ (by norm_num), ← zpow_add₀ (by norm_num)]
    refine zpow_le_zpow_right₀ (by norm_num) ?_
    cases h <;> decide
  have := uRel_pos F
  exact le_trans h1 (mul_le_mul_of_nonneg_left hv (by positivity))

/-- Rounding a value that is known up to an error. -/
theorem round (h : FmtW F w) {v r η : ℝ} (hη : 0 ≤ η) (hp : 1 / 2 ^ 60 ≤ |p|) (hv : |v - p| ≤ η * uRel F * |p|)
    (hr : RelErr F v r) (hδ : η + 1 + η / 2 ^ 24 + 1 / 2 ^ 20 ≤ δ) : |r - p| ≤ δ * uRel F * |p| := by
  have hu := uRel_pos F
  have hu1 := RApx.small_u h
  have h0 := abs_nonneg p
  have hv1 : |v| ≤ (1 + η * uRel F) * |p| := by
    have := abs_add_le (v - p) p
    rw [sub_add_cancel] at this
    linarith
  unfold RelErr at hr
  have h2 : (if v = 0 then 0 else uAbs F) ≤ uRel F / 2 ^ 21 * |p| := by
    split
    · positivity
    · exact uAbs_small h hp
  have h3 := abs_sub_le r v p
  have h4 := mul_le_mul_of_nonneg_left hv1 hu.le
  have h5 : η * uRel F ≤ η / 2 ^ 24 := by have := mul_le_mul_of_nonneg_left hu1 hη; linarith
  have h6 : η * uRel F * (uRel F * |p|) ≤ η / 2 ^ 24 * (uRel F * |p|) := mul_le_mul_of_nonneg_right h5 (by positivity)
  have h7 := mul_le_mul_of_nonneg_right hδ (show 0 ≤ uRel F * |p| by positivity)
  have h8 : 0 ≤ uRel F * |p| := by positivity
  nlinarith

theorem mul (hs : RB F s p β) (ht : RB F t q γ) (h : FmtW F w) (hβ : 0 ≤ β) (hγ : 0 ≤ γ) (h1 : β + γ + β * γ / 2 ^ 24 ≤ 1024)
    (hlo : 1 / 2 ^ 60 ≤ |p * q|) (hhi : |p * q| ≤ 2 ^ 18)
    (hδ : (β + γ + β * γ / 2 ^ 24) * (1 + 1 / 2 ^ 24) + 1 + 1 / 2 ^ 20 ≤ δ) : RB F (fMul F s t) (p * q) δ := by
  have hu := uRel_pos F
  have hu1 := RApx.small_u h
  have hη : 0 ≤ β + γ + β * γ / 2 ^ 24 := by positivity
  have hpq := mul_nonneg (abs_nonneg p) (abs_nonneg q)
  have hv : |rval F s * rval F t - p * q| ≤ (β + γ + β * γ / 2 ^ 24) * uRel F * |p * q| := by
    rw [show rval F s * rval F t - p * q = (rval F s - p) * q + p * (rval F t - q) + (rval F s - p) * (rval F t - q) by ring]
    refine le_trans (abs_add_three _ _ _) ?_
    rw [abs_mul, abs_mul, abs_mul, abs_mul]
    have a1 := mul_le_mul_of_nonneg_right hs.err (abs_nonneg q)
    have a2 := mul_le_mul_of_nonneg_left ht.err (abs_nonneg p)
    have a3 := mul_le_mul hs.err ht.err (abs_nonneg _) (by positivity)
    have a4 : β * uRel F * |p| * (γ * uRel F * |q|) ≤ β * γ / 2 ^ 24 * uRel F * (|p| * |q|) := by
      have := mul_le_mul_of_nonneg_left hu1 (show 0 ≤ β * γ * uRel F * (|p| * |q|) by positivity)
      linarith
    linarith
  have hη1 : (β + γ + β * γ / 2 ^ 24) * uRel F ≤ 1 / 4 := by
    have := mul_le_mul h1 hu1 hu.le (by norm_num)
    linarith
  have hb : |rval F s * rval F t| ≤ 2 ^ (20 : Int) := by
    have := abs_add_le (rval F s * rval F t - p * q) (p * q)
    rw [sub_add_cancel] at this
    have a5 := mul_le_mul_of_nonneg_right hη1 (abs_nonneg (p * q))
    rw [show (2 : ℝ) ^ (20 : Int) = 2 ^ 20 by norm_num]
    linarith
  have r := fMul_rel h (k := 20) (by cases h <;> decide) hs.fin ht.fin hb
  exact ⟨r.1, round h hη hlo hv r.2 (by linarith)⟩

theorem add (hs : RB F s p β) (ht : RB F t q γ) (h : FmtW F w) (hβ : 0 ≤ β) (hγ : 0 ≤ γ) (hS : |p| ≤ S * |p + q|)
    (hT : |q| ≤ T * |p + q|) (hS0 : 0 ≤ S) (hT0 : 0 ≤ T) (h1 : β * S + γ * T ≤ 1024)
    (hlo : 1 / 2 ^ 60 ≤ |p + q|) (hhi : |p + q| ≤ 2 ^ 18)
    (hδ : (β * S + γ * T) * (1 + 1 / 2 ^ 24) + 1 + 1 / 2 ^ 20 ≤ δ) : RB F (fAdd F s t) (p + q) δ := by
  have hu := uRel_pos F
  have hu1 := RApx.small_u h
  have hη : 0 ≤ β * S + γ * T := by positivity
  have hv : |rval F s + rval F t - (p + q)| ≤ (β * S + γ * T) * uRel F * |p + q| := by
    rw [show rval F s + rval F t - (p + q) = (rval F s - p) + (rval F t - q) by ring]
    refine le_trans (abs_add_le _ _) ?_
    have a1 := mul_le_mul_of_nonneg_left hS (show 0 ≤ β * uRel F by positivity)
    have a2 := mul_le_mul_of_nonneg_left hT (show 0 ≤ γ * uRel F by positivity)
    have := hs.err; have := ht.err
    linarith
  have hη1 : (β * S + γ * T) * uRel F ≤ 1 / 4 := by
    have := mul_le_mul h1 hu1 hu.le (by norm_num)
    linarith
  have hb : |rval F s + rval F t| ≤ 2 ^ (20 : Int) := by
    have := abs_add_le (rval F s + rval F t - (p + q)) (p + q)
    rw [sub_add_cancel] at this
    have a5 := mul_le_mul_of_nonneg_right hη1 (abs_nonneg (p + q))
    rw [show (2 : ℝ) ^ (20 : Int) = 2 ^ 20 by norm_num]
    linarith
  have r := fAdd_rel h (k := 20) (by cases h <;> decide) hs.fin ht.fin hb
  exact ⟨r.1, round h hη hlo hv r.2 (by linarith)⟩

theorem div (hs : RB F s p β) (ht : RB F t q γ) (h : FmtW F w) (hβ : 0 ≤ β) (hγ : 0 ≤ γ) (h1 : β ≤ 256) (h2 : γ ≤ 256)
    (hlo : 1 / 2 ^ 60 ≤ |p / q|) (hhi : |p / q| ≤ 2 ^ 18)
    (hδ : (β + γ) * (1 + 1 / 2 ^ 14) + 1 + 1 / 2 ^ 20 ≤ δ) : RB F (fDiv F s t) (p / q) δ := by
  have hu := uRel_pos F
  have hu1 := RApx.small_u h
  have hq : q ≠ 0 := by
    rintro rfl
    rw [div_zero, abs_zero] at hlo; norm_num at hlo
  have hq0 : 0 < |q| := abs_pos.mpr hq
  have hγu : γ * uRel F ≤ 1 / 2 ^ 16 := by
    have := mul_le_mul h2 hu1 hu.le (by norm_num)
    linarith
  have ht1 : (1 - 1 / 2 ^ 16) * |q| ≤ |rval F t| := by
    have a1 := abs_sub_abs_le_abs_sub q (rval F t)
    rw [abs_sub_comm] at a1
    have a2 := ht.err
    have a3 := mul_le_mul_of_nonneg_right hγu hq0.le
    linarith
  have ht0 : 0 < |rval F t| := lt_of_lt_of_le (by positivity) ht1
  have htne : rval F t ≠ 0 := abs_pos.mp ht0
  have hη : 0 ≤ (β + γ) * (1 + 1 / 2 ^ 15) := by positivity
  have hv : |rval F s / rval F t - p / q| ≤ (β + γ) * (1 + 1 / 2 ^ 15) * uRel F * |p / q| := by
    have e : rval F s / rval F t - p / q = ((rval F s - p) - p / q * (rval F t - q)) / rval F t := by field_simp; ring
    rw [e, abs_div, div_le_iff₀ ht0]
    have b1 : |(rval F s - p) - p / q * (rval F t - q)| ≤ (β + γ) * uRel F * |p| := by
      refine le_trans (abs_sub _ _) ?_
      rw [abs_mul, abs_div]
      have a1 := mul_le_mul_of_nonneg_left ht.err (show 0 ≤ |p| / |q| by positivity)
      have a2 : |p| / |q| * (γ * uRel F * |q|) = γ * uRel F * |p| := by field_simp
      have := hs.err
      linarith
    refine le_trans b1 ?_
    have b2 := mul_le_mul_of_nonneg_left ht1 (show 0 ≤ (β + γ) * (1 + 1 / 2 ^ 15) * uRel F * |p / q| by positivity)
    refine le_trans ?_ b2
    rw [abs_div]
    have b3 : (β + γ) * (1 + 1 / 2 ^ 15) * uRel F * (|p| / |q|) * ((1 - 1 / 2 ^ 16) * |q|) =
        (1 + 1 / 2 ^ 15) * (1 - 1 / 2 ^ 16) * ((β + γ) * uRel F * |p|) := by field_simp
    rw [b3]
    have : 0 ≤ (β + γ) * uRel F * |p| := by positivity
    nlinarith
  have hη1 : (β + γ) * (1 + 1 / 2 ^ 15) * uRel F ≤ 1 / 4 := by
    have := mul_le_mul (show (β + γ) * (1 + 1 / 2 ^ 15) ≤ 1024 by linarith) hu1 hu.le (by norm_num)
    linarith
  have hb : |rval F s / rval F t| ≤ 2 ^ (20 : Int) := by
    have := abs_add_le (rval F s / rval F t - p / q) (p / q)
    rw [sub_add_cancel] at this
    have a5 := mul_le_mul_of_nonneg_right hη1 (abs_nonneg (p / q))
    rw [show (2 : ℝ) ^ (20 : Int) = 2 ^ 20 by norm_num]
    linarith
  have r := fDiv_rel h (k := 20) (by cases h <;> decide) hs.fin ht.fin htne hb
  refine ⟨r.1, round h hη hlo hv r.2 ?_⟩
  have : 0 ≤ β + γ := by positivity
  linarith

end RB
end Vc.Lemma
