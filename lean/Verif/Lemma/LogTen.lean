import Verif.Lemma.LogAccD

/-!
`log10` of float: 3.2 units in the last place, of double: 3.5.
-/

namespace Vc.Lemma
open Vc.Model Vc.Spec

section
variable {F : Fmt} {w : Nat} {r c x e X : BitVec w} {L k K α : ℝ} {E : Int}

theorem log10_tight : (2.30258 : ℝ) ≤ Real.log 10 ∧ Real.log 10 ≤ 2.3026 := by
  have := abs_le.mp log10_near
  norm_num at *
  constructor <;> linarith [this.1, this.2]

/-- The result of `log`, multiplied by the constant. -/
theorem within_log10 (h : FmtW F w) (hr : WithinUlps F k L r) (hL : L = 0 ∨ (2 : ℝ) ^ (-60 : Int) ≤ |L|) (hL2 : |L| ≤ 2000)
    (hcf : isFinite F c = true) (hc : |rval F c * Real.log 10 - 1| ≤ α * uRel F) (hα0 : 0 ≤ α) (hα1 : α ≤ 1) (hk0 : 0 ≤ k) (hk1 : k ≤ 1.5)
    (hK : 1.7373 * k + α + 1 ≤ K) : WithinUlps F K (L / Real.log 10) (fMul F r c) := by
  obtain ⟨t1, t2⟩ := log10_tight
  have lp : 0 < Real.log 10 := by norm_num at t1; linarith
  have hm : uRel F ≤ 1 / 10 ^ 7 := by unfold uRel; cases h <;> norm_num [f32, f64]
  have hu := uRel_pos F
  have hκ : |rval F c| ≤ 0.43431 := by
    have a1 : α * uRel F ≤ 1 * (1 / 10 ^ 7) := mul_le_mul hα1 hm hu.le (by norm_num)
    have a2 : |rval F c * Real.log 10| ≤ 1.0000001 := by
      have := abs_add_le (rval F c * Real.log 10 - 1) 1
      rw [sub_add_cancel, abs_one] at this
      norm_num at *; linarith
    rw [abs_mul, abs_of_pos lp] at a2
    have := mul_le_mul_of_nonneg_left t1 (abs_nonneg (rval F c))
    norm_num at *; linarith
  rcases hL with h0 | hL
  · subst h0
    have hz := hr.2.1 rfl
    have hp : rval F r * rval F c = 0 := by rw [hz, zero_mul]
    obtain ⟨f1, f2⟩ := fMul_rel h (k := 0) (by unfold KRange; cases h <;> decide) hr.1 hcf (by rw [hp]; norm_num)
    unfold RelErr at f2
    rw [hp, if_pos rfl, sub_zero, abs_zero, mul_zero, add_zero] at f2
    refine ⟨f1, fun _ => abs_eq_zero.mp (le_antisymm f2 (abs_nonneg _)), fun e' h1 _ => ?_⟩
    rw [zero_div, abs_zero] at h1
    exact absurd h1 (not_le.mpr (by positivity))
  have hLp : 0 < |L| := lt_of_lt_of_le (by positivity) hL
  have hvd : |L / Real.log 10| = |L| / Real.log 10 := by rw [abs_div, abs_of_pos lp]
  have hp : 0 < |L / Real.log 10| := by rw [hvd]; positivity
  obtain ⟨n, hn1, hn2⟩ := exists_mem_Ico_zpow hp (by norm_num : (1 : ℝ) < 2)
  obtain ⟨j, hj1, hj2⟩ := exists_mem_Ico_zpow hLp (by norm_num : (1 : ℝ) < 2)
  have hLv : |L| = |L / Real.log 10| * Real.log 10 := by rw [hvd]; field_simp
  have hnp : (0 : ℝ) < 2 ^ n := by positivity
  have hnn : (2 : ℝ) ^ (n + 1) = 2 * 2 ^ n := by rw [zpow_add₀ (by norm_num), zpow_one]; ring
  have hnn2 : (2 : ℝ) ^ (n + 2) = 4 * 2 ^ n := by rw [zpow_add₀ (by norm_num)]; norm_num; ring
  have hnn3 : (2 : ℝ) ^ (n + 3) = 8 * 2 ^ n := by rw [zpow_add₀ (by norm_num)]; norm_num; ring
  have hjn : j < n + 3 := by
    refine (zpow_lt_zpow_iff_right₀ (by norm_num : (1 : ℝ) < 2)).mp (lt_of_le_of_lt hj1 ?_)
    rw [hLv, hnn3]
    rw [hnn] at hn2
    have := mul_le_mul hn2.le t2 lp.le (by positivity)
    norm_num at this ⊢
    linarith
  have hj60 : -60 < j + 1 := (zpow_lt_zpow_iff_right₀ (by norm_num : (1 : ℝ) < 2)).mp (lt_of_le_of_lt hL hj2)
  have n2 : n < 11 := by
    refine (zpow_lt_zpow_iff_right₀ (by norm_num : (1 : ℝ) < 2)).mp (lt_of_le_of_lt hn1 ?_)
    rw [hvd, div_lt_iff₀ lp]
    norm_num at *; linarith
  have hmx : max (j - (F.m : Int)) (-(oneExp F : Int)) = j - F.m := by
    refine max_eq_left ?_
    cases h <;> simp only [oneExp, bias, f32, f64] <;> norm_num <;> omega
  have he := hr.2.2 j hj1 hj2
  rw [hmx] at he
  have hpn : (0 : ℝ) < 2 ^ (n - F.m) := by positivity
  have hjm : (2 : ℝ) ^ (j - F.m) ≤ 4 * 2 ^ (n - F.m) := by
    rw [show (4 : ℝ) * 2 ^ (n - (F.m : Int)) = 2 ^ (n - (F.m : Int) + 2) by rw [zpow_add₀ (by norm_num)]; norm_num; ring]
    exact zpow_le_zpow_right₀ (by norm_num) (by omega)
  have e1 : |rval F c * (rval F r - L)| ≤ 1.7373 * k * 2 ^ (n - F.m) := by
    rw [abs_mul]
    have := mul_le_mul hκ (le_trans he (mul_le_mul_of_nonneg_left hjm hk0)) (abs_nonneg _) (by norm_num)
    have : 0 ≤ k * 2 ^ (n - F.m) := by positivity
    norm_num at *; linarith
  have hun : uRel F * 2 ^ (n + 1) = 2 ^ (n - F.m) := by
    unfold uRel
    rw [← zpow_add₀ (by norm_num)]
    congr 1; ring
  have e2 : |L / Real.log 10 * (rval F c * Real.log 10 - 1)| ≤ α * 2 ^ (n - F.m) := by
    rw [abs_mul, ← hun]
    have := mul_le_mul hn2.le hc (abs_nonneg _) (by positivity)
    linarith
  have hd : |rval F r * rval F c - L / Real.log 10| ≤ (1.7373 * k + α) * 2 ^ (n - F.m) := by
    rw [show rval F r * rval F c - L / Real.log 10 = rval F c * (rval F r - L) + L / Real.log 10 * (rval F c * Real.log 10 - 1) by field_simp; ring]
    have := abs_add_le (rval F c * (rval F r - L)) (L / Real.log 10 * (rval F c * Real.log 10 - 1))
    linarith
  have hkr : KRange F (n + 2) := by
    unfold KRange
    cases h <;> simp only [oneExp, bias, f32, f64] <;> norm_num <;> omega
  have hone : (2 : ℝ) ^ (n - F.m) ≤ 2 ^ n / 2 ^ 20 := by
    rw [zpow_sub₀ (by norm_num), zpow_natCast]
    refine div_le_div_of_nonneg_left (by positivity) (by positivity) ?_
    refine pow_le_pow_right₀ (by norm_num) ?_
    cases h <;> decide
  have hs : |rval F r * rval F c| ≤ 2 ^ (n + 2) := by
    have a1 := abs_add_le (rval F r * rval F c - L / Real.log 10) (L / Real.log 10)
    rw [sub_add_cancel] at a1
    have a2 : (1.7373 * k + α) * 2 ^ (n - F.m) ≤ 4 * 2 ^ (n - F.m) := mul_le_mul_of_nonneg_right (by norm_num at *; linarith) hpn.le
    norm_num at hone
    linarith
  obtain ⟨f1, f2⟩ := fMul_err h hkr hr.1 hcf hs
  rw [show n + 2 - (F.m : Int) - 2 = n - F.m by ring] at f2
  refine within_of_pow f1 (by norm_num at *; linarith) hn1 ?_
  have := abs_add_le (rval F (fMul F r c) - rval F r * rval F c) (rval F r * rval F c - L / Real.log 10)
  rw [sub_add_sub_cancel] at this
  have := mul_le_mul_of_nonneg_right hK hpn.le
  linarith

theorem log_ge (h : FmtW F w) (hr : LogRedR F X x e E) : Real.log (rval F X) = 0 ∨ (2 : ℝ) ^ (-60 : Int) ≤ |Real.log (rval F X)| := by
  rw [log_value hr]
  by_cases hE : E = 0
  · rw [hE, Int.cast_zero, zero_mul, add_zero]
    by_cases hx : rval F x = 0
    · left; rw [hx]; simp
    · right
      have hlo : 0.8284 * |rval F x| ≤ |Real.log (1 + rval F x)| := by
        by_cases hs : 0 ≤ rval F x
        · exact log_pos_lo hs hr.hi
        · have := log_neg_lo (le_of_not_ge hs) hr.lo
          norm_num at *; linarith [abs_nonneg (rval F x)]
      have hg : (2 : ℝ) ^ (-59 : Int) ≤ |rval F x| := by
        obtain ⟨k, hk⟩ := hr.grid
        have hk0 : k ≠ 0 := by rintro rfl; apply hx; rw [hk]; simp
        rw [hk, abs_mul, abs_of_pos (show (0 : ℝ) < 2 ^ (-((F.m : Int) + 1)) by positivity)]
        have : (2 : ℝ) ^ (-59 : Int) ≤ 2 ^ (-((F.m : Int) + 1)) := zpow_le_zpow_right₀ (by norm_num) (by cases h <;> decide)
        refine le_trans this (le_mul_of_one_le_left (by positivity) ?_)
        exact_mod_cast Int.one_le_abs hk0
      refine le_trans ?_ hlo
      norm_num at hg ⊢
      linarith
  · right
    have hE1 : (1 : ℝ) ≤ |(E : ℝ)| := by exact_mod_cast Int.one_le_abs hE
    have h1 := log_large (log_abs hr.lo hr.hi) hE1
    refine le_trans ?_ h1
    norm_num

end

theorem logF_ten : isFinite f32 logConstF.log10e = true ∧ |rval f32 logConstF.log10e * Real.log 10 - 1| ≤ 2 / 5 * uRel f32 := by
  refine ⟨by decide, ?_⟩
  rw [show rval f32 logConstF.log10e = 14572505 / 33554432 from logF_log10e.2]
  have := abs_le.mp log10_near
  unfold uRel
  rw [abs_le, show f32.m = 23 from rfl]
  norm_num at *
  constructor <;> linarith [this.1, this.2]

theorem logD_ten : isFinite f64 logConstD.log10e = true ∧ |rval f64 logConstD.log10e * Real.log 10 - 1| ≤ 1 / 4 * uRel f64 := by
  refine ⟨by decide, ?_⟩
  rw [show rval f64 logConstD.log10e = _ from logD_log10e.2]
  have := abs_le.mp log10_near
  unfold uRel
  rw [abs_le, show f64.m = 52 from rfl]
  norm_num at *
  constructor <;> linarith [this.1, this.2]

theorem logF_ulp10 {X x e : BitVec 32} {E : Int} (hr : LogRedR f32 X x e E) :
    WithinUlps f32 (16 / 5) (Real.log (rval f32 X) / Real.log 10) (logSeriesF (sArith f32 32) .ten x e) := by
  have h1 := logF_ulp hr
  rw [logSeriesF_eq] at h1 ⊢
  exact within_log10 .single h1 (log_ge .single hr) (by rw [log_value hr]; exact log_bound .single hr) logF_ten.1 logF_ten.2
    (by norm_num) (by norm_num) (by norm_num) (by norm_num) (by norm_num)

theorem logD_ulp10 {X x e : BitVec 64} {E : Int} (hr : LogRedR f64 X x e E) :
    WithinUlps f64 (7 / 2) (Real.log (rval f64 X) / Real.log 10) (logSeriesD (sArith f64 64) .ten x e) := by
  have h1 := logD_ulp hr
  rw [logSeriesD_eq] at h1 ⊢
  exact within_log10 .double h1 (log_ge .double hr) (by rw [log_value hr]; exact log_bound .double hr) logD_ten.1 logD_ten.2
    (by norm_num) (by norm_num) (by norm_num) (by norm_num) (by norm_num)

end Vc.Lemma
