import Verif.Lemma.AsinSerD
import Verif.Lemma.AsinF
import Verif.Lemma.AtanD

/-!
The precision of `asin` of double.
-/

namespace Vc.Lemma
open Vc.Model Vc.Spec

/-- `asin` of double, split by the size of the argument. -/
theorem asD_eq (B : CmpBuild) {a : BitVec 64} (hf : isFinite f64 a = true) : asD B a =
    if 5 / 8 < rval f64 a then
      fAdd f64 (fSub f64 (fSub f64 0x3fe921fb54442d18#64 (fSqrt f64 (fAdd f64 (fSub f64 0x3ff0000000000000#64 a) (fSub f64 0x3ff0000000000000#64 a))))
        (fSub f64 (fMul f64 (fSqrt f64 (fAdd f64 (fSub f64 0x3ff0000000000000#64 a) (fSub f64 0x3ff0000000000000#64 a)))
          (asFrL (fSub f64 0x3ff0000000000000#64 a))) 0x3c91a62633145c07#64)) 0x3fe921fb54442d18#64
    else fAdd f64 (fMul f64 a (asFrS (fMul f64 a a))) a := by
  have h1 := gtL_real B hf asD_big.1
  rw [asD_big.2] at h1
  unfold asD
  simp only [sArc, sArith, horner, List.foldl, id, h1]
  by_cases c : 5 / 8 < rval f64 a
  · rw [if_pos c]
    simp only [decide_eq_true c, Bool.not_true, Bool.false_eq_true, if_false, asFrL]
  · rw [if_neg c]
    simp only [decide_eq_false c, Bool.not_false, if_true, asFrS]

/-- Arguments up to 5/8. -/
theorem asD_small_err (B : CmpBuild) {a : BitVec 64} (hf : isFinite f64 a = true) (h0 : 1 / 2 ^ 27 ≤ rval f64 a) (h1 : rval f64 a ≤ 5 / 8) :
    WithinUlps f64 8 (Real.arcsin (rval f64 a)) (asD B a) := by
  have hu := uRel64
  have ha0 : 0 < rval f64 a := lt_of_lt_of_le (by norm_num) h0
  have hA := Real.arcsin_nonneg.mpr ha0.le
  have hl := le_arcsin ha0.le (by linarith)
  rw [asD_eq B hf, if_neg (by linarith)]
  have hz1 : rval f64 a * rval f64 a ≤ 25 / 64 := by nlinarith
  have ap := asDS_real ha0.le hz1
  have ax : Apx f64 a (rval f64 a) 0 (5 / 8) := Apx.exact hf (by rw [abs_of_pos ha0]; exact h1)
  have az := ax.mul ax .double (-1) (by decide) (R := 25 / 64) (by rw [abs_mul_self]; exact hz1) (by norm_num) (d := 1 / 36028797018963968) (by norm_num [f64])
  obtain ⟨fv, ev⟩ := asin_tail .double (asFrS_apx az (mul_self_nonneg _) hz1) hf (by norm_num at h0 ⊢; linarith) (by linarith) (by norm_num)
    (by rw [hu]; norm_num) rfl (.inr rfl)
  refine within_of_rel (c := 7.6) (d := 0) fv (by norm_num) (by norm_num) ?_ (by norm_num)
  simp only [zero_mul, ite_self, add_zero]
  rw [abs_of_nonneg hA]
  have := abs_sub_le (rval f64 (fAdd f64 (fMul f64 a (asFrS (fMul f64 a a))) a)) (rval f64 a * (1 + asRS (rval f64 a * rval f64 a))) (Real.arcsin (rval f64 a))
  rw [hu] at *
  norm_num at *
  nlinarith

/-- Arguments from 5/8 on. -/
theorem asD_large_err (B : CmpBuild) {a : BitVec 64} (hf : isFinite f64 a = true) (h0 : 5 / 8 < rval f64 a) (h1 : rval f64 a < 1) :
    WithinUlps f64 4 (Real.arcsin (rval f64 a)) (asD B a) := by
  have hu := uRel64
  have hA : 1 / 2 ≤ Real.arcsin (rval f64 a) := le_trans (by linarith) (le_arcsin (by linarith) h1.le)
  have ga0 := grid_of_le (F := f64) (x := a) (j := -1) (by decide) (by norm_num at h0 ⊢; linarith)
  have ga : OnGrid (-53) (rval f64 a) := ga0
  have g1 : OnGrid (-53) (1 - rval f64 a) := (grid_one (by decide)).sub ga
  have s1 := fSub_grid .double (g := -53) atD_one.1 hf (by rw [atD_one.2]; exact grid_one (by decide)) ga (by
    rw [atD_one.2, abs_of_pos (by linarith)]; exact le_trans (show 1 - rval f64 a ≤ 1 by linarith) (by norm_num [f64])) (by decide) (by decide)
  rw [atD_one.2] at s1
  have hz0 : 1 / 2 ^ 53 ≤ 1 - rval f64 a := by
    obtain ⟨k, hk⟩ := g1
    have : (0 : ℝ) < k := by
      have : (0 : ℝ) < k * 2 ^ (-53 : Int) := by rw [← hk]; linarith
      exact pos_of_mul_pos_left this (by positivity)
    have : (1 : ℝ) ≤ k := by exact_mod_cast this
    rw [hk]; norm_num; linarith
  rw [asD_eq B hf, if_pos h0]
  have red := arcsin_half (a := rval f64 a) (by linarith) h1.le
  generalize fSub f64 0x3ff0000000000000#64 a = z at *
  obtain ⟨fz, ez⟩ := s1
  obtain ⟨fd, ed⟩ := fAdd_dbl .double fz (by rw [ez]; refine le_trans (by norm_num) hz0) (by linarith)
  rw [ez] at ed
  have hZ1 : 1 - rval f64 a ≤ 3 / 8 := by linarith
  have az : Apx f64 z (1 - rval f64 a) 0 (3 / 8) := by
    have := Apx.exact (F := f64) (P := 3 / 8) fz (by rw [ez, abs_of_pos (by linarith)]; exact hZ1)
    rwa [ez] at this
  have af := asFrL_apx az (by linarith) hZ1
  have hF := asRL_le (z := 1 - rval f64 a) (by linarith) hZ1
  generalize 1 - rval f64 a = Z at *
  have et : Real.sqrt (2 * Z) = 2 * Real.sqrt (Z / 2) := by
    rw [show 2 * Z = 2 ^ 2 * (Z / 2) by ring, Real.sqrt_mul (by norm_num), Real.sqrt_sq (by norm_num)]
  have ht0 := Real.sqrt_nonneg (Z / 2)
  have htt : Real.sqrt (Z / 2) * Real.sqrt (Z / 2) = Z / 2 := Real.mul_self_sqrt (by linarith [show (0 : ℝ) < 1 / 2 ^ 53 by norm_num])
  have hq : Real.sqrt (2 * Z) ≤ 0.8661 := by
    rw [Real.sqrt_le_left (by norm_num)]; norm_num; linarith
  have hq0 := Real.sqrt_nonneg (2 * Z)
  obtain ⟨fs, es⟩ := fSqrt_err .double (k := 0) (by decide) fd (by rw [ed]; have : (0 : ℝ) < 1 / 2 ^ 53 := by norm_num
                                                                   linarith) (by
    rw [ed]
    have : (1 : ℝ) / 2 ^ oneExp f64 ≤ 1 / 2 ^ 100 := one_div_le_one_div_of_le (by positivity) (pow_le_pow_right₀ (by norm_num) (by decide))
    refine le_trans hq (le_trans (by norm_num) (sub_le_sub_left this _)))
  rw [ed] at es
  have ap := asDL_real ht0 (by rw [htt]; linarith)
  rw [htt, show 2 * (Z / 2) = Z by ring] at ap
  have as : Apx f64 (fSqrt f64 (fAdd f64 z z)) (Real.sqrt (2 * Z)) (0.501 * uRel f64) 0.8661 := by
    refine ⟨fs, le_trans es ?_, by rw [abs_of_nonneg hq0]; exact hq⟩
    rw [hu]
    refine le_trans (add_le_add (b := 1 / 2 ^ 54) (d := 1 / 2 ^ 100) (by norm_num [f64]) ?_) (by norm_num)
    exact one_div_le_one_div_of_le (by positivity) (pow_le_pow_right₀ (by norm_num) (by decide))
  rw [hu] at as af
  generalize fSqrt f64 (fAdd f64 z z) = s at *
  generalize asFrL z = f at *
  generalize Real.sqrt (2 * Z) = q at *
  have kc : Apx f64 _ _ 0 0.7854 := Apx.const asD_c4 (by norm_num [abs_le])
  have km : Apx f64 _ _ 0 (1 / 2 ^ 53) := Apx.const asD_mb (by norm_num [abs_le])
  have m1 := as.mul af .double (-4) (by decide) (R := 0.0338) (by rw [abs_mul]; exact le_trans (mul_le_mul as.bnd af.bnd (abs_nonneg _) (by norm_num)) (by norm_num)) (by norm_num) (d := 0.25 / 9007199254740992) (by norm_num [f64])
  have m2 := m1.sub km .double (-4) (by decide) (R := 0.0339) (le_trans (abs_sub _ _) (le_trans (add_le_add m1.bnd km.bnd) (by norm_num))) (by norm_num) (d := 0.29 / 9007199254740992) (by norm_num [f64])
  have m3 := kc.sub as .double 0 (by decide) (R := 0.7854) (by rw [abs_le]; constructor <;> norm_num at hq ⊢ <;> linarith) (by norm_num) (d := 1.01 / 9007199254740992) (by norm_num [f64])
  have m4 := m3.sub m2 .double 0 (by decide) (R := 0.83) (le_trans (abs_sub _ _) (le_trans (add_le_add m3.bnd m2.bnd) (by norm_num))) (by norm_num) (d := 1.81 / 9007199254740992) (by norm_num [f64])
  have m5 := m4.add kc .double 1 (by decide) (R := 1.62) (le_trans (abs_add_le _ _) (le_trans (add_le_add m4.bnd kc.bnd) (by norm_num))) (by norm_num) (d := 2.82 / 9007199254740992) (by norm_num [f64])
  refine within_of_abs (c := 3.5) m5.fin (by rw [abs_of_nonneg (by linarith)]; exact hA) (by norm_num) ?_ (by norm_num)
  have e5 := m5.err
  clear m1 m2 m3 m4 m5 kc km as af
  have hpi1 := pi_gt_d50
  have hpi2 := pi_lt_d50
  have hup : Real.arcsin (Real.sqrt (Z / 2)) ≤ 0.46 := by
    have := arcsin_upper ht0 (by linarith)
    norm_num at *; linarith
  rw [red]
  subst et
  generalize Real.arcsin (Real.sqrt (Z / 2)) = A at *
  generalize Real.sqrt (Z / 2) = t at *
  generalize asRL Z = R at *
  generalize rval f64 _ = r at *
  rw [hu] at ap ⊢
  rw [abs_le] at *
  norm_num at hpi1 hpi2 hup e5 ap ⊢
  constructor <;> nlinarith
end Vc.Lemma
