import Verif.Lemma.ExpF2

/-!
The result of `exp` of float.
-/

namespace Vc.Lemma
open Vc.Model Vc.Spec

attribute [local irreducible] LdexpR

/-- No number of the format lies between a positive pattern and the next one. -/
theorem next_rval {F : Fmt} {w : Nat} {x a b : BitVec w} (hb : fmag F b = fmag F a + 1) (ha : fneg F a = false)
    (hbn : fneg F b = false) (h : rval F a < rval F x) : rval F b ≤ rval F x := by
  rw [rval_lt] at h
  rw [rval_le]
  by_contra hc
  rw [not_le] at hc
  unfold fval at h hc
  rw [ha] at h
  rw [hbn] at hc
  simp only [Bool.false_eq_true, if_false] at h hc
  cases hx : fneg F x
  · rw [hx] at h hc
    simp only [Bool.false_eq_true, if_false] at h hc
    have h1 := (magVal_lt_iff F).mp (by exact_mod_cast h : magVal F (fmag F a) < magVal F (fmag F x))
    have h2 := (magVal_lt_iff F).mp (by exact_mod_cast hc : magVal F (fmag F x) < magVal F (fmag F b))
    omega
  · rw [hx] at h
    simp only [if_true] at h
    omega

theorem gtL_real (B : CmpBuild) {F : Fmt} {w : Nat} {x y : BitVec w} (hx : isFinite F x = true) (hy : isFinite F y = true) :
    gtL B F x y = decide (rval F y < rval F x) := by
  cases B
  · exact fLt_real hy hx
  · exact fLt_real hy hx
  · unfold gtL
    rw [fLe_real hx hy, ← decide_not, decide_eq_decide]
    exact not_le

theorem expF_maxlog2 : isFinite f32 0x42b17218#32 = true ∧ rval f32 0x42b17218#32 = 1453635 / 16384 := by
  refine ⟨by decide, rval_lit false 133 3240472 (-17) (by decide) (by decide) (by decide) (by decide) (by decide) ?_⟩
  norm_num [f32]

theorem maxlogf_real : isFinite f32 maxlogf = true ∧ rval f32 maxlogf = 11629079 / 131072 := expF_maxlog
theorem minlogf_real : isFinite f32 minlogf = true ∧ rval f32 minlogf = -(11538227 / 131072) := expF_minlog

/-- Beyond the threshold the exponential is beyond the format. -/
theorem expF_over {x : BitVec 32} (h : rval f32 maxlogf < rval f32 x) : 128 * Real.log 2 < rval f32 x := by
  have h1 := next_rval (F := f32) (b := 0x42b17218#32) (by decide) (by decide) (by decide) h
  rw [expF_maxlog2.2] at h1
  have := log2_lt
  norm_num at *
  linarith

theorem exp_lt_zpow {X : ℝ} {k : Int} : Real.exp X < 2 ^ k ↔ X < k * Real.log 2 := by
  rw [← Real.log_zpow, Real.lt_log_iff_exp_lt (by positivity)]

theorem zpow_le_exp {X : ℝ} {k : Int} : 2 ^ k ≤ Real.exp X ↔ k * Real.log 2 ≤ X := by
  rw [← Real.log_zpow, Real.log_le_iff_le_exp (by positivity)]

theorem cvtt_int {F : Fmt} {w : Nat} {z : BitVec w} {n : Int} (hz : isFinite F z = true)
    (h : fval F z = n * 2 ^ oneExp F) (h1 : -2147483648 ≤ n) (h2 : n < 2147483648) : (cvttF2I F z).toInt = n := by
  refine cvtt_conv hz ?_ h1 h2
  rw [h]
  have hp : (0 : Int) < 2 ^ oneExp F := by positivity
  generalize (2 : Int) ^ oneExp F = p at *
  exact ⟨fun _ => ⟨le_refl _, by rw [add_mul]; omega⟩, fun _ => ⟨le_refl _, by rw [sub_mul]; omega⟩⟩

theorem roundsFloor_real {F : Fmt} {w : Nat} {x z : BitVec w} (h : RoundsTo F IsFloor x z) (hx : isFinite F x = true) :
    ∃ n : Int, isFinite F z = true ∧ fval F z = n * 2 ^ oneExp F ∧ (n : ℝ) ≤ rval F x ∧ rval F x < n + 1 := by
  obtain ⟨zf, n, zv, zn⟩ := h.1 hx
  exact ⟨n, zf, zv, floor_real zn⟩

/-- The case in which the result is scaled by `ldexp`. -/
theorem expF_scaled {B : CmpBuild} {x r : BitVec 32} (h : ExpLaneF B x r) (hx : isFinite f32 x = true)
    (h1 : rval f32 minlogf ≤ rval f32 x) (h2 : rval f32 x ≤ rval f32 maxlogf) :
    ∃ (n : Int) (z : BitVec 32), LdexpR f32 z n r ∧ |n| ≤ 128 ∧ isFinite f32 z = true ∧
      |rval f32 x - n * Real.log 2| ≤ 0.346589 ∧
      |rval f32 z - Real.exp (rval f32 x - n * Real.log 2)| ≤ 1 / 2 ^ 22 * Real.exp (rval f32 x - n * Real.log 2) := by
  have hmax := maxlogf_real
  have hmin := minlogf_real
  have hX : |rval f32 x| ≤ 88.8 := by
    clear h hx
    rw [hmax.2] at h2; rw [hmin.2] at h1
    rw [abs_le]; constructor
    · norm_num; linarith
    · norm_num; linarith
  obtain ⟨z, t, hz, ht, hr⟩ := h
  rw [fLt_real hx hmin.1, gtL_real B hx hmax.1, decide_eq_false (not_lt.mpr h1), decide_eq_false (not_lt.mpr h2)] at hr
  simp only [Bool.false_eq_true, if_false] at hr
  subst hr
  obtain ⟨n, zf, zv, f1, f2⟩ := roundsFloor_real hz (expArgL_apx hx hX).1
  obtain ⟨hn, hr, pf, pe⟩ := expF_mantissa hx hX zf (rval_int zv) f1 f2
  have hn' := abs_le.mp hn
  have hcv := cvtt_int zf zv (le_trans (by decide) hn'.1) (lt_of_le_of_lt hn'.2 (by decide))
  rw [hcv] at ht
  exact ⟨n, expPolyL (expRedL x z), ht, hn, pf, hr, pe⟩

theorem rval_nonneg_sign {F : Fmt} {w : Nat} {z : BitVec w} (hp : 0 < rval F z) : fneg F z = false := by
  by_contra hc
  have hc : fneg F z = true := by simpa using hc
  have := rval_sign (F := F) z
  rw [hc] at this
  simp only [if_true] at this
  have h0 : (0 : ℝ) ≤ ((fval F z).natAbs : ℝ) / 2 ^ oneExp F := by positivity
  rw [neg_one_mul, neg_div] at this
  linarith

theorem zpow_neg1 : (2 : ℝ) ^ (-1 : Int) = 1 / 2 := by norm_num

/-- The field of the mantissa. -/
theorem mant_field {F : Fmt} {w : Nat} (h : FmtW F w) {z : BitVec w} (h1 : 0.7 ≤ rval F z) (h2 : rval F z < 2) :
    (rval F z < 1 → ((fmag F z / 2 ^ F.m : Nat) : Int) = bias F - 1) ∧
    (1 ≤ rval F z → ((fmag F z / 2 ^ F.m : Nat) : Int) = bias F) ∧ isNormal F z = true ∧ fneg F z = false := by
  have hp : (0 : ℝ) < rval F z := by norm_num at h1; linarith
  have ha : |rval F z| = rval F z := abs_of_pos hp
  have hb : 2 ≤ (bias F : Int) ∧ (bias F : Int) + 1 < 2 ^ F.e := by cases h <;> decide
  rcases lt_or_ge (rval F z) 1 with hlt | hge
  · have := field_of_range (F := F) (x := z) h (j := -1) (by omega) (by omega)
      (by rw [ha, zpow_neg1]; norm_num at h1; linarith) (by rw [ha]; norm_num; exact hlt)
    exact ⟨fun _ => by rw [this.1]; ring, fun hc => absurd hlt (not_lt.mpr hc), this.2, rval_nonneg_sign hp⟩
  · have := field_of_range (F := F) (x := z) h (j := 0) (by omega) (by omega) (by rw [ha]; norm_num; exact hge)
      (by rw [ha]; norm_num; exact h2)
    exact ⟨fun hc => absurd hc (not_lt.mpr hge), fun _ => by rw [this.1]; ring, this.2, rval_nonneg_sign hp⟩

theorem normal_finite {F : Fmt} {w : Nat} {x : BitVec w} (h : isNormal F x = true) : isFinite F x = true := by
  unfold isNormal at h
  unfold isFinite
  rw [Bool.and_eq_true] at h
  exact h.2

/-- `ldexp` of the mantissa where the result is a normal number. -/
theorem mant_scale {F : Fmt} {w : Nat} (h : FmtW F w) {z r : BitVec w} {n : Int} (hr : LdexpR F z n r)
    (h1 : 0.7 ≤ rval F z) (h2 : rval F z < 2)
    (hlo : 2 - (bias F : Int) ≤ n ∨ n = 1 - (bias F : Int) ∧ 1 ≤ rval F z)
    (hhi : n ≤ bias F ∨ n = bias F + 1 ∧ rval F z < 1) :
    isFinite F r = true ∧ fneg F r = false ∧ rval F r = rval F z * 2 ^ n := by
  obtain ⟨f1, f2, hn, hs⟩ := mant_field h h1 h2
  have hb : ((2 ^ F.e - 2 : Nat) : Int) = 2 * bias F := by cases h <;> decide
  have hc : 1 ≤ ((fmag F z / 2 ^ F.m : Nat) : Int) + n ∧ ((fmag F z / 2 ^ F.m : Nat) : Int) + n ≤ 2 * bias F := by
    rcases lt_or_ge (rval F z) 1 with hl | hg
    · rw [f1 hl]
      rcases hlo with a | ⟨a, b⟩
      · rcases hhi with c | ⟨c, d⟩ <;> omega
      · exact absurd hl (not_lt.mpr b)
    · rw [f2 hg]
      rcases hhi with c | ⟨c, d⟩
      · rcases hlo with a | ⟨a, b⟩ <;> omega
      · exact absurd d (not_lt.mpr hg)
  obtain ⟨rn, rs⟩ := ldexpR_spec h hr hn hc.1 (by rw [hb]; exact hc.2)
  exact ⟨normal_finite rn, rs.1.trans hs, scaled_real rs⟩

/-- `ldexp` of the mantissa where the result has no exponent field. -/
theorem mant_under {F : Fmt} {w : Nat} (h : FmtW F w) {z r : BitVec w} {n : Int} (hr : LdexpR F z n r)
    (h1 : 0.7 ≤ rval F z) (h2 : rval F z < 2)
    (hn : n = 1 - (bias F : Int) ∧ rval F z < 1 ∨ n = -(bias F : Int) ∧ 1 ≤ rval F z) :
    isFinite F r = true ∧ fneg F r = false ∧ rval F r ≤ 2 ^ (1 - (bias F : Int)) := by
  obtain ⟨f1, f2, hN, hs⟩ := mant_field h h1 h2
  have hc : ((fmag F z / 2 ^ F.m : Nat) : Int) + n = 0 := by
    rcases hn with ⟨a, b⟩ | ⟨a, b⟩
    · rw [f1 b]; omega
    · rw [f2 b]; omega
  have hp := pow_pos2 F.m
  have hm := Nat.mod_lt (fmag F z) hp
  have hdm := Nat.div_add_mod (fmag F z) (2 ^ F.m)
  have h0 : fmag F z ≠ 0 := by
    have := (normal_iff h z).mp hN
    intro e
    rw [e, Nat.zero_div] at this
    omega
  have hk : ((fmag F z % 2 ^ F.m : Nat) : Int) = fmag F z + n * 2 ^ F.m := by
    have hn' : n = -((fmag F z / 2 ^ F.m : Nat) : Int) := by omega
    rw [hn']
    have : ((2 ^ F.m : Nat) : Int) * ((fmag F z / 2 ^ F.m : Nat) : Int) + ((fmag F z % 2 ^ F.m : Nat) : Int) = fmag F z := by
      exact_mod_cast hdm
    rw [← this, pow_cast]
    ring
  have hlt : fmag F z % 2 ^ F.m < 2 ^ (F.e + F.m) := lt_of_lt_of_le hm (Nat.pow_le_pow_right (by decide) (by omega))
  have e := ldexpR_mk h hr h0 hk hlt
  have hmk := fneg_mk F h.lt (fneg F z) hlt
  have hfin : infMag F > 2 ^ F.m := by cases h <;> decide
  rw [e]
  refine ⟨?_, hmk.1.trans hs, ?_⟩
  · unfold isFinite
    rw [hmk.2]
    exact decide_eq_true (by omega)
  · unfold rval fval
    rw [hmk.1, hmk.2, hs]
    simp only [Bool.false_eq_true, if_false]
    have : magVal F (fmag F z % 2 ^ F.m) ≤ 2 ^ F.m := by
      unfold magVal
      rw [Nat.div_eq_of_lt hm]
      simp
      omega
    rw [div_le_iff₀ (one_pos F)]
    have e2 : (2 : ℝ) ^ (1 - (bias F : Int)) * 2 ^ oneExp F = 2 ^ F.m := by
      have : (oneExp F : Int) = F.m + bias F - 1 := by cases h <;> decide
      rw [← zpow_natCast, ← zpow_natCast, this, ← zpow_add₀ (by norm_num)]
      congr 1; ring
    rw [e2]
    exact_mod_cast this

end Vc.Lemma
