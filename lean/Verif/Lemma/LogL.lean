import Verif.Lemma.LogD

/-!
`log` of one number.
-/

namespace Vc.Lemma
open Vc.Model Vc.Spec

section
variable {F : Fmt} {w : Nat} {K : LogConst w} {expo : BitVec w → BitVec w} {series : BitVec w → BitVec w → BitVec w}
  {x : BitVec w}

theorem logL_zero (h : FmtW F w) (h0 : fmag F x = 0) : logL F K expo series x = K.negInf := by
  unfold logL
  rw [fEq_zero h, decide_eq_true h0, if_pos rfl]

theorem fLt_zero_pos (hs : fneg F x = false) : fLt F x 0#w = false := by
  have hz : fmag F (0#w) = 0 := by unfold fmag; simp
  have hv : fval F (0#w) = 0 := fval_zero_of_mag hz
  unfold fLt
  rw [hv]
  have : ¬fval F x < 0 := by
    unfold fval; rw [hs]; simp
  rw [decide_eq_false this, Bool.and_false]

theorem logL_pos (h : FmtW F w) (hs : fneg F x = false) (h0 : fmag F x ≠ 0) : logL F K expo series x =
    series (logM2 F K (logM1 K (logX1 F K x))) (logE2 F K (logM1 K (logX1 F K x)) (logE1 F K expo x)) := by
  unfold logL
  rw [fEq_zero h, decide_eq_false h0, if_neg (by decide), fLt_zero_pos hs]
  unfold laneMask
  simp

theorem logL_neg (h : FmtW F w) (hs : fneg F x = true) (h0 : fmag F x ≠ 0) (hn : isNaN F x = false) :
    logL F K expo series x = BitVec.allOnes w := by
  have hz : fmag F (0#w) = 0 := by unfold fmag; simp
  have hv : fval F (0#w) = 0 := fval_zero_of_mag hz
  have hzn : isNaN F (0#w) = false := by unfold isNaN; rw [hz]; simp
  have hlt : fLt F x 0#w = true := by
    unfold fLt
    rw [hv, hn, hzn]
    have : fval F x < 0 := by
      have hp : 0 < magVal F (fmag F x) := by
        rcases Nat.eq_zero_or_pos (magVal F (fmag F x)) with hm | hm
        · exact absurd ((magVal_eq_zero F _).mp hm) h0
        · exact hm
      unfold fval; rw [hs]; simp only [if_true]; omega
    simp [this]
  unfold logL
  rw [fEq_zero h, decide_eq_false h0, if_neg (by decide), hlt]
  unfold laneMask
  simp

/-- The end of the series to the base 2 for a power of two. -/
theorem logEnd_2_exact {x2 y q e X m : BitVec w} {E : Int} {G β B θ Q κ ρ lam mu ls : ℝ} (hc : LogC F K ls)
    (hr : LogRedR F X m e E) (hp : LogPre F m y q G β B θ Q κ ρ lam mu) (hm : rval F m = 0) :
    isFinite F (logEnd (sArith F w) K .two m x2 y e) = true ∧ rval F (logEnd (sArith F w) K .two m x2 y e) = E := by
  have h := hc.fw
  have r0 : Repr F 0 := ⟨0, 0, by simp, by simp, by cases h <;> decide, by cases h <;> decide⟩
  have rE : Repr F (E : ℝ) := by
    have h1 : |E| ≤ 1074 := le_trans hr.small (by cases h <;> decide)
    refine ⟨E, 0, by simp, le_trans h1 (by cases h <;> decide), by cases h <;> decide, by cases h <;> decide⟩
  have hy : rval F y = 0 := by
    have h1 := hp.hy.err
    have h2 := hp.hy.bnd
    rw [hm, abs_zero, mul_zero] at h1 h2
    have := abs_nonpos_iff.mp h2
    rw [this, sub_zero] at h1
    exact abs_nonpos_iff.mp h1
  have xl := fMul_repr h hp.fin hc.log2e.1 r0 (by rw [hm, zero_mul])
  have yl := fMul_repr h hp.hy.fin hc.log2e.1 r0 (by rw [hy, zero_mul])
  have q1 := fMul_repr h hp.fin xl.1 r0 (by rw [hm, zero_mul])
  have q2 := fMul_repr h q1.1 hc.half.1 r0 (by rw [q1.2, zero_mul])
  have s1 := fSub_repr h yl.1 q2.1 r0 (by rw [yl.2, q2.2, sub_zero])
  have s2 := fAdd_repr h xl.1 s1.1 r0 (by rw [xl.2, s1.2, add_zero])
  have s3 := fAdd_repr h s2.1 hr.efin rE (by rw [s2.2, hr.eval, zero_add])
  exact s3

theorem red_pow {m e X : BitVec w} {E k : Int} (hr : LogRedR F X m e E) (hX : rval F X = 2 ^ k) : rval F m = 0 ∧ E = k := by
  have h1 := hr.value
  have h2 := hr.lo
  have h3 := hr.hi
  have h4 : 1 + rval F m = 2 ^ (k - E) := by
    rw [zpow_sub₀ (by norm_num), ← hX, h1, mul_div_assoc, div_self (by positivity), mul_one]
  have hk : k - E = 0 := by
    rcases lt_trichotomy (k - E) 0 with h5 | h5 | h5
    · exfalso
      have : (2 : ℝ) ^ (k - E) ≤ 2 ^ (-1 : Int) := zpow_le_zpow_right₀ (by norm_num) (by omega)
      norm_num at *; linarith
    · exact h5
    · exfalso
      have : (2 : ℝ) ^ (1 : Int) ≤ 2 ^ (k - E) := zpow_le_zpow_right₀ (by norm_num) (by omega)
      norm_num at *; linarith
  rw [hk, zpow_zero] at h4
  exact ⟨by linarith, by omega⟩
end

/-- The exact logarithm of powers of two. -/
theorem log2F_exact {X x e : BitVec 32} {E k : Int} (hr : LogRedR f32 X x e E) (hX : rval f32 X = 2 ^ k) :
    isFinite f32 (logSeriesF (sArith f32 32) .two x e) = true ∧ rval f32 (logSeriesF (sArith f32 32) .two x e) = k := by
  obtain ⟨h0, rfl⟩ := red_pow hr hX
  rw [logSeriesF_eq]
  exact logEnd_2_exact logC_F hr (logF_pre_neg hr.mfin h0.le hr.lo hr.grid) h0

theorem log2D_exact {X x e : BitVec 64} {E k : Int} (hr : LogRedR f64 X x e E) (hX : rval f64 X = 2 ^ k) :
    isFinite f64 (logSeriesD (sArith f64 64) .two x e) = true ∧ rval f64 (logSeriesD (sArith f64 64) .two x e) = k := by
  obtain ⟨h0, rfl⟩ := red_pow hr hX
  rw [logSeriesD_eq]
  exact logEnd_2_exact logC_D hr (logD_pre_neg hr.mfin h0.le hr.lo hr.grid) h0

end Vc.Lemma
