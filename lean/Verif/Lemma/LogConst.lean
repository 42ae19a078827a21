import Verif.Lemma.LogSeries
/-!
The constants of `log`.
-/

namespace Vc.Lemma
open Vc.Model Vc.Spec

set_option maxRecDepth 10000

theorem log10_near : |Real.log 10 - 2.302585092994045684017| ≤ 1 / 10 ^ 20 := by
  have t : |(5⁻¹ : ℝ)| = 5⁻¹ := by rw [abs_of_pos]; norm_num
  have z := Real.abs_log_sub_add_sum_range_le (show |(5⁻¹ : ℝ)| < 1 by rw [t]; norm_num) 40
  rw [t] at z
  norm_num [Finset.sum_range_succ] at z
  have e : Real.log 10 = 3 * Real.log 2 - Real.log (4 / 5) := by
    rw [show (10 : ℝ) = 2 ^ 3 / (4 / 5) by norm_num, Real.log_div (by norm_num) (by norm_num), Real.log_pow]
    push_cast; ring
  rw [e]
  have l := abs_le.mp log2_near
  have z' := abs_le.mp z
  rw [abs_le]
  constructor <;> norm_num at l z' ⊢ <;> linarith

theorem logF_log10e : isFinite f32 0x3ede5bd9#32 = true ∧ rval f32 0x3ede5bd9#32 = 14572505 / 33554432 := by
  refine ⟨by decide, rval_lit false 125 6183897 (-25) (by decide) (by decide) (by decide) (by decide) (by decide) ?_⟩
  norm_num [f32]

theorem logD_log10e : isFinite f64 0x3fdbcb7b1526e50e#64 = true ∧ rval f64 0x3fdbcb7b1526e50e#64 = 3911776933737095 / 9007199254740992 := by
  refine ⟨by decide, rval_lit false 1021 3319954240103694 (-54) (by decide) (by decide) (by decide) (by decide) (by decide) ?_⟩
  norm_num [f64]

theorem logC_F : LogC f32 logConstF (-(14581891 / 68719476736)) := by
  have l := abs_le.mp log2_near
  have l10 := abs_le.mp log10_near
  refine ⟨.single, expF_half, expF_large, expF_small, by norm_num [abs_le], ?_, ⟨logF_log10e.1, ?_⟩, ⟨expF_log2e.1, ?_⟩⟩
  · have : |355 / 512 + -(14581891 / 68719476736 : ℝ) - Real.log 2| ≤ 1 / 10 ^ 11 := by
      rw [abs_le]; constructor <;> norm_num at l ⊢ <;> linarith
    have h2 : ((oneExp f32 : Nat) : ℝ) = 149 := by norm_num [show oneExp f32 = 149 from rfl]
    rw [h2]
    unfold uRel
    norm_num [f32] at this ⊢
    linarith
  · rw [show logConstF.log10e = 0x3ede5bd9#32 from rfl, logF_log10e.2, abs_le]
    unfold uRel
    constructor <;> norm_num [f32] at l10 ⊢ <;> linarith
  · rw [show logConstF.log2e = 0x3fb8aa3b#32 from rfl, expF_log2e.2, abs_le]
    unfold uRel
    constructor <;> norm_num [f32] at l ⊢ <;> linarith

theorem logC_D : LogC f64 logConstD (-(978574132388245 / 4611686018427387904)) := by
  have l := abs_le.mp log2_near
  have l10 := abs_le.mp log10_near
  refine ⟨.double, expD_half, expD_large, expD_small, by norm_num [abs_le], ?_, ⟨logD_log10e.1, ?_⟩, ⟨expD_log2e.1, ?_⟩⟩
  · have : |355 / 512 + -(978574132388245 / 4611686018427387904 : ℝ) - Real.log 2| ≤ 2 / 10 ^ 20 := by
      rw [abs_le]; constructor <;> norm_num at l ⊢ <;> linarith
    have h2 : ((oneExp f64 : Nat) : ℝ) = 1074 := by norm_num [show oneExp f64 = 1074 from rfl]
    rw [h2]
    unfold uRel
    norm_num [f64] at this ⊢
    linarith
  · rw [show logConstD.log10e = 0x3fdbcb7b1526e50e#64 from rfl, logD_log10e.2, abs_le]
    unfold uRel
    constructor <;> norm_num [f64] at l10 ⊢ <;> linarith
  · rw [show logConstD.log2e = 0x3ff71547652b82fe#64 from rfl, expD_log2e.2, abs_le]
    unfold uRel
    constructor <;> norm_num [f64] at l ⊢ <;> linarith

/-- The remainder of the series. -/
theorem log_tail {t ρ : ℝ} (n : Nat) (ht : |t| ≤ ρ) (hρ : ρ < 1) :
    |t * pEval (logTaylor 0 n) t - Real.log (1 + t)| ≤ |t| * (ρ ^ n / (1 - ρ)) := by
  have h0 := abs_nonneg t
  refine le_trans (log_taylor (lt_of_le_of_lt ht hρ) n) ?_
  rw [pow_succ, mul_comm, mul_div_assoc]
  refine mul_le_mul_of_nonneg_left ?_ h0
  exact div_le_div₀ (pow_nonneg (le_trans h0 ht) n) (pow_le_pow_left₀ h0 ht n) (by linarith) (by linarith)

end Vc.Lemma
