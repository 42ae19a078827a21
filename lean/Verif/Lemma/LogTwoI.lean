import Verif.Lemma.LogTwo
import Verif.Lemma.LogAccD

/-!
`log2` of float: 3.25 units in the last place, of double: 3.6.
-/

namespace Vc.Lemma
open Vc.Model Vc.Spec

set_option maxRecDepth 10000

def logTEps (ef : ℚ → ℚ → ℚ) (δ a b : ℚ) : ℚ := 14427 / 10000 * ef a b + 14143 / 10000 * δ

def logFTp : List ℚ := [1 / 16777216, 1 / 8388608, 1 / 4194304, 1 / 2097152, 1 / 1048576, 1 / 524288, 1 / 262144, 1 / 131072, 1 / 65536, 1 / 32768, 1 / 16384, 1 / 8192, 1 / 4096, 1 / 2048, 1 / 1024, 1 / 512, 1 / 256, 1 / 128, 1 / 64, 1 / 32, 1 / 16, 1 / 8, 1 / 4, 3 / 8, 517767 / 1250000]
def logFTn : List ℚ := [-(2928933 / 10000000), -(1 / 4), -(1 / 8), -(1 / 16), -(1 / 32), -(1 / 64), -(1 / 128), -(1 / 256), -(1 / 512), -(1 / 1024), -(1 / 2048), -(1 / 4096), -(1 / 8192), -(1 / 16384), -(1 / 32768), -(1 / 65536), -(1 / 131072), -(1 / 262144), -(1 / 524288), -(1 / 1048576), -(1 / 2097152), -(1 / 4194304), -(1 / 8388608), -(1 / 16777216)]
def logFT1 : List ℚ := [-(2928933 / 10000000), -(1 / 4), -(1 / 8), 0, 517767 / 1250000]

theorem logF_log2e : isFinite f32 logConstF.log2e = true ∧ rval f32 logConstF.log2e = ((12102203 / 8388608 : ℚ) : ℝ) := by
  refine ⟨by decide, rval_lit false 127 3713595 (-23) (by decide) (by decide) (by decide) (by decide) (by decide) ?_⟩
  norm_num [f32]

theorem logF_cells2 : LogCellsT f32 logFYB (12102203 / 8388608) (logTEps logFEps (194 / 10 ^ 10)) (9 / 4) logFTp logFTn logFT1 := by
  refine ⟨?_, ?_, ?_, ?_, ?_, ?_⟩ <;> decide +kernel

theorem inv_log2_near : |1 / Real.log 2 - 1.44269504088896340736| ≤ 1 / 10 ^ 20 := by
  have h := abs_le.mp log2_near
  have lp : 0 < Real.log 2 := Real.log_pos (by norm_num)
  rw [show 1 / Real.log 2 - 1.44269504088896340736 = (1 - 1.44269504088896340736 * Real.log 2) / Real.log 2 by field_simp, abs_div, abs_of_pos lp, div_le_iff₀ lp]
  norm_num at h ⊢
  rw [abs_le]
  constructor <;> linarith [h.1, h.2]

theorem logF_ulp2 {X x e : BitVec 32} {E : Int} (hr : LogRedR f32 X x e E) :
    WithinUlps f32 (13 / 4) (Real.log (rval f32 X) / Real.log 2) (logSeriesF (sArith f32 32) .two x e) := by
  have ha := (logF_all hr).2.2
  rw [logSeriesF_eq] at ha ⊢
  have hn := abs_le.mp inv_log2_near
  have := log2_cells logF_cells2 logC_F logF_log2e hr logFYB_spec (fun _ _ => by norm_num [logTEps, logFEps]) (by norm_num) (by norm_num) (fun a b _ _ => by
      have := log2_apx (l := 12102203 / 8388608) (logF_eps hr.lo hr.hi) (by norm_num) (by norm_num) (δ := ((194 / 10 ^ 10 : ℚ) : ℝ))
        (by norm_num at hn ⊢; rw [abs_le]; constructor <;> linarith [hn.1, hn.2]) (log_le_t hr.lo)
      refine le_trans this (mul_le_mul_of_nonneg_right (le_of_eq ?_) (abs_nonneg _))
      unfold logTEps logFEps
      norm_num) (fun hx hE => by
      refine ⟨ha.1, ?_⟩
      have h2 := ha.2
      rw [log_value hr, hE, hx] at h2
      simpa using h2)
  norm_num at this ⊢
  exact this

def logDTp : List ℚ := [1 / 9007199254740992, 1 / 4503599627370496, 1 / 2251799813685248, 1 / 1125899906842624, 1 / 562949953421312, 1 / 281474976710656, 1 / 140737488355328, 1 / 70368744177664, 1 / 35184372088832, 1 / 17592186044416, 1 / 8796093022208, 1 / 4398046511104, 1 / 2199023255552, 1 / 1099511627776, 1 / 549755813888, 1 / 274877906944, 1 / 137438953472, 1 / 68719476736, 1 / 34359738368, 1 / 17179869184, 1 / 8589934592, 1 / 4294967296, 1 / 2147483648, 1 / 1073741824, 1 / 536870912, 1 / 268435456, 1 / 134217728, 1 / 67108864, 1 / 33554432, 1 / 16777216, 1 / 8388608, 1 / 4194304, 1 / 2097152, 1 / 1048576, 1 / 524288, 1 / 262144, 1 / 131072, 1 / 65536, 1 / 32768, 1 / 16384, 1 / 8192, 1 / 4096, 1 / 2048, 1 / 1024, 1 / 512, 1 / 256, 1 / 128, 1 / 64, 1 / 32, 1 / 16, 1 / 8, 1 / 4, 3 / 8, 517767 / 1250000]
def logDTn : List ℚ := [-(2928933 / 10000000), -(1 / 4), -(3 / 16), -(1 / 8), -(1 / 16), -(1 / 32), -(1 / 64), -(1 / 128), -(1 / 256), -(1 / 512), -(1 / 1024), -(1 / 2048), -(1 / 4096), -(1 / 8192), -(1 / 16384), -(1 / 32768), -(1 / 65536), -(1 / 131072), -(1 / 262144), -(1 / 524288), -(1 / 1048576), -(1 / 2097152), -(1 / 4194304), -(1 / 8388608), -(1 / 16777216), -(1 / 33554432), -(1 / 67108864), -(1 / 134217728), -(1 / 268435456), -(1 / 536870912), -(1 / 1073741824), -(1 / 2147483648), -(1 / 4294967296), -(1 / 8589934592), -(1 / 17179869184), -(1 / 34359738368), -(1 / 68719476736), -(1 / 137438953472), -(1 / 274877906944), -(1 / 549755813888), -(1 / 1099511627776), -(1 / 2199023255552), -(1 / 4398046511104), -(1 / 8796093022208), -(1 / 17592186044416), -(1 / 35184372088832), -(1 / 70368744177664), -(1 / 140737488355328), -(1 / 281474976710656), -(1 / 562949953421312), -(1 / 1125899906842624), -(1 / 2251799813685248), -(1 / 4503599627370496), -(1 / 9007199254740992)]
def logDT1 : List ℚ := [-(2928933 / 10000000), -(9 / 32), -(1 / 4), -(1 / 8), 0, 517767 / 1250000]

theorem logD_log2e : isFinite f64 logConstD.log2e = true ∧ rval f64 logConstD.log2e = ((3248660424278399 / 2251799813685248 : ℚ) : ℝ) := by
  refine ⟨by decide, rval_lit false 1023 1993721221186302 (-52) (by decide) (by decide) (by decide) (by decide) (by decide) ?_⟩
  norm_num [f64]

theorem logD_cells2_p : cells (fun a b => cellT0 f64 logDYB (3248660424278399 / 2251799813685248) (logTEps logDEps (204 / 10 ^ 19) a b) (13 / 5) a b) logDTp = true := by
  decide +kernel
theorem logD_cells2_n : cells (fun a b => cellT0 f64 logDYB (3248660424278399 / 2251799813685248) (logTEps logDEps (204 / 10 ^ 19) a b) (13 / 5) a b) logDTn = true := by
  decide +kernel
theorem logD_cells2_1 : cells (fun a b => cellT1 f64 logDYB (3248660424278399 / 2251799813685248) (logTEps logDEps (204 / 10 ^ 19) a b) (13 / 5) a b) logDT1 = true := by
  decide +kernel

theorem logD_cells2 : LogCellsT f64 logDYB (3248660424278399 / 2251799813685248) (logTEps logDEps (204 / 10 ^ 19)) (13 / 5) logDTp logDTn logDT1 := by
  refine ⟨?_, ?_, ?_, logD_cells2_p, logD_cells2_n, logD_cells2_1⟩ <;> decide +kernel

theorem logDEps_nonneg (a b : ℚ) : 0 ≤ logDEps a b := by unfold logDEps; split <;> (try split) <;> (try split) <;> norm_num

theorem logD_ulp2 {X x e : BitVec 64} {E : Int} (hr : LogRedR f64 X x e E) :
    WithinUlps f64 (18 / 5) (Real.log (rval f64 X) / Real.log 2) (logSeriesD (sArith f64 64) .two x e) := by
  have ha := (logD_all hr).2.2
  rw [logSeriesD_eq] at ha ⊢
  have hn := abs_le.mp inv_log2_near
  have := log2_cells logD_cells2 logC_D logD_log2e hr logDYB_spec (fun a b => by
      have := logDEps_nonneg a b
      unfold logTEps
      norm_num
      positivity) (by norm_num) (by norm_num) (fun a b h1 h2 => by
      have := log2_apx (l := 3248660424278399 / 2251799813685248) (logD_eps hr.lo hr.hi h1 h2) (by norm_num) (by norm_num) (δ := ((204 / 10 ^ 19 : ℚ) : ℝ))
        (by norm_num at hn ⊢; rw [abs_le]; constructor <;> linarith [hn.1, hn.2]) (log_le_t hr.lo)
      refine le_trans this (mul_le_mul_of_nonneg_right (le_of_eq ?_) (abs_nonneg _))
      unfold logTEps
      push_cast
      norm_num) (fun hx hE => by
      refine ⟨ha.1, ?_⟩
      have h2 := ha.2
      rw [log_value hr, hE, hx] at h2
      simpa using h2)
  norm_num at this ⊢
  exact this

end Vc.Lemma
