import Verif.Lemma.LogConst
/-!
The series of `log` of float.
-/

namespace Vc.Lemma
open Vc.Model Vc.Spec

set_option maxRecDepth 10000

theorem logF_k0 : isFinite f32 0x3d9021bb#32 = true ∧ rval f32 0x3d9021bb#32 = 9445819 / 134217728 := by
  refine ⟨by decide, rval_lit false 123 1057211 (-27) (by decide) (by decide) (by decide) (by decide) (by decide) ?_⟩
  norm_num [f32]

theorem logF_k1 : isFinite f32 0xbdebd1b8#32 = true ∧ rval f32 0xbdebd1b8#32 = -(1931831 / 16777216) := by
  refine ⟨by decide, rval_lit true 123 7066040 (-27) (by decide) (by decide) (by decide) (by decide) (by decide) ?_⟩
  norm_num [f32]

theorem logF_k2 : isFinite f32 0x3def251a#32 = true ∧ rval f32 0x3def251a#32 = 7836301 / 67108864 := by
  refine ⟨by decide, rval_lit false 123 7283994 (-27) (by decide) (by decide) (by decide) (by decide) (by decide) ?_⟩
  norm_num [f32]

theorem logF_k3 : isFinite f32 0xbdfe5d4f#32 = true ∧ rval f32 0xbdfe5d4f#32 = -(16670031 / 134217728) := by
  refine ⟨by decide, rval_lit true 123 8281423 (-27) (by decide) (by decide) (by decide) (by decide) (by decide) ?_⟩
  norm_num [f32]

theorem logF_k4 : isFinite f32 0x3e11e9bf#32 = true ∧ rval f32 0x3e11e9bf#32 = 9562559 / 67108864 := by
  refine ⟨by decide, rval_lit false 124 1173951 (-26) (by decide) (by decide) (by decide) (by decide) (by decide) ?_⟩
  norm_num [f32]

theorem logF_k5 : isFinite f32 0xbe2aae50#32 = true ∧ rval f32 0xbe2aae50#32 = -(699109 / 4194304) := by
  refine ⟨by decide, rval_lit true 124 2797136 (-26) (by decide) (by decide) (by decide) (by decide) (by decide) ?_⟩
  norm_num [f32]

theorem logF_k6 : isFinite f32 0x3e4cceac#32 = true ∧ rval f32 0x3e4cceac#32 = 3355563 / 16777216 := by
  refine ⟨by decide, rval_lit false 124 5033644 (-26) (by decide) (by decide) (by decide) (by decide) (by decide) ?_⟩
  norm_num [f32]

theorem logF_k7 : isFinite f32 0xbe7ffffc#32 = true ∧ rval f32 0xbe7ffffc#32 = -(4194303 / 16777216) := by
  refine ⟨by decide, rval_lit true 124 8388604 (-26) (by decide) (by decide) (by decide) (by decide) (by decide) ?_⟩
  norm_num [f32]

theorem logF_k8 : isFinite f32 0x3eaaaaaa#32 = true ∧ rval f32 0x3eaaaaaa#32 = 5592405 / 16777216 := by
  refine ⟨by decide, rval_lit false 125 2796202 (-25) (by decide) (by decide) (by decide) (by decide) (by decide) ?_⟩
  norm_num [f32]

def logFA : List ℚ := [1, -(1 / 2), 5592405 / 16777216, -(4194303 / 16777216), 3355563 / 16777216, -(699109 / 4194304), 9562559 / 67108864, -(16670031 / 134217728), 7836301 / 67108864, -(1931831 / 16777216), 9445819 / 134217728]

def logFDiff : List ℚ := pAdd logFA (pScale (-1) (logTaylor 0 28))

/-- The polynomial the coefficients stand for, evaluated with the Horner scheme. -/
noncomputable def logFP (t : ℝ) : ℝ :=
  ((((((((9445819 / 134217728) * t + (-(1931831 / 16777216))) * t + (7836301 / 67108864)) * t + (-(16670031 / 134217728))) * t + (9562559 / 67108864)) * t + (-(699109 / 4194304))) * t + (3355563 / 16777216)) * t + (-(4194303 / 16777216))) * t + (5592405 / 16777216)

theorem logFA_eval (t : ℝ) : t * pEval logFA t = t + (logFP t * (t * (t * t)) - t * t * (1 / 2)) := by
  simp only [logFA, pEval, logFP]
  push_cast
  ring

theorem logF_apx {t ρ ε : ℝ} (hρ : |t| ≤ ρ) (hρ1 : ρ < 1) (hd : |pEval logFDiff t| ≤ ε) :
    |t + (logFP t * (t * (t * t)) - t * t * (1 / 2)) - Real.log (1 + t)| ≤ (ε + ρ ^ 28 / (1 - ρ)) * |t| := by
  have e1 : pEval logFA t = pEval logFDiff t + pEval (logTaylor 0 28) t := by
    rw [logFDiff, pEval_add, pEval_scale]; push_cast; ring
  rw [← logFA_eval, e1, show t * (pEval logFDiff t + pEval (logTaylor 0 28) t) - Real.log (1 + t) =
    t * pEval logFDiff t + (t * pEval (logTaylor 0 28) t - Real.log (1 + t)) by ring]
  refine le_trans (abs_add_le _ _) ?_
  rw [abs_mul]
  have h1 := mul_le_mul_of_nonneg_left hd (abs_nonneg t)
  have h2 := log_tail 28 hρ hρ1
  linarith

/-- The Horner scheme. -/
def logFH (x : BitVec 32) : BitVec 32 :=
  horner (sArith f32 32) x 0x3d9021bb#32 [0xbdebd1b8#32, 0x3def251a#32, 0xbdfe5d4f#32, 0x3e11e9bf#32, 0xbe2aae50#32,
    0x3e4cceac#32, 0xbe7ffffc#32, 0x3eaaaaaa#32]

theorem logFH_eq (x : BitVec 32) : logFH x =
  fAdd f32 (fMul f32 (fAdd f32 (fMul f32 (fAdd f32 (fMul f32 (fAdd f32 (fMul f32 (fAdd f32 (fMul f32 (fAdd f32 (fMul f32 (fAdd f32 (fMul f32 (fAdd f32 (fMul f32 0x3d9021bb#32 x) 0xbdebd1b8#32) x) 0x3def251a#32) x) 0xbdfe5d4f#32) x) 0x3e11e9bf#32) x) 0xbe2aae50#32) x) 0x3e4cceac#32) x) 0xbe7ffffc#32) x) 0x3eaaaaaa#32 := by
  simp only [logFH, horner, List.foldl_cons, List.foldl_nil, sArith, id]

/-- The polynomial part of the series. -/
def logFY (x : BitVec 32) : BitVec 32 := fMul f32 (logFH x) (fMul f32 x (fMul f32 x x))

theorem sArith_mul (F : Fmt) {w : Nat} (a b : BitVec w) : (sArith F w).mul a b = fMul F a b := rfl
theorem sArith_add (F : Fmt) {w : Nat} (a b : BitVec w) : (sArith F w).add a b = fAdd F a b := rfl
theorem sArith_div (F : Fmt) {w : Nat} (a b : BitVec w) : (sArith F w).div a b = fDiv F a b := rfl
theorem sArith_c (F : Fmt) {w : Nat} (a : BitVec w) : (sArith F w).c a = a := rfl

theorem logSeriesF_eq (base : LogBase) (x e : BitVec 32) : logSeriesF (sArith f32 32) base x e =
    logEnd (sArith f32 32) logConstF base x (fMul f32 x x) (logFY x) e := by
  simp only [logSeriesF, logFY, logFH, sArith_mul, sArith_c]

theorem logF_cheb_neg : chebBound (-(2928933 / 10000000)) (0) logFDiff ≤ 1297 / 500000000000 := by decide +kernel

theorem logF_diff_neg {t : ℝ} (h0 : -(2928933 / 10000000) ≤ t) (h1 : t ≤ 0) : |pEval logFDiff t| ≤ 1297 / 500000000000 := by
  refine le_trans (cheb_bound (lo := -(2928933 / 10000000)) (hi := 0) (by norm_num) (by push_cast; exact h0) (by push_cast; exact h1)) ?_
  refine le_trans (Rat.cast_le.mpr logF_cheb_neg) ?_
  push_cast; norm_num

theorem logF_horner_neg {x : BitVec 32} (hf : isFinite f32 x = true) (hle : |rval f32 x| ≤ 2928933 / 10000000) :
    RApx f32 (logFH x) 1 (logFP (rval f32 x)) (6821 / 10000 * uRel f32) (2147 / 5000) := by
  have s1 := scale_one (F := f32) .single
  have hx : RApx f32 x 1 (rval f32 x) (0 * uRel f32) (2928933 / 10000000) := (RApx.self hf (by rw [mul_one]; exact hle)).exactU
  have a0 := (RApx.const logF_k0 (Q := 3519 / 50000) (by norm_num [abs_le])).exactU
  have a1 := a0.hornerU hx (RApx.const logF_k1 (Q := 2303 / 20000) (by norm_num [abs_le])).exactU .single s1 (by norm_num) (by norm_num) (by norm_num) (by norm_num)
    (R := 679 / 5000) (by norm_num) (by norm_num) (δ := 313 / 2000) (by norm_num)
  have a2 := a1.hornerU hx (RApx.const logF_k2 (Q := 11677 / 100000) (by norm_num [abs_le])).exactU .single s1 (by norm_num) (by norm_num) (by norm_num) (by norm_num)
    (R := 783 / 5000) (by norm_num) (by norm_num) (δ := 2423 / 10000) (by norm_num)
  have a3 := a2.hornerU hx (RApx.const logF_k3 (Q := 12421 / 100000) (by norm_num [abs_le])).exactU .single s1 (by norm_num) (by norm_num) (by norm_num) (by norm_num)
    (R := 1701 / 10000) (by norm_num) (by norm_num) (δ := 287 / 1000) (by norm_num)
  have a4 := a3.hornerU hx (RApx.const logF_k4 (Q := 57 / 400) (by norm_num [abs_le])).exactU .single s1 (by norm_num) (by norm_num) (by norm_num) (by norm_num)
    (R := 481 / 2500) (by norm_num) (by norm_num) (δ := 3263 / 10000) (by norm_num)
  have a5 := a4.hornerU hx (RApx.const logF_k5 (Q := 16669 / 100000) (by norm_num [abs_le])).exactU .single s1 (by norm_num) (by norm_num) (by norm_num) (by norm_num)
    (R := 2231 / 10000) (by norm_num) (by norm_num) (δ := 3751 / 10000) (by norm_num)
  have a6 := a5.hornerU hx (RApx.const logF_k6 (Q := 20001 / 100000) (by norm_num [abs_le])).exactU .single s1 (by norm_num) (by norm_num) (by norm_num) (by norm_num)
    (R := 1327 / 5000) (by norm_num) (by norm_num) (δ := 4407 / 10000) (by norm_num)
  have a7 := a6.hornerU hx (RApx.const logF_k7 (Q := 1 / 4) (by norm_num [abs_le])).exactU .single s1 (by norm_num) (by norm_num) (by norm_num) (by norm_num)
    (R := 1639 / 5000) (by norm_num) (by norm_num) (δ := 5347 / 10000) (by norm_num)
  have a8 := a7.hornerU hx (RApx.const logF_k8 (Q := 16667 / 50000) (by norm_num [abs_le])).exactU .single s1 (by norm_num) (by norm_num) (by norm_num) (by norm_num)
    (R := 2147 / 5000) (by norm_num) (by norm_num) (δ := 6821 / 10000) (by norm_num)
  rw [logFH_eq]
  unfold logFP
  exact a8

theorem logF_pre_neg {x : BitVec 32} (hf : isFinite f32 x = true) (h0 : rval f32 x ≤ 0) (h1 : -0.2928933 ≤ rval f32 x)
    (hg : ∃ k : Int, rval f32 x = k * 2 ^ (-((f32.m : Int) + 1))) :
    LogPre f32 x (logFY x) (fMul f32 (fMul f32 x x) logConstF.half) (logFP (rval f32 x) * (rval f32 x * (rval f32 x * rval f32 x)))
      (1691 / 10000) (369 / 10000) (2929 / 10000) (293 / 2000) (109 / 2500) (2928933 / 10000000) (1) (70711 / 50000) := by
  have h2 : -0.2928933 ≤ rval f32 x := by norm_num at h0 h1 ⊢; linarith
  have h3 : rval f32 x ≤ 0.4142136 := by norm_num at h0 h1 ⊢; linarith
  have hd := logF_diff_neg (t := rval f32 x) (by norm_num at h0 h1 ⊢; linarith) (by norm_num at h0 h1 ⊢; linarith)
  have hle : |rval f32 x| ≤ 2928933 / 10000000 := by rw [abs_le]; constructor <;> norm_num at h0 h1 ⊢ <;> linarith
  have t0 := abs_nonneg (rval f32 x)
  have ht1 : |rval f32 x| ≤ 1 := le_trans hle (by norm_num)
  have sc2 : Scale f32 (|rval f32 x| * |rval f32 x|) := by
    have := scale_grid .single ht1 hg 2 (by decide) (by decide)
    rwa [pow_two] at this
  have sc3 : Scale f32 (|rval f32 x| * (|rval f32 x| * |rval f32 x|)) := by
    have := scale_grid .single ht1 hg 3 (by decide) (by decide)
    rwa [show |rval f32 x| ^ 3 = |rval f32 x| * (|rval f32 x| * |rval f32 x|) by ring] at this
  have hX : RApx f32 x |rval f32 x| (rval f32 x) (0 * uRel f32) 1 := (RApx.self hf (by rw [one_mul])).exactU
  have hH : RApx f32 logConstF.half 1 (1 / 2) (0 * uRel f32) (1 / 2) := (RApx.const expF_half (by norm_num)).exactU
  have a8 := logF_horner_neg hf hle
  have x2 := hX.mulU hX .single t0 sc2 (by norm_num) (by norm_num) (by norm_num) (by norm_num) (R := 1) (by norm_num) (by norm_num) (δ := 100001 / 100000) (by norm_num)
  have x3 := hX.mulU x2 .single t0 sc3 (by norm_num) (by norm_num) (by norm_num) (by norm_num) (R := 1) (by norm_num) (by norm_num) (δ := 100001 / 50000) (by norm_num)
  have y1 := a8.mulU x3 .single (by norm_num) (by rwa [one_mul]) (by norm_num) (by norm_num) (by norm_num) (by norm_num) (R := 2147 / 5000) (by norm_num) (by norm_num) (δ := 197031 / 100000) (by norm_num)
  rw [one_mul] at y1
  have hk : |rval f32 x| * |rval f32 x| ≤ (2928933 / 10000000) * |rval f32 x| := mul_le_mul_of_nonneg_right hle t0
  have hk2 : |rval f32 x| * (|rval f32 x| * |rval f32 x|) ≤ ((2928933 / 10000000) * (2928933 / 10000000)) * |rval f32 x| := by
    have := mul_le_mul_of_nonneg_right (mul_le_mul hle hle t0 (by norm_num)) t0
    linarith
  have y2 := y1.rescaleU (by norm_num) (by norm_num) hk2 t0 (γ := 1691 / 10000) (by norm_num) (Q := 369 / 10000) (by norm_num)
  have q1 := x2.mulU hH .single sc2.nonneg (by rwa [mul_one]) (by norm_num) (by norm_num) (by norm_num) (by norm_num) (R := 1 / 2) (by norm_num) (by norm_num) (δ := 100001 / 100000) (by norm_num)
  rw [mul_one] at q1
  have q2 := q1.rescaleU (by norm_num) (by norm_num) hk t0 (γ := 2929 / 10000) (by norm_num) (Q := 293 / 2000) (by norm_num)
  refine ⟨hf, hle, by unfold logFY; exact y2, q2, ?_, log_neg_lo h0 h1, (le_trans (log_neg_hi h0 h1) (le_of_eq (by norm_num))), log_abs h2 h3, hg⟩
  refine le_trans (logF_apx hle (by norm_num) hd) (mul_le_mul_of_nonneg_right ?_ t0)
  unfold uRel
  norm_num [f32]

theorem logF_cheb_pos : chebBound (0) (517767 / 1250000) logFDiff ≤ 3177 / 1000000000000 := by decide +kernel

theorem logF_diff_pos {t : ℝ} (h0 : 0 ≤ t) (h1 : t ≤ 517767 / 1250000) : |pEval logFDiff t| ≤ 3177 / 1000000000000 := by
  refine le_trans (cheb_bound (lo := 0) (hi := 517767 / 1250000) (by norm_num) (by push_cast; exact h0) (by push_cast; exact h1)) ?_
  refine le_trans (Rat.cast_le.mpr logF_cheb_pos) ?_
  push_cast; norm_num

theorem logF_horner_pos {x : BitVec 32} (hf : isFinite f32 x = true) (hle : |rval f32 x| ≤ 517767 / 1250000) :
    RApx f32 (logFH x) 1 (logFP (rval f32 x)) (1931 / 2000 * uRel f32) (2449 / 5000) := by
  have s1 := scale_one (F := f32) .single
  have hx : RApx f32 x 1 (rval f32 x) (0 * uRel f32) (517767 / 1250000) := (RApx.self hf (by rw [mul_one]; exact hle)).exactU
  have a0 := (RApx.const logF_k0 (Q := 3519 / 50000) (by norm_num [abs_le])).exactU
  have a1 := a0.hornerU hx (RApx.const logF_k1 (Q := 2303 / 20000) (by norm_num [abs_le])).exactU .single s1 (by norm_num) (by norm_num) (by norm_num) (by norm_num)
    (R := 361 / 2500) (by norm_num) (by norm_num) (δ := 217 / 1250) (by norm_num)
  have a2 := a1.hornerU hx (RApx.const logF_k2 (Q := 11677 / 100000) (by norm_num [abs_le])).exactU .single s1 (by norm_num) (by norm_num) (by norm_num) (by norm_num)
    (R := 883 / 5000) (by norm_num) (by norm_num) (δ := 771 / 2500) (by norm_num)
  have a3 := a2.hornerU hx (RApx.const logF_k3 (Q := 12421 / 100000) (by norm_num [abs_le])).exactU .single s1 (by norm_num) (by norm_num) (by norm_num) (by norm_num)
    (R := 987 / 5000) (by norm_num) (by norm_num) (δ := 3983 / 10000) (by norm_num)
  have a4 := a3.hornerU hx (RApx.const logF_k4 (Q := 57 / 400) (by norm_num [abs_le])).exactU .single s1 (by norm_num) (by norm_num) (by norm_num) (by norm_num)
    (R := 2243 / 10000) (by norm_num) (by norm_num) (δ := 4711 / 10000) (by norm_num)
  have a5 := a4.hornerU hx (RApx.const logF_k5 (Q := 16669 / 100000) (by norm_num [abs_le])).exactU .single s1 (by norm_num) (by norm_num) (by norm_num) (by norm_num)
    (R := 649 / 2500) (by norm_num) (by norm_num) (δ := 5477 / 10000) (by norm_num)
  have a6 := a5.hornerU hx (RApx.const logF_k6 (Q := 20001 / 100000) (by norm_num [abs_le])).exactU .single s1 (by norm_num) (by norm_num) (by norm_num) (by norm_num)
    (R := 769 / 2500) (by norm_num) (by norm_num) (δ := 321 / 500) (by norm_num)
  have a7 := a6.hornerU hx (RApx.const logF_k7 (Q := 1 / 4) (by norm_num [abs_le])).exactU .single s1 (by norm_num) (by norm_num) (by norm_num) (by norm_num)
    (R := 151 / 400) (by norm_num) (by norm_num) (δ := 7709 / 10000) (by norm_num)
  have a8 := a7.hornerU hx (RApx.const logF_k8 (Q := 16667 / 50000) (by norm_num [abs_le])).exactU .single s1 (by norm_num) (by norm_num) (by norm_num) (by norm_num)
    (R := 2449 / 5000) (by norm_num) (by norm_num) (δ := 1931 / 2000) (by norm_num)
  rw [logFH_eq]
  unfold logFP
  exact a8

theorem logF_pre_pos {x : BitVec 32} (hf : isFinite f32 x = true) (h0 : 0 ≤ rval f32 x) (h1 : rval f32 x ≤ 0.4142136)
    (hg : ∃ k : Int, rval f32 x = k * 2 ^ (-((f32.m : Int) + 1))) :
    LogPre f32 x (logFY x) (fMul f32 (fMul f32 x x) logConstF.half) (logFP (rval f32 x) * (rval f32 x * (rval f32 x * rval f32 x)))
      (2089 / 5000) (841 / 10000) (4143 / 10000) (259 / 1250) (539 / 10000) (517767 / 1250000) (2071 / 2500) (1) := by
  have h2 : -0.2928933 ≤ rval f32 x := by norm_num at h0 h1 ⊢; linarith
  have h3 : rval f32 x ≤ 0.4142136 := by norm_num at h0 h1 ⊢; linarith
  have hd := logF_diff_pos (t := rval f32 x) (by norm_num at h0 h1 ⊢; linarith) (by norm_num at h0 h1 ⊢; linarith)
  have hle : |rval f32 x| ≤ 517767 / 1250000 := by rw [abs_le]; constructor <;> norm_num at h0 h1 ⊢ <;> linarith
  have t0 := abs_nonneg (rval f32 x)
  have ht1 : |rval f32 x| ≤ 1 := le_trans hle (by norm_num)
  have sc2 : Scale f32 (|rval f32 x| * |rval f32 x|) := by
    have := scale_grid .single ht1 hg 2 (by decide) (by decide)
    rwa [pow_two] at this
  have sc3 : Scale f32 (|rval f32 x| * (|rval f32 x| * |rval f32 x|)) := by
    have := scale_grid .single ht1 hg 3 (by decide) (by decide)
    rwa [show |rval f32 x| ^ 3 = |rval f32 x| * (|rval f32 x| * |rval f32 x|) by ring] at this
  have hX : RApx f32 x |rval f32 x| (rval f32 x) (0 * uRel f32) 1 := (RApx.self hf (by rw [one_mul])).exactU
  have hH : RApx f32 logConstF.half 1 (1 / 2) (0 * uRel f32) (1 / 2) := (RApx.const expF_half (by norm_num)).exactU
  have a8 := logF_horner_pos hf hle
  have x2 := hX.mulU hX .single t0 sc2 (by norm_num) (by norm_num) (by norm_num) (by norm_num) (R := 1) (by norm_num) (by norm_num) (δ := 100001 / 100000) (by norm_num)
  have x3 := hX.mulU x2 .single t0 sc3 (by norm_num) (by norm_num) (by norm_num) (by norm_num) (R := 1) (by norm_num) (by norm_num) (δ := 100001 / 50000) (by norm_num)
  have y1 := a8.mulU x3 .single (by norm_num) (by rwa [one_mul]) (by norm_num) (by norm_num) (by norm_num) (by norm_num) (R := 2449 / 5000) (by norm_num) (by norm_num) (δ := 60873 / 25000) (by norm_num)
  rw [one_mul] at y1
  have hk : |rval f32 x| * |rval f32 x| ≤ (517767 / 1250000) * |rval f32 x| := mul_le_mul_of_nonneg_right hle t0
  have hk2 : |rval f32 x| * (|rval f32 x| * |rval f32 x|) ≤ ((517767 / 1250000) * (517767 / 1250000)) * |rval f32 x| := by
    have := mul_le_mul_of_nonneg_right (mul_le_mul hle hle t0 (by norm_num)) t0
    linarith
  have y2 := y1.rescaleU (by norm_num) (by norm_num) hk2 t0 (γ := 2089 / 5000) (by norm_num) (Q := 841 / 10000) (by norm_num)
  have q1 := x2.mulU hH .single sc2.nonneg (by rwa [mul_one]) (by norm_num) (by norm_num) (by norm_num) (by norm_num) (R := 1 / 2) (by norm_num) (by norm_num) (δ := 100001 / 100000) (by norm_num)
  rw [mul_one] at q1
  have q2 := q1.rescaleU (by norm_num) (by norm_num) hk t0 (γ := 4143 / 10000) (by norm_num) (Q := 259 / 1250) (by norm_num)
  refine ⟨hf, hle, by unfold logFY; exact y2, q2, ?_, (le_trans (le_of_eq (by norm_num)) (log_pos_lo h0 h1)), log_pos_hi h0, log_abs h2 h3, hg⟩
  refine le_trans (logF_apx hle (by norm_num) hd) (mul_le_mul_of_nonneg_right ?_ t0)
  unfold uRel
  norm_num [f32]

theorem logF_all {X x e : BitVec 32} {E : Int} (hr : LogRedR f32 X x e E) :
    (isFinite f32 (logSeriesF (sArith f32 32) .e x e) = true ∧
      |rval f32 (logSeriesF (sArith f32 32) .e x e) - Real.log (rval f32 X)| ≤ 4 * uRel f32 * |Real.log (rval f32 X)|) ∧
    (isFinite f32 (logSeriesF (sArith f32 32) .ten x e) = true ∧
      |rval f32 (logSeriesF (sArith f32 32) .ten x e) - Real.log (rval f32 X) / Real.log 10| ≤
        8 * uRel f32 * |Real.log (rval f32 X) / Real.log 10|) ∧
    (isFinite f32 (logSeriesF (sArith f32 32) .two x e) = true ∧
      |rval f32 (logSeriesF (sArith f32 32) .two x e) - Real.log (rval f32 X) / Real.log 2| ≤
        8 * uRel f32 * |Real.log (rval f32 X) / Real.log 2|) := by
  rw [logSeriesF_eq, logSeriesF_eq, logSeriesF_eq]
  have hZ : ((oneExp f32 : Nat) : ℝ) * 0.0002122 ≤ 0.0317 := by norm_num [show oneExp f32 = 149 from rfl]
  rcases le_total (rval f32 x) 0 with h0 | h0
  · have hp := logF_pre_neg hr.mfin h0 hr.lo hr.grid
    have he := logEnd_e logC_F hr hp (by norm_num) (by norm_num) (by norm_num) (by norm_num) (by norm_num) (by norm_num) (ω := 4) (by norm_num) hZ
      (by norm_num [LogOk, logNeedE]) (by norm_num [LogOk, logNeedE]) (by norm_num [LogOk, logNeedE])
    exact ⟨he, logEnd_10 logC_F hr he (by norm_num) (by norm_num) (by norm_num),
      logEnd_2 logC_F hr hp (by norm_num) (by norm_num) (by norm_num) (by norm_num) (by norm_num) (by norm_num) (by norm_num) (by norm_num) (by norm_num [LogOk2, logNeed2])
        (by norm_num [LogOk2, logNeed2])⟩
  · have hp := logF_pre_pos hr.mfin h0 hr.hi hr.grid
    have he := logEnd_e logC_F hr hp (by norm_num) (by norm_num) (by norm_num) (by norm_num) (by norm_num) (by norm_num) (ω := 4) (by norm_num) hZ
      (by norm_num [LogOk, logNeedE]) (by norm_num [LogOk, logNeedE]) (by norm_num [LogOk, logNeedE])
    exact ⟨he, logEnd_10 logC_F hr he (by norm_num) (by norm_num) (by norm_num),
      logEnd_2 logC_F hr hp (by norm_num) (by norm_num) (by norm_num) (by norm_num) (by norm_num) (by norm_num) (by norm_num) (by norm_num) (by norm_num [LogOk2, logNeed2])
        (by norm_num [LogOk2, logNeed2])⟩

end Vc.Lemma
