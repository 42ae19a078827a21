import Verif.Lemma.LogF
/-!
The series of `log` of double.
-/

namespace Vc.Lemma
open Vc.Model Vc.Spec

set_option maxRecDepth 10000

theorem logD_p0 : isFinite f64 0x3f1ab4c293c31bb0#64 = true ∧ rval f64 0x3f1ab4c293c31bb0#64 = 469818574385595 / 4611686018427387904 := by
  refine ⟨by decide, rval_lit false 1009 3013497562799024 (-66) (by decide) (by decide) (by decide) (by decide) (by decide) ?_⟩
  norm_num [f64]

theorem logD_p1 : isFinite f64 0x3fdfd6f53f5652f2#64 = true ∧ rval f64 0x3fdfd6f53f5652f2#64 = 4481036547991929 / 9007199254740992 := by
  refine ⟨by decide, rval_lit false 1021 4458473468613362 (-54) (by decide) (by decide) (by decide) (by decide) (by decide) ?_⟩
  norm_num [f64]

theorem logD_p2 : isFinite f64 0x4012d2baed926911#64 = true ∧ rval f64 0x4012d2baed926911#64 = 5298249872337169 / 1125899906842624 := by
  refine ⟨by decide, rval_lit false 1025 794650244966673 (-50) (by decide) (by decide) (by decide) (by decide) (by decide) ?_⟩
  norm_num [f64]

theorem logD_p3 : isFinite f64 0x402cff72c63eeb2e#64 = true ∧ rval f64 0x402cff72c63eeb2e#64 = 4081083882632599 / 281474976710656 := by
  refine ⟨by decide, rval_lit false 1026 3658568137894702 (-49) (by decide) (by decide) (by decide) (by decide) (by decide) ?_⟩
  norm_num [f64]

theorem logD_p4 : isFinite f64 0x4031efd6924bc84d#64 = true ∧ rval f64 0x4031efd6924bc84d#64 = 5048779460560973 / 281474976710656 := by
  refine ⟨by decide, rval_lit false 1027 545179833190477 (-48) (by decide) (by decide) (by decide) (by decide) (by decide) ?_⟩
  norm_num [f64]

theorem logD_p5 : isFinite f64 0x401ed5637d7edcf8#64 = true ∧ rval f64 0x401ed5637d7edcf8#64 = 1084859073158047 / 140737488355328 := by
  refine ⟨by decide, rval_lit false 1025 4175272957893880 (-50) (by decide) (by decide) (by decide) (by decide) (by decide) ?_⟩
  norm_num [f64]

theorem logD_q0 : isFinite f64 0x40269320ae97ef8e#64 = true ∧ rval f64 0x40269320ae97ef8e#64 = 3177109032531911 / 281474976710656 := by
  refine ⟨by decide, rval_lit false 1026 1850618437693326 (-49) (by decide) (by decide) (by decide) (by decide) (by decide) ?_⟩
  norm_num [f64]

theorem logD_q1 : isFinite f64 0x40469d2c4e19c033#64 = true ∧ rval f64 0x40469d2c4e19c033#64 = 6365263102066739 / 140737488355328 := by
  refine ⟨by decide, rval_lit false 1028 1861663474696243 (-47) (by decide) (by decide) (by decide) (by decide) (by decide) ?_⟩
  norm_num [f64]

theorem logD_q2 : isFinite f64 0x4054bf33a326bdbd#64 = true ∧ rval f64 0x4054bf33a326bdbd#64 = 5839728035675581 / 70368744177664 := by
  refine ⟨by decide, rval_lit false 1029 1336128408305085 (-46) (by decide) (by decide) (by decide) (by decide) (by decide) ?_⟩
  norm_num [f64]

theorem logD_q3 : isFinite f64 0x4051c9e2eb5eae21#64 = true ∧ rval f64 0x4051c9e2eb5eae21#64 = 5007051052723745 / 70368744177664 := by
  refine ⟨by decide, rval_lit false 1029 503451425353249 (-46) (by decide) (by decide) (by decide) (by decide) (by decide) ?_⟩
  norm_num [f64]

theorem logD_q4 : isFinite f64 0x4037200a9e1f25b2#64 = true ∧ rval f64 0x4037200a9e1f25b2#64 = 3254577219474137 / 140737488355328 := by
  refine ⟨by decide, rval_lit false 1027 2005554811577778 (-48) (by decide) (by decide) (by decide) (by decide) (by decide) ?_⟩
  norm_num [f64]

def logDQl : List ℚ := [3254577219474137 / 140737488355328, 5007051052723745 / 70368744177664, 5839728035675581 / 70368744177664, 6365263102066739 / 140737488355328, 3177109032531911 / 281474976710656, 1]

def logDPl : List ℚ := [1084859073158047 / 140737488355328, 5048779460560973 / 281474976710656, 4081083882632599 / 281474976710656, 5298249872337169 / 1125899906842624, 4481036547991929 / 9007199254740992, 469818574385595 / 4611686018427387904]

def logDDiff : List ℚ :=
  pAdd (pMul [1, -(1 / 2)] logDQl) (pAdd (0 :: 0 :: logDPl) (pScale (-1) (pMul logDQl (logTaylor 0 50))))

/-- The numerator. -/
noncomputable def logDP (t : ℝ) : ℝ :=
  (((((469818574385595 / 4611686018427387904) * t + (4481036547991929 / 9007199254740992)) * t + (5298249872337169 / 1125899906842624)) * t + (4081083882632599 / 281474976710656)) * t + (5048779460560973 / 281474976710656)) * t + (1084859073158047 / 140737488355328)

/-- The denominator. -/
noncomputable def logDQ (t : ℝ) : ℝ :=
  (((((3177109032531911 / 281474976710656) + t) * t + (6365263102066739 / 140737488355328)) * t + (5839728035675581 / 70368744177664)) * t + (5007051052723745 / 70368744177664)) * t + (3254577219474137 / 140737488355328)

theorem logDP_eval (t : ℝ) : pEval logDPl t = logDP t := by
  simp only [logDPl, pEval, logDP]; push_cast; ring

theorem logDQ_eval (t : ℝ) : pEval logDQl t = logDQ t := by
  simp only [logDQl, pEval, logDQ]; push_cast; ring

theorem logDDiff_eval (t : ℝ) : pEval logDDiff t =
    (1 - t / 2) * logDQ t + t * t * logDP t - logDQ t * pEval (logTaylor 0 50) t := by
  rw [logDDiff, pEval_add, pEval_add, pEval_scale, pEval_mul, pEval_mul, logDQ_eval]
  simp only [pEval]
  rw [logDP_eval]
  push_cast; ring

theorem logD_apx {t ρ ε l : ℝ} (hρ : |t| ≤ ρ) (hρ1 : ρ < 1) (hd : |pEval logDDiff t| ≤ ε) (hl : 0 < l) (hQ : l ≤ logDQ t) :
    |t + (t * t * logDP t * (t / logDQ t) - t * t * (1 / 2)) - Real.log (1 + t)| ≤ (ε / l + ρ ^ 50 / (1 - ρ)) * |t| := by
  have hQ0 : 0 < logDQ t := lt_of_lt_of_le hl hQ
  have e1 : t + (t * t * logDP t * (t / logDQ t) - t * t * (1 / 2)) - Real.log (1 + t) =
      t * (pEval logDDiff t / logDQ t) + (t * pEval (logTaylor 0 50) t - Real.log (1 + t)) := by
    rw [logDDiff_eval]; field_simp; ring
  rw [e1]
  refine le_trans (abs_add_le _ _) ?_
  rw [abs_mul, abs_div, abs_of_pos hQ0]
  have h1 : |pEval logDDiff t| / logDQ t ≤ ε / l := div_le_div₀ (le_trans (abs_nonneg _) hd) hd hl hQ
  have h1 := mul_le_mul_of_nonneg_left h1 (abs_nonneg t)
  have h2 := log_tail 50 hρ hρ1
  linarith

/-- The Horner schemes. -/
def logDHP (x : BitVec 64) : BitVec 64 :=
  fAdd f64 (fMul f64 (horner (sArith f64 64) x 0x3f1ab4c293c31bb0#64 [0x3fdfd6f53f5652f2#64, 0x4012d2baed926911#64, 0x402cff72c63eeb2e#64, 0x4031efd6924bc84d#64]) x) 0x401ed5637d7edcf8#64

def logDHQ (x : BitVec 64) : BitVec 64 :=
  horner (sArith f64 64) x (fAdd f64 0x40269320ae97ef8e#64 x) [0x40469d2c4e19c033#64, 0x4054bf33a326bdbd#64, 0x4051c9e2eb5eae21#64, 0x4037200a9e1f25b2#64]

theorem logDHP_eq (x : BitVec 64) : logDHP x =
  fAdd f64 (fMul f64 (fAdd f64 (fMul f64 (fAdd f64 (fMul f64 (fAdd f64 (fMul f64 (fAdd f64 (fMul f64 0x3f1ab4c293c31bb0#64 x) 0x3fdfd6f53f5652f2#64) x) 0x4012d2baed926911#64) x) 0x402cff72c63eeb2e#64) x) 0x4031efd6924bc84d#64) x) 0x401ed5637d7edcf8#64 := by
  simp only [logDHP, horner, List.foldl_cons, List.foldl_nil, sArith, id]

theorem logDHQ_eq (x : BitVec 64) : logDHQ x =
  fAdd f64 (fMul f64 (fAdd f64 (fMul f64 (fAdd f64 (fMul f64 (fAdd f64 (fMul f64 (fAdd f64 0x40269320ae97ef8e#64 x) x) 0x40469d2c4e19c033#64) x) 0x4054bf33a326bdbd#64) x) 0x4051c9e2eb5eae21#64) x) 0x4037200a9e1f25b2#64 := by
  simp only [logDHQ, horner, List.foldl_cons, List.foldl_nil, sArith, id]

/-- The rational part of the series. -/
def logDY (x : BitVec 64) : BitVec 64 := fMul f64 (fMul f64 (fMul f64 x x) (logDHP x)) (fDiv f64 x (logDHQ x))

theorem logSeriesD_eq (base : LogBase) (x e : BitVec 64) : logSeriesD (sArith f64 64) base x e =
    logEnd (sArith f64 64) logConstD base x (fMul f64 x x) (logDY x) e := by
  simp only [logSeriesD, logDY, logDHP, logDHQ, sArith_mul, sArith_add, sArith_div, sArith_c]

theorem logD_cheb_neg : chebBound (-(2928933 / 10000000)) (0) logDDiff ≤ 11 / 20000000000000000 := by decide +kernel

theorem logD_diff_neg {t : ℝ} (h0 : -(2928933 / 10000000) ≤ t) (h1 : t ≤ 0) : |pEval logDDiff t| ≤ 11 / 20000000000000000 := by
  refine le_trans (cheb_bound (lo := -(2928933 / 10000000)) (hi := 0) (by norm_num) (by push_cast; exact h0) (by push_cast; exact h1)) ?_
  refine le_trans (Rat.cast_le.mpr logD_cheb_neg) ?_
  push_cast; norm_num

theorem logDQ_neg {t : ℝ} (h0 : -(2928933 / 10000000) ≤ t) : 417 / 50 ≤ logDQ t := by
  obtain ⟨s, rfl⟩ : ∃ s, t = s + (-(2928933 / 10000000)) := ⟨t - (-(2928933 / 10000000)), by ring⟩
  have hs : 0 ≤ s := by linarith
  have e : logDQ (s + (-(2928933 / 10000000))) = (1835789359728460781884851397719811625748095300939 / 219902325555200000000000000000000000000000000000) + s * ((36375895676942564178741746401309258892573 / 1099511627776000000000000000000000000000) + s * ((10732381673948717618490193039453301 / 219902325555200000000000000000000) + s * ((361319449114696188081903589 / 10995116277760000000000000) + s * ((43201536852357423359 / 4398046511104000000) + s * (1))))) := by
    unfold logDQ; ring
  rw [e]
  refine le_add_of_le_of_nonneg (by norm_num) (by positivity)

theorem logD_hp_neg {x : BitVec 64} (hf : isFinite f64 x = true) (hle : |rval f64 x| ≤ 2928933 / 10000000) :
    RApx f64 (logDHP x) 1 (logDP (rval f64 x)) (305491 / 10000 * uRel f64) (71639 / 5000) := by
  have s1 := scale_one (F := f64) .double
  have hx : RApx f64 x 1 (rval f64 x) (0 * uRel f64) (2928933 / 10000000) := (RApx.self hf (by rw [mul_one]; exact hle)).exactU
  have a0 := (RApx.const logD_p0 (Q := 11 / 100000) (by norm_num [abs_le])).exactU
  have a1 := a0.hornerU hx (RApx.const logD_p1 (Q := 199 / 400) (by norm_num [abs_le])).exactU .double s1 (by norm_num) (by norm_num) (by norm_num) (by norm_num)
    (R := 311 / 625) (by norm_num) (by norm_num) (δ := 4977 / 10000) (by norm_num)
  have a2 := a1.hornerU hx (RApx.const logD_p2 (Q := 23529 / 5000) (by norm_num [abs_le])).exactU .double s1 (by norm_num) (by norm_num) (by norm_num) (by norm_num)
    (R := 12129 / 2500) (by norm_num) (by norm_num) (δ := 6429 / 1250) (by norm_num)
  have a3 := a2.hornerU hx (RApx.const logD_p3 (Q := 1449893 / 100000) (by norm_num [abs_le])).exactU .double s1 (by norm_num) (by norm_num) (by norm_num) (by norm_num)
    (R := 398 / 25) (by norm_num) (by norm_num) (δ := 7539 / 400) (by norm_num)
  have a4 := a3.hornerU hx (RApx.const logD_p4 (Q := 1793687 / 100000) (by norm_num [abs_le])).exactU .double s1 (by norm_num) (by norm_num) (by norm_num) (by norm_num)
    (R := 112999 / 5000) (by norm_num) (by norm_num) (δ := 32783 / 1000) (by norm_num)
  have a5 := a4.hornerU hx (RApx.const logD_p5 (Q := 770839 / 100000) (by norm_num [abs_le])).exactU .double s1 (by norm_num) (by norm_num) (by norm_num) (by norm_num)
    (R := 71639 / 5000) (by norm_num) (by norm_num) (δ := 305491 / 10000) (by norm_num)
  rw [logDHP_eq]
  unfold logDP
  exact a5

theorem logD_hq_neg {x : BitVec 64} (hf : isFinite f64 x = true) (hle : |rval f64 x| ≤ 2928933 / 10000000) :
    RApx f64 (logDHQ x) 1 (logDQ (rval f64 x)) (649827 / 5000 * uRel f64) (130767 / 2500) := by
  have s1 := scale_one (F := f64) .double
  have hx : RApx f64 x 1 (rval f64 x) (0 * uRel f64) (2928933 / 10000000) := (RApx.self hf (by rw [mul_one]; exact hle)).exactU
  have b0 := (RApx.const logD_q0 (Q := 35273 / 3125) (by norm_num [abs_le])).exactU.addUB hx .double s1 (by norm_num) (R := 115803 / 10000) (by norm_num) (by norm_num)
    (δ := 28951 / 2500) (by norm_num)
  have b1 := b0.hornerU hx (RApx.const logD_q1 (Q := 565349 / 12500) (by norm_num [abs_le])).exactU .double s1 (by norm_num) (by norm_num) (by norm_num) (by norm_num)
    (R := 243099 / 5000) (by norm_num) (by norm_num) (δ := 110807 / 2000) (by norm_num)
  have b2 := b1.hornerU hx (RApx.const logD_q2 (Q := 8298753 / 100000) (by norm_num [abs_le])).exactU .double s1 (by norm_num) (by norm_num) (by norm_num) (by norm_num)
    (R := 24307 / 250) (by norm_num) (by norm_num) (δ := 638479 / 5000) (by norm_num)
  have b3 := b2.hornerU hx (RApx.const logD_q3 (Q := 889431 / 12500) (by norm_num [abs_le])).exactU .double s1 (by norm_num) (by norm_num) (by norm_num) (by norm_num)
    (R := 12454 / 125) (by norm_num) (by norm_num) (δ := 1655107 / 10000) (by norm_num)
  have b4 := b3.hornerU hx (RApx.const logD_q4 (Q := 2312517 / 100000) (by norm_num [abs_le])).exactU .double s1 (by norm_num) (by norm_num) (by norm_num) (by norm_num)
    (R := 130767 / 2500) (by norm_num) (by norm_num) (δ := 649827 / 5000) (by norm_num)
  rw [logDHQ_eq]
  unfold logDQ
  exact b4

theorem logD_pre_neg {x : BitVec 64} (hf : isFinite f64 x = true) (h0 : rval f64 x ≤ 0) (h1 : -0.2928933 ≤ rval f64 x)
    (hg : ∃ k : Int, rval f64 x = k * 2 ^ (-((f64.m : Int) + 1))) :
    LogPre f64 x (logDY x) (fMul f64 (fMul f64 x x) logConstD.half)
      (rval f64 x * rval f64 x * logDP (rval f64 x) * (rval f64 x / logDQ (rval f64 x)))
      (837 / 250) (737 / 5000) (2929 / 10000) (293 / 2000) (297 / 500) (2928933 / 10000000) (1) (70711 / 50000) := by
  have h2 : -0.2928933 ≤ rval f64 x := by norm_num at h0 h1 ⊢; linarith
  have h3 : rval f64 x ≤ 0.4142136 := by norm_num at h0 h1 ⊢; linarith
  have hd := logD_diff_neg (t := rval f64 x) (by norm_num at h0 h1 ⊢; linarith) (by norm_num at h0 h1 ⊢; linarith)
  have hql := logDQ_neg (t := rval f64 x) (by norm_num at h0 h1 ⊢; linarith)
  have hle : |rval f64 x| ≤ 2928933 / 10000000 := by rw [abs_le]; constructor <;> norm_num at h0 h1 ⊢ <;> linarith
  have t0 := abs_nonneg (rval f64 x)
  have ht1 : |rval f64 x| ≤ 1 := le_trans hle (by norm_num)
  have sc1 : Scale f64 |rval f64 x| := by
    have := scale_grid .double ht1 hg 1 (by decide) (by decide)
    rwa [pow_one] at this
  have sc2 : Scale f64 (|rval f64 x| * |rval f64 x|) := by
    have := scale_grid .double ht1 hg 2 (by decide) (by decide)
    rwa [pow_two] at this
  have sc3 : Scale f64 (|rval f64 x| * |rval f64 x| * |rval f64 x|) := by
    have := scale_grid .double ht1 hg 3 (by decide) (by decide)
    rwa [show |rval f64 x| ^ 3 = |rval f64 x| * |rval f64 x| * |rval f64 x| by ring] at this
  have hX : RApx f64 x |rval f64 x| (rval f64 x) (0 * uRel f64) 1 := (RApx.self hf (by rw [one_mul])).exactU
  have hH : RApx f64 logConstD.half 1 (1 / 2) (0 * uRel f64) (1 / 2) := (RApx.const expD_half (by norm_num)).exactU
  have hP := logD_hp_neg hf hle
  have hQ := logD_hq_neg hf hle
  have d1 := hX.divU hQ .double sc1 (by norm_num) (by norm_num) (by norm_num) (R := 11991 / 100000) (by norm_num) (L := 417 / 50) (le_trans hql (le_abs_self _)) (by norm_num) (by norm_num) (by norm_num) (by norm_num)
    (δ := 210843 / 100000) (by norm_num) (by norm_num)
  have x2 := hX.mulU hX .double t0 sc2 (by norm_num) (by norm_num) (by norm_num) (by norm_num) (R := 1) (by norm_num) (by norm_num) (δ := 100001 / 100000) (by norm_num)
  have m1 := x2.mulU hP .double sc2.nonneg (by rwa [mul_one]) (by norm_num) (by norm_num) (by norm_num) (by norm_num) (R := 71639 / 5000) (by norm_num) (by norm_num) (δ := 1184097 / 20000) (by norm_num)
  rw [mul_one] at m1
  have y1 := m1.mulU d1 .double sc2.nonneg sc3 (by norm_num) (by norm_num) (by norm_num) (by norm_num) (R := 34361 / 20000) (by norm_num) (by norm_num) (δ := 487831 / 12500) (by norm_num)
  have hk : |rval f64 x| * |rval f64 x| ≤ (2928933 / 10000000) * |rval f64 x| := mul_le_mul_of_nonneg_right hle t0
  have hk2 : |rval f64 x| * |rval f64 x| * |rval f64 x| ≤ ((2928933 / 10000000) * (2928933 / 10000000)) * |rval f64 x| :=
    mul_le_mul_of_nonneg_right (mul_le_mul hle hle t0 (by norm_num)) t0
  have y2 := y1.rescaleU (by norm_num) (by norm_num) hk2 t0 (γ := 837 / 250) (by norm_num) (Q := 737 / 5000) (by norm_num)
  have q1 := x2.mulU hH .double sc2.nonneg (by rwa [mul_one]) (by norm_num) (by norm_num) (by norm_num) (by norm_num) (R := 1 / 2) (by norm_num) (by norm_num) (δ := 100001 / 100000) (by norm_num)
  rw [mul_one] at q1
  have q2 := q1.rescaleU (by norm_num) (by norm_num) hk t0 (γ := 2929 / 10000) (by norm_num) (Q := 293 / 2000) (by norm_num)
  refine ⟨hf, hle, by unfold logDY; exact y2, q2, ?_, log_neg_lo h0 h1, (le_trans (log_neg_hi h0 h1) (le_of_eq (by norm_num))), log_abs h2 h3, hg⟩
  refine le_trans (logD_apx hle (by norm_num) hd (by norm_num) hql) (mul_le_mul_of_nonneg_right ?_ t0)
  unfold uRel
  norm_num [f64]

theorem logD_cheb_pos : chebBound (0) (517767 / 1250000) logDDiff ≤ 1351 / 1000000000000000000 := by decide +kernel

theorem logD_diff_pos {t : ℝ} (h0 : 0 ≤ t) (h1 : t ≤ 517767 / 1250000) : |pEval logDDiff t| ≤ 1351 / 1000000000000000000 := by
  refine le_trans (cheb_bound (lo := 0) (hi := 517767 / 1250000) (by norm_num) (by push_cast; exact h0) (by push_cast; exact h1)) ?_
  refine le_trans (Rat.cast_le.mpr logD_cheb_pos) ?_
  push_cast; norm_num

theorem logDQ_pos {t : ℝ} (h0 : 0 ≤ t) : 578 / 25 ≤ logDQ t := by
  obtain ⟨s, rfl⟩ : ∃ s, t = s + (0) := ⟨t - (0), by ring⟩
  have hs : 0 ≤ s := by linarith
  have e : logDQ (s + (0)) = (3254577219474137 / 140737488355328) + s * ((5007051052723745 / 70368744177664) + s * ((5839728035675581 / 70368744177664) + s * ((6365263102066739 / 140737488355328) + s * ((3177109032531911 / 281474976710656) + s * (1))))) := by
    unfold logDQ; ring
  rw [e]
  refine le_add_of_le_of_nonneg (by norm_num) (by positivity)

theorem logD_hp_pos {x : BitVec 64} (hf : isFinite f64 x = true) (hle : |rval f64 x| ≤ 517767 / 1250000) :
    RApx f64 (logDHP x) 1 (logDP (rval f64 x)) (28068 / 625 * uRel f64) (179749 / 10000) := by
  have s1 := scale_one (F := f64) .double
  have hx : RApx f64 x 1 (rval f64 x) (0 * uRel f64) (517767 / 1250000) := (RApx.self hf (by rw [mul_one]; exact hle)).exactU
  have a0 := (RApx.const logD_p0 (Q := 11 / 100000) (by norm_num [abs_le])).exactU
  have a1 := a0.hornerU hx (RApx.const logD_p1 (Q := 199 / 400) (by norm_num [abs_le])).exactU .double s1 (by norm_num) (by norm_num) (by norm_num) (by norm_num)
    (R := 311 / 625) (by norm_num) (by norm_num) (δ := 4977 / 10000) (by norm_num)
  have a2 := a1.hornerU hx (RApx.const logD_p2 (Q := 23529 / 5000) (by norm_num [abs_le])).exactU .double s1 (by norm_num) (by norm_num) (by norm_num) (by norm_num)
    (R := 614 / 125) (by norm_num) (by norm_num) (δ := 53243 / 10000) (by norm_num)
  have a3 := a2.hornerU hx (RApx.const logD_p3 (Q := 1449893 / 100000) (by norm_num [abs_le])).exactU .double s1 (by norm_num) (by norm_num) (by norm_num) (by norm_num)
    (R := 20667 / 1250) (by norm_num) (by norm_num) (δ := 207737 / 10000) (by norm_num)
  have a4 := a3.hornerU hx (RApx.const logD_p4 (Q := 1793687 / 100000) (by norm_num [abs_le])).exactU .double s1 (by norm_num) (by norm_num) (by norm_num) (by norm_num)
    (R := 123927 / 5000) (by norm_num) (by norm_num) (δ := 201193 / 5000) (by norm_num)
  have a5 := a4.hornerU hx (RApx.const logD_p5 (Q := 770839 / 100000) (by norm_num [abs_le])).exactU .double s1 (by norm_num) (by norm_num) (by norm_num) (by norm_num)
    (R := 179749 / 10000) (by norm_num) (by norm_num) (δ := 28068 / 625) (by norm_num)
  rw [logDHP_eq]
  unfold logDP
  exact a5

theorem logD_hq_pos {x : BitVec 64} (hf : isFinite f64 x = true) (hle : |rval f64 x| ≤ 517767 / 1250000) :
    RApx f64 (logDHQ x) 1 (logDQ (rval f64 x)) (2083369 / 10000 * uRel f64) (140791 / 2000) := by
  have s1 := scale_one (F := f64) .double
  have hx : RApx f64 x 1 (rval f64 x) (0 * uRel f64) (517767 / 1250000) := (RApx.self hf (by rw [mul_one]; exact hle)).exactU
  have b0 := (RApx.const logD_q0 (Q := 35273 / 3125) (by norm_num [abs_le])).exactU.addUB hx .double s1 (by norm_num) (R := 14627 / 1250) (by norm_num) (by norm_num)
    (δ := 117017 / 10000) (by norm_num)
  have b1 := b0.hornerU hx (RApx.const logD_q1 (Q := 565349 / 12500) (by norm_num [abs_le])).exactU .double s1 (by norm_num) (by norm_num) (by norm_num) (by norm_num)
    (R := 500749 / 10000) (by norm_num) (by norm_num) (δ := 597689 / 10000) (by norm_num)
  have b2 := b1.hornerU hx (RApx.const logD_q2 (Q := 8298753 / 100000) (by norm_num [abs_le])).exactU .double s1 (by norm_num) (by norm_num) (by norm_num) (by norm_num)
    (R := 1037293 / 10000) (by norm_num) (by norm_num) (δ := 746141 / 5000) (by norm_num)
  have b3 := b2.hornerU hx (RApx.const logD_q3 (Q := 889431 / 12500) (by norm_num [abs_le])).exactU .double s1 (by norm_num) (by norm_num) (by norm_num) (by norm_num)
    (R := 570603 / 5000) (by norm_num) (by norm_num) (δ := 2188991 / 10000) (by norm_num)
  have b4 := b3.hornerU hx (RApx.const logD_q4 (Q := 2312517 / 100000) (by norm_num [abs_le])).exactU .double s1 (by norm_num) (by norm_num) (by norm_num) (by norm_num)
    (R := 140791 / 2000) (by norm_num) (by norm_num) (δ := 2083369 / 10000) (by norm_num)
  rw [logDHQ_eq]
  unfold logDQ
  exact b4

theorem logD_pre_pos {x : BitVec 64} (hf : isFinite f64 x = true) (h0 : 0 ≤ rval f64 x) (h1 : rval f64 x ≤ 0.4142136)
    (hg : ∃ k : Int, rval f64 x = k * 2 ^ (-((f64.m : Int) + 1))) :
    LogPre f64 x (logDY x) (fMul f64 (fMul f64 x x) logConstD.half)
      (rval f64 x * rval f64 x * logDP (rval f64 x) * (rval f64 x / logDQ (rval f64 x)))
      (22027 / 10000) (267 / 2000) (4143 / 10000) (259 / 1250) (211 / 400) (517767 / 1250000) (2071 / 2500) (1) := by
  have h2 : -0.2928933 ≤ rval f64 x := by norm_num at h0 h1 ⊢; linarith
  have h3 : rval f64 x ≤ 0.4142136 := by norm_num at h0 h1 ⊢; linarith
  have hd := logD_diff_pos (t := rval f64 x) (by norm_num at h0 h1 ⊢; linarith) (by norm_num at h0 h1 ⊢; linarith)
  have hql := logDQ_pos (t := rval f64 x) (by norm_num at h0 h1 ⊢; linarith)
  have hle : |rval f64 x| ≤ 517767 / 1250000 := by rw [abs_le]; constructor <;> norm_num at h0 h1 ⊢ <;> linarith
  have t0 := abs_nonneg (rval f64 x)
  have ht1 : |rval f64 x| ≤ 1 := le_trans hle (by norm_num)
  have sc1 : Scale f64 |rval f64 x| := by
    have := scale_grid .double ht1 hg 1 (by decide) (by decide)
    rwa [pow_one] at this
  have sc2 : Scale f64 (|rval f64 x| * |rval f64 x|) := by
    have := scale_grid .double ht1 hg 2 (by decide) (by decide)
    rwa [pow_two] at this
  have sc3 : Scale f64 (|rval f64 x| * |rval f64 x| * |rval f64 x|) := by
    have := scale_grid .double ht1 hg 3 (by decide) (by decide)
    rwa [show |rval f64 x| ^ 3 = |rval f64 x| * |rval f64 x| * |rval f64 x| by ring] at this
  have hX : RApx f64 x |rval f64 x| (rval f64 x) (0 * uRel f64) 1 := (RApx.self hf (by rw [one_mul])).exactU
  have hH : RApx f64 logConstD.half 1 (1 / 2) (0 * uRel f64) (1 / 2) := (RApx.const expD_half (by norm_num)).exactU
  have hP := logD_hp_pos hf hle
  have hQ := logD_hq_pos hf hle
  have d1 := hX.divU hQ .double sc1 (by norm_num) (by norm_num) (by norm_num) (R := 2163 / 50000) (by norm_num) (L := 578 / 25) (le_trans hql (le_abs_self _)) (by norm_num) (by norm_num) (by norm_num) (by norm_num)
    (δ := 9527 / 20000) (by norm_num) (by norm_num)
  have x2 := hX.mulU hX .double t0 sc2 (by norm_num) (by norm_num) (by norm_num) (by norm_num) (R := 1) (by norm_num) (by norm_num) (δ := 100001 / 100000) (by norm_num)
  have m1 := x2.mulU hP .double sc2.nonneg (by rwa [mul_one]) (by norm_num) (by norm_num) (by norm_num) (by norm_num) (R := 179749 / 10000) (by norm_num) (by norm_num) (δ := 8085879 / 100000) (by norm_num)
  rw [mul_one] at m1
  have y1 := m1.mulU d1 .double sc2.nonneg sc3 (by norm_num) (by norm_num) (by norm_num) (by norm_num) (R := 486 / 625) (by norm_num) (by norm_num) (δ := 128379 / 10000) (by norm_num)
  have hk : |rval f64 x| * |rval f64 x| ≤ (517767 / 1250000) * |rval f64 x| := mul_le_mul_of_nonneg_right hle t0
  have hk2 : |rval f64 x| * |rval f64 x| * |rval f64 x| ≤ ((517767 / 1250000) * (517767 / 1250000)) * |rval f64 x| :=
    mul_le_mul_of_nonneg_right (mul_le_mul hle hle t0 (by norm_num)) t0
  have y2 := y1.rescaleU (by norm_num) (by norm_num) hk2 t0 (γ := 22027 / 10000) (by norm_num) (Q := 267 / 2000) (by norm_num)
  have q1 := x2.mulU hH .double sc2.nonneg (by rwa [mul_one]) (by norm_num) (by norm_num) (by norm_num) (by norm_num) (R := 1 / 2) (by norm_num) (by norm_num) (δ := 100001 / 100000) (by norm_num)
  rw [mul_one] at q1
  have q2 := q1.rescaleU (by norm_num) (by norm_num) hk t0 (γ := 4143 / 10000) (by norm_num) (Q := 259 / 1250) (by norm_num)
  refine ⟨hf, hle, by unfold logDY; exact y2, q2, ?_, (le_trans (le_of_eq (by norm_num)) (log_pos_lo h0 h1)), log_pos_hi h0, log_abs h2 h3, hg⟩
  refine le_trans (logD_apx hle (by norm_num) hd (by norm_num) hql) (mul_le_mul_of_nonneg_right ?_ t0)
  unfold uRel
  norm_num [f64]

theorem logD_all {X x e : BitVec 64} {E : Int} (hr : LogRedR f64 X x e E) :
    (isFinite f64 (logSeriesD (sArith f64 64) .e x e) = true ∧
      |rval f64 (logSeriesD (sArith f64 64) .e x e) - Real.log (rval f64 X)| ≤ 8 * uRel f64 * |Real.log (rval f64 X)|) ∧
    (isFinite f64 (logSeriesD (sArith f64 64) .ten x e) = true ∧
      |rval f64 (logSeriesD (sArith f64 64) .ten x e) - Real.log (rval f64 X) / Real.log 10| ≤
        16 * uRel f64 * |Real.log (rval f64 X) / Real.log 10|) ∧
    (isFinite f64 (logSeriesD (sArith f64 64) .two x e) = true ∧
      |rval f64 (logSeriesD (sArith f64 64) .two x e) - Real.log (rval f64 X) / Real.log 2| ≤
        16 * uRel f64 * |Real.log (rval f64 X) / Real.log 2|) := by
  rw [logSeriesD_eq, logSeriesD_eq, logSeriesD_eq]
  have hZ : ((oneExp f64 : Nat) : ℝ) * 0.0002122 ≤ 0.228 := by norm_num [show oneExp f64 = 1074 from rfl]
  rcases le_total (rval f64 x) 0 with h0 | h0
  · have hp := logD_pre_neg hr.mfin h0 hr.lo hr.grid
    have he := logEnd_e logC_D hr hp (by norm_num) (by norm_num) (by norm_num) (by norm_num) (by norm_num) (by norm_num) (ω := 8) (by norm_num) hZ
      (by norm_num [LogOk, logNeedE]) (by norm_num [LogOk, logNeedE]) (by norm_num [LogOk, logNeedE])
    exact ⟨he, logEnd_10 logC_D hr he (by norm_num) (by norm_num) (by norm_num),
      logEnd_2 logC_D hr hp (by norm_num) (by norm_num) (by norm_num) (by norm_num) (by norm_num) (by norm_num) (by norm_num) (by norm_num) (by norm_num [LogOk2, logNeed2])
        (by norm_num [LogOk2, logNeed2])⟩
  · have hp := logD_pre_pos hr.mfin h0 hr.hi hr.grid
    have he := logEnd_e logC_D hr hp (by norm_num) (by norm_num) (by norm_num) (by norm_num) (by norm_num) (by norm_num) (ω := 8) (by norm_num) hZ
      (by norm_num [LogOk, logNeedE]) (by norm_num [LogOk, logNeedE]) (by norm_num [LogOk, logNeedE])
    exact ⟨he, logEnd_10 logC_D hr he (by norm_num) (by norm_num) (by norm_num),
      logEnd_2 logC_D hr hp (by norm_num) (by norm_num) (by norm_num) (by norm_num) (by norm_num) (by norm_num) (by norm_num) (by norm_num) (by norm_num [LogOk2, logNeed2])
        (by norm_num [LogOk2, logNeed2])⟩

end Vc.Lemma
