import Verif.Lemma.TrigBase

/-!
The series of `sin` and `cos` of float.
-/

namespace Vc.Lemma
open Vc.Model Vc.Spec

set_option maxRecDepth 10000

theorem cosF_k0 : isFinite f32 0x37d00000#32 = true ∧ rval f32 0x37d00000#32 = 13 / 524288 := by
  refine ⟨by decide, rval_lit false 111 5242880 (-39) (by decide) (by decide) (by decide) (by decide) (by decide) ?_⟩
  norm_num [f32]

theorem cosF_k1 : isFinite f32 0xbab60800#32 = true ∧ rval f32 0xbab60800#32 = -(5825 / 4194304) := by
  refine ⟨by decide, rval_lit true 117 3540992 (-33) (by decide) (by decide) (by decide) (by decide) (by decide) ?_⟩
  norm_num [f32]

theorem cosF_k2 : isFinite f32 0x3d2aaaab#32 = true ∧ rval f32 0x3d2aaaab#32 = 11184811 / 268435456 := by
  refine ⟨by decide, rval_lit false 122 2796203 (-28) (by decide) (by decide) (by decide) (by decide) (by decide) ?_⟩
  norm_num [f32]

theorem cosF_half : isFinite f32 0x3f000000#32 = true ∧ rval f32 0x3f000000#32 = 1 / 2 := by
  refine ⟨by decide, rval_lit false 126 0 (-24) (by decide) (by decide) (by decide) (by decide) (by decide) ?_⟩
  norm_num [f32]

theorem cosF_one : isFinite f32 0x3f800000#32 = true ∧ rval f32 0x3f800000#32 = 1 := by
  refine ⟨by decide, rval_lit false 127 0 (-23) (by decide) (by decide) (by decide) (by decide) (by decide) ?_⟩
  norm_num [f32]

def cosFA : List ℚ := [1, -(1 / 2), 11184811 / 268435456, -(5825 / 4194304), 13 / 524288]

def cosFDiff : List ℚ := pAdd cosFA (pScale (-1) (cosTaylor 0 7))

theorem cosF_cheb : chebBound 0 (2468041 / 4000000) cosFDiff ≤ 2388471 / 50000000000000 := by decide +kernel

theorem cosF_apx {t : ℝ} (ht : |t| ≤ 1571 / 2000) : |pEval cosFA (t * t) - Real.cos t| ≤ 63682314642115965372479618905639941364951925789881 / 1333107181486080000000000000000000000000000000000000000000 := by
  have hs : |t| ^ 2 ≤ (1571 / 2000) ^ 2 := pow_le_pow_left₀ (abs_nonneg t) ht 2
  rw [sq_abs] at hs
  have hd : |pEval cosFDiff (t * t)| ≤ 2388471 / 50000000000000 := by
    refine le_trans (cheb_bound (lo := 0) (hi := 2468041 / 4000000) (by norm_num) (by push_cast; nlinarith) (by push_cast; norm_num at hs ⊢; nlinarith)) ?_
    refine le_trans (Rat.cast_le.mpr cosF_cheb) ?_
    push_cast; norm_num
  have e1 : pEval cosFA (t * t) = pEval cosFDiff (t * t) + pEval (cosTaylor 0 7) (t * t) := by
    rw [cosFDiff, pEval_add, pEval_scale]; push_cast; ring
  have ht1 : |t| ≤ 1 := le_trans ht (by norm_num)
  have h2 := (taylor ht1 (n := 7) (by decide)).1
  have h3 : |t| ^ (2 * 7) ≤ (1571 / 2000) ^ (2 * 7) := pow_le_pow_left₀ (abs_nonneg t) ht _
  have h4 : |t| ^ (2 * 7) * (((2 * 7 : Nat) + 1 : ℝ) / ((2 * 7).factorial * (2 * 7 : Nat))) ≤ 557784691185698879618905639941364951925789881 / 1333107181486080000000000000000000000000000000000000000000 := by
    refine le_trans (mul_le_mul_of_nonneg_right h3 (by positivity)) ?_
    rw [show Nat.factorial (2 * 7) = 87178291200 by decide]
    norm_num
  rw [e1, show pEval cosFDiff (t * t) + pEval (cosTaylor 0 7) (t * t) - Real.cos t =
    pEval cosFDiff (t * t) + (pEval (cosTaylor 0 7) (t * t) - Real.cos t) by ring]
  refine le_trans (abs_add_le _ _) ?_
  linarith

theorem cosF_eq (t : BitVec 32) : cosSeriesF (sArith f32 32) t =
    fAdd f32 (fSub f32 (fMul f32 (fAdd f32 (fMul f32 (fAdd f32 (fMul f32 0x37d00000#32 (fMul f32 t t)) 0xbab60800#32) (fMul f32 t t)) 0x3d2aaaab#32) (fMul f32 (fMul f32 t t) (fMul f32 t t))) (fMul f32 0x3f000000#32 (fMul f32 t t))) 0x3f800000#32 := by
  simp only [cosSeriesF, horner, List.foldl_cons, List.foldl_nil, sArith, id]

/-- The error of the series. -/
theorem cosF_err {t : BitVec 32} (hf : isFinite f32 t = true) (hle : |rval f32 t| ≤ 1571 / 2000) :
    ApproxAbs f32 (Real.cos (rval f32 t)) (3151 / 1000 * uRel f32) (cosSeriesF (sArith f32 32) t) := by
  have s1 := scale_one (F := f32) .single
  have hx : RApx f32 t 1 (rval f32 t) (0 * uRel f32) (1571 / 2000) := (RApx.self hf (by rw [mul_one]; exact hle)).exactU
  have m0 := hx.mul1U hx .single (by norm_num) (by norm_num) (by norm_num) (by norm_num)
    (R := 30851 / 50000) (by norm_num) (by norm_num) (δ := 6171 / 10000) (by norm_num)
  have k1 := (RApx.const cosF_k0 (Q := 3 / 100000) (by norm_num [abs_le])).exactU
  have m2 := k1.mul1U m0 .single (by norm_num) (by norm_num) (by norm_num) (by norm_num)
    (R := 1 / 50000) (by norm_num) (by norm_num) (δ := 1 / 10000) (by norm_num)
  have k3 := (RApx.const cosF_k1 (Q := 139 / 100000) (by norm_num [abs_le])).exactU
  have m4 := m2.addUB k3 .single s1 (by norm_num) (R := 141 / 100000) (by norm_num) (by norm_num) (δ := 1 / 625) (by norm_num)
  have m5 := m4.mul1U m0 .single (by norm_num) (by norm_num) (by norm_num) (by norm_num)
    (R := 87 / 100000) (by norm_num) (by norm_num) (δ := 7 / 2500) (by norm_num)
  have k6 := (RApx.const cosF_k2 (Q := 4167 / 100000) (by norm_num [abs_le])).exactU
  have m7 := m5.addUB k6 .single s1 (by norm_num) (R := 2127 / 50000) (by norm_num) (by norm_num) (δ := 227 / 5000) (by norm_num)
  have m8 := m0.mul1U m0 .single (by norm_num) (by norm_num) (by norm_num) (by norm_num)
    (R := 4759 / 12500) (by norm_num) (by norm_num) (δ := 11423 / 10000) (by norm_num)
  have m9 := m7.mul1U m8 .single (by norm_num) (by norm_num) (by norm_num) (by norm_num)
    (R := 81 / 5000) (by norm_num) (by norm_num) (δ := 821 / 10000) (by norm_num)
  have k10 := (RApx.const cosF_half (Q := 1 / 2) (by norm_num [abs_le])).exactU
  have m11 := k10.mul1U m0 .single (by norm_num) (by norm_num) (by norm_num) (by norm_num)
    (R := 30851 / 100000) (by norm_num) (by norm_num) (δ := 6171 / 10000) (by norm_num)
  have m12 := m9.subUB m11 .single s1 (by norm_num) (R := 32471 / 100000) (by norm_num) (by norm_num) (δ := 128 / 125) (by norm_num)
  have k13 := (RApx.const cosF_one (Q := 1) (by norm_num [abs_le])).exactU
  have m14 := m12.addUB k13 .single s1 (by norm_num) (R := 132471 / 100000) (by norm_num) (by norm_num) (δ := 1468 / 625) (by norm_num)
  rw [cosF_eq]
  refine ⟨m14.fin, ?_⟩
  have e := m14.err
  have hp := cosF_apx hle
  generalize rval f32 t = T at *
  simp only [cosFA, pEval] at hp
  push_cast at hp
  refine le_trans (abs_sub_le _ _ _) (le_trans (add_le_add e (le_trans (le_of_eq ?_) hp)) ?_)
  · congr 1; ring
  · rw [mul_one]
    have : uRel f32 = 1 / 16777216 := by unfold uRel; norm_num [f32]
    rw [this]; norm_num

theorem sinF_k0 : isFinite f32 0xb94e6000#32 = true ∧ rval f32 0xb94e6000#32 = -(1651 / 8388608) := by
  refine ⟨by decide, rval_lit true 114 5136384 (-36) (by decide) (by decide) (by decide) (by decide) (by decide) ?_⟩
  norm_num [f32]

theorem sinF_k1 : isFinite f32 0x3c088880#32 = true ∧ rval f32 0x3c088880#32 = 69905 / 8388608 := by
  refine ⟨by decide, rval_lit false 120 559232 (-30) (by decide) (by decide) (by decide) (by decide) (by decide) ?_⟩
  norm_num [f32]

theorem sinF_k2 : isFinite f32 0xbe2aaaab#32 = true ∧ rval f32 0xbe2aaaab#32 = -(11184811 / 67108864) := by
  refine ⟨by decide, rval_lit true 124 2796203 (-26) (by decide) (by decide) (by decide) (by decide) (by decide) ?_⟩
  norm_num [f32]

def sinFA : List ℚ := [1, -(11184811 / 67108864), 69905 / 8388608, -(1651 / 8388608)]

def sinFDiff : List ℚ := pAdd sinFA (pScale (-1) (sinTaylor 0 7))

theorem sinF_cheb : chebBound 0 (2468041 / 4000000) sinFDiff ≤ 1991679 / 50000000000000 := by decide +kernel

theorem sinF_apx {t : ℝ} (ht : |t| ≤ 1571 / 2000) : |t * pEval sinFA (t * t) - Real.sin t| ≤ 53102989346991472265279618905639941364951925789881 / 1333107181486080000000000000000000000000000000000000000000 := by
  have hs : |t| ^ 2 ≤ (1571 / 2000) ^ 2 := pow_le_pow_left₀ (abs_nonneg t) ht 2
  rw [sq_abs] at hs
  have hd : |pEval sinFDiff (t * t)| ≤ 1991679 / 50000000000000 := by
    refine le_trans (cheb_bound (lo := 0) (hi := 2468041 / 4000000) (by norm_num) (by push_cast; nlinarith) (by push_cast; norm_num at hs ⊢; nlinarith)) ?_
    refine le_trans (Rat.cast_le.mpr sinF_cheb) ?_
    push_cast; norm_num
  have e1 : pEval sinFA (t * t) = pEval sinFDiff (t * t) + pEval (sinTaylor 0 7) (t * t) := by
    rw [sinFDiff, pEval_add, pEval_scale]; push_cast; ring
  have ht1 : |t| ≤ 1 := le_trans ht (by norm_num)
  have h2 := (taylor ht1 (n := 7) (by decide)).2
  have h3 : |t| ^ (2 * 7) ≤ (1571 / 2000) ^ (2 * 7) := pow_le_pow_left₀ (abs_nonneg t) ht _
  have h4 : |t| ^ (2 * 7) * (((2 * 7 : Nat) + 1 : ℝ) / ((2 * 7).factorial * (2 * 7 : Nat))) ≤ 557784691185698879618905639941364951925789881 / 1333107181486080000000000000000000000000000000000000000000 := by
    refine le_trans (mul_le_mul_of_nonneg_right h3 (by positivity)) ?_
    rw [show Nat.factorial (2 * 7) = 87178291200 by decide]
    norm_num
  rw [e1, show t * (pEval sinFDiff (t * t) + pEval (sinTaylor 0 7) (t * t)) - Real.sin t =
    t * pEval sinFDiff (t * t) + (t * pEval (sinTaylor 0 7) (t * t) - Real.sin t) by ring]
  refine le_trans (abs_add_le _ _) ?_
  rw [abs_mul]
  have h5 := mul_le_mul ht1 hd (abs_nonneg _) (by norm_num)
  linarith

theorem sinF_eq (t : BitVec 32) : sinSeriesF (sArith f32 32) t =
    fAdd f32 (fMul f32 (fAdd f32 (fMul f32 (fAdd f32 (fMul f32 0xb94e6000#32 (fMul f32 t t)) 0x3c088880#32) (fMul f32 t t)) 0xbe2aaaab#32) (fMul f32 (fMul f32 t t) t)) t := by
  simp only [sinSeriesF, horner, List.foldl_cons, List.foldl_nil, sArith, id]

/-- The error of the series. -/
theorem sinF_err {t : BitVec 32} (hf : isFinite f32 t = true) (hle : |rval f32 t| ≤ 1571 / 2000) :
    ApproxAbs f32 (Real.sin (rval f32 t)) (1879 / 1000 * uRel f32) (sinSeriesF (sArith f32 32) t) := by
  have s1 := scale_one (F := f32) .single
  have hx : RApx f32 t 1 (rval f32 t) (0 * uRel f32) (1571 / 2000) := (RApx.self hf (by rw [mul_one]; exact hle)).exactU
  have m0 := hx.mul1U hx .single (by norm_num) (by norm_num) (by norm_num) (by norm_num)
    (R := 30851 / 50000) (by norm_num) (by norm_num) (δ := 6171 / 10000) (by norm_num)
  have k1 := (RApx.const sinF_k0 (Q := 1 / 5000) (by norm_num [abs_le])).exactU
  have m2 := k1.mul1U m0 .single (by norm_num) (by norm_num) (by norm_num) (by norm_num)
    (R := 13 / 100000) (by norm_num) (by norm_num) (δ := 3 / 10000) (by norm_num)
  have k3 := (RApx.const sinF_k1 (Q := 417 / 50000) (by norm_num [abs_le])).exactU
  have m4 := m2.addUB k3 .single s1 (by norm_num) (R := 847 / 100000) (by norm_num) (by norm_num) (δ := 11 / 1250) (by norm_num)
  have m5 := m4.mul1U m0 .single (by norm_num) (by norm_num) (by norm_num) (by norm_num)
    (R := 523 / 100000) (by norm_num) (by norm_num) (δ := 159 / 10000) (by norm_num)
  have k6 := (RApx.const sinF_k2 (Q := 16667 / 100000) (by norm_num [abs_le])).exactU
  have m7 := m5.addUB k6 .single s1 (by norm_num) (R := 1719 / 10000) (by norm_num) (by norm_num) (δ := 1879 / 10000) (by norm_num)
  have m8 := m0.mul1U hx .single (by norm_num) (by norm_num) (by norm_num) (by norm_num)
    (R := 48467 / 100000) (by norm_num) (by norm_num) (δ := 1939 / 2000) (by norm_num)
  have m9 := m7.mul1U m8 .single (by norm_num) (by norm_num) (by norm_num) (by norm_num)
    (R := 2083 / 25000) (by norm_num) (by norm_num) (δ := 3411 / 10000) (by norm_num)
  have m10 := m9.addUB hx .single s1 (by norm_num) (R := 43441 / 50000) (by norm_num) (by norm_num) (δ := 121 / 100) (by norm_num)
  rw [sinF_eq]
  refine ⟨m10.fin, ?_⟩
  have e := m10.err
  have hp := sinF_apx hle
  generalize rval f32 t = T at *
  simp only [sinFA, pEval] at hp
  push_cast at hp
  refine le_trans (abs_sub_le _ _ _) (le_trans (add_le_add e (le_trans (le_of_eq ?_) hp)) ?_)
  · congr 1; ring
  · rw [mul_one]
    have : uRel f32 = 1 / 16777216 := by unfold uRel; norm_num [f32]
    rw [this]; norm_num

end Vc.Lemma
