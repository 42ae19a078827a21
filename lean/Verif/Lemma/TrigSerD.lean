import Verif.Lemma.TrigBase

/-!
The series of `sin` and `cos` of double.
-/

namespace Vc.Lemma
open Vc.Model Vc.Spec

set_option maxRecDepth 10000

theorem cosD_k0 : isFinite f64 0x3d2ac00000000000#64 = true ∧ rval f64 0x3d2ac00000000000#64 = 107 / 2251799813685248 := by
  refine ⟨by decide, rval_lit false 978 3025855999639552 (-97) (by decide) (by decide) (by decide) (by decide) (by decide) ?_⟩
  norm_num [f64]

theorem cosD_k1 : isFinite f64 0xbda9394000000000#64 = true ∧ rval f64 0xbda9394000000000#64 = -(25829 / 2251799813685248) := by
  refine ⟨by decide, rval_lit true 986 2596221831086080 (-89) (by decide) (by decide) (by decide) (by decide) (by decide) ?_⟩
  norm_num [f64]

theorem cosD_k2 : isFinite f64 0x3e21eed8c0000000#64 = true ∧ rval f64 0x3e21eed8c0000000#64 = 4701027 / 2251799813685248 := by
  refine ⟨by decide, rval_lit false 994 544089678282752 (-81) (by decide) (by decide) (by decide) (by decide) (by decide) ?_⟩
  norm_num [f64]

theorem cosD_k3 : isFinite f64 0xbe927e4fb7400000#64 = true ∧ rval f64 0xbe927e4fb7400000#64 = -(1241071325 / 4503599627370496) := by
  refine ⟨by decide, rval_lit true 1001 701830795362304 (-74) (by decide) (by decide) (by decide) (by decide) (by decide) ?_⟩
  norm_num [f64]

theorem cosD_k4 : isFinite f64 0x3efa01a01a018000#64 = true ∧ rval f64 0x3efa01a01a018000#64 = 223392838659 / 9007199254740992 := by
  refine ⟨by decide, rval_lit false 1007 2816536909807616 (-68) (by decide) (by decide) (by decide) (by decide) (by decide) ?_⟩
  norm_num [f64]

theorem cosD_k5 : isFinite f64 0xbf56c16c16c16c00#64 = true ∧ rval f64 0xbf56c16c16c16c00#64 = -(6254999482459 / 4503599627370496) := by
  refine ⟨by decide, rval_lit true 1013 1901519842667520 (-62) (by decide) (by decide) (by decide) (by decide) (by decide) ?_⟩
  norm_num [f64]

theorem cosD_k6 : isFinite f64 0x3fa5555555555554#64 = true ∧ rval f64 0x3fa5555555555554#64 = 1501199875790165 / 36028797018963968 := by
  refine ⟨by decide, rval_lit false 1018 1501199875790164 (-57) (by decide) (by decide) (by decide) (by decide) (by decide) ?_⟩
  norm_num [f64]

theorem cosD_half : isFinite f64 0x3fe0000000000000#64 = true ∧ rval f64 0x3fe0000000000000#64 = 1 / 2 := by
  refine ⟨by decide, rval_lit false 1022 0 (-53) (by decide) (by decide) (by decide) (by decide) (by decide) ?_⟩
  norm_num [f64]

theorem cosD_one : isFinite f64 0x3ff0000000000000#64 = true ∧ rval f64 0x3ff0000000000000#64 = 1 := by
  refine ⟨by decide, rval_lit false 1023 0 (-52) (by decide) (by decide) (by decide) (by decide) (by decide) ?_⟩
  norm_num [f64]

def cosDA : List ℚ := [1, -(1 / 2), 1501199875790165 / 36028797018963968, -(6254999482459 / 4503599627370496), 223392838659 / 9007199254740992, -(1241071325 / 4503599627370496), 4701027 / 2251799813685248, -(25829 / 2251799813685248), 107 / 2251799813685248]

def cosDDiff : List ℚ := pAdd cosDA (pScale (-1) (cosTaylor 0 10))

theorem cosD_cheb : chebBound 0 (2468041 / 4000000) cosDDiff ≤ 7659 / 5000000000000000000000 := by decide +kernel

theorem cosD_apx {t : ℝ} (ht : |t| ≤ 1571 / 2000) : |pEval cosDA (t * t) - Real.cos t| ≤ 3730050553299116873817487160994492317080613567120147778487947632401 / 2429602529643646156800000000000000000000000000000000000000000000000000000000000000000 := by
  have hs : |t| ^ 2 ≤ (1571 / 2000) ^ 2 := pow_le_pow_left₀ (abs_nonneg t) ht 2
  rw [sq_abs] at hs
  have hd : |pEval cosDDiff (t * t)| ≤ 7659 / 5000000000000000000000 := by
    refine le_trans (cheb_bound (lo := 0) (hi := 2468041 / 4000000) (by norm_num) (by push_cast; nlinarith) (by push_cast; norm_num at hs ⊢; nlinarith)) ?_
    refine le_trans (Rat.cast_le.mpr cosD_cheb) ?_
    push_cast; norm_num
  have e1 : pEval cosDA (t * t) = pEval cosDDiff (t * t) + pEval (cosTaylor 0 10) (t * t) := by
    rw [cosDDiff, pEval_add, pEval_scale]; push_cast; ring
  have ht1 : |t| ≤ 1 := le_trans ht (by norm_num)
  have h2 := (taylor ht1 (n := 10) (by decide)).1
  have h3 : |t| ^ (2 * 10) ≤ (1571 / 2000) ^ (2 * 10) := pow_le_pow_left₀ (abs_nonneg t) ht _
  have h4 : |t| ^ (2 * 10) * (((2 * 10 : Nat) + 1 : ℝ) / ((2 * 10).factorial * (2 * 10 : Nat))) ≤ 8385398390979690831247160994492317080613567120147778487947632401 / 2429602529643646156800000000000000000000000000000000000000000000000000000000000000000 := by
    refine le_trans (mul_le_mul_of_nonneg_right h3 (by positivity)) ?_
    rw [show Nat.factorial (2 * 10) = 2432902008176640000 by decide]
    norm_num
  rw [e1, show pEval cosDDiff (t * t) + pEval (cosTaylor 0 10) (t * t) - Real.cos t =
    pEval cosDDiff (t * t) + (pEval (cosTaylor 0 10) (t * t) - Real.cos t) by ring]
  refine le_trans (abs_add_le _ _) ?_
  linarith

theorem cosD_eq (t : BitVec 64) : cosSeriesD (sArith f64 64) t =
    fAdd f64 (fMul f64 (fSub f64 (fMul f64 (fAdd f64 (fMul f64 (fAdd f64 (fMul f64 (fAdd f64 (fMul f64 (fAdd f64 (fMul f64 (fAdd f64 (fMul f64 (fAdd f64 (fMul f64 0x3d2ac00000000000#64 (fMul f64 t t)) 0xbda9394000000000#64) (fMul f64 t t)) 0x3e21eed8c0000000#64) (fMul f64 t t)) 0xbe927e4fb7400000#64) (fMul f64 t t)) 0x3efa01a01a018000#64) (fMul f64 t t)) 0xbf56c16c16c16c00#64) (fMul f64 t t)) 0x3fa5555555555554#64) (fMul f64 t t)) 0x3fe0000000000000#64) (fMul f64 t t)) 0x3ff0000000000000#64 := by
  simp only [cosSeriesD, horner, List.foldl_cons, List.foldl_nil, sArith, id]

/-- The error of the series. -/
theorem cosD_err {t : BitVec 64} (hf : isFinite f64 t = true) (hle : |rval f64 t| ≤ 1571 / 2000) :
    ApproxAbs f64 (Real.cos (rval f64 t)) (2363 / 1000 * uRel f64) (cosSeriesD (sArith f64 64) t) := by
  have s1 := scale_one (F := f64) .double
  have hx : RApx f64 t 1 (rval f64 t) (0 * uRel f64) (1571 / 2000) := (RApx.self hf (by rw [mul_one]; exact hle)).exactU
  have m0 := hx.mul1U hx .double (by norm_num) (by norm_num) (by norm_num) (by norm_num)
    (R := 30851 / 50000) (by norm_num) (by norm_num) (δ := 6171 / 10000) (by norm_num)
  have k1 := (RApx.const cosD_k0 (Q := 1 / 100000) (by norm_num [abs_le])).exactU
  have m2 := k1.mul1U m0 .double (by norm_num) (by norm_num) (by norm_num) (by norm_num)
    (R := 1 / 100000) (by norm_num) (by norm_num) (δ := 1 / 10000) (by norm_num)
  have k3 := (RApx.const cosD_k1 (Q := 1 / 100000) (by norm_num [abs_le])).exactU
  have m4 := m2.addUB k3 .double s1 (by norm_num) (R := 1 / 50000) (by norm_num) (by norm_num) (δ := 1 / 5000) (by norm_num)
  have m5 := m4.mul1U m0 .double (by norm_num) (by norm_num) (by norm_num) (by norm_num)
    (R := 1 / 50000) (by norm_num) (by norm_num) (δ := 1 / 5000) (by norm_num)
  have k6 := (RApx.const cosD_k2 (Q := 1 / 100000) (by norm_num [abs_le])).exactU
  have m7 := m5.addUB k6 .double s1 (by norm_num) (R := 3 / 100000) (by norm_num) (by norm_num) (δ := 3 / 10000) (by norm_num)
  have m8 := m7.mul1U m0 .double (by norm_num) (by norm_num) (by norm_num) (by norm_num)
    (R := 1 / 50000) (by norm_num) (by norm_num) (δ := 3 / 10000) (by norm_num)
  have k9 := (RApx.const cosD_k3 (Q := 1 / 100000) (by norm_num [abs_le])).exactU
  have m10 := m8.addUB k9 .double s1 (by norm_num) (R := 3 / 100000) (by norm_num) (by norm_num) (δ := 1 / 2500) (by norm_num)
  have m11 := m10.mul1U m0 .double (by norm_num) (by norm_num) (by norm_num) (by norm_num)
    (R := 1 / 50000) (by norm_num) (by norm_num) (δ := 3 / 10000) (by norm_num)
  have k12 := (RApx.const cosD_k4 (Q := 3 / 100000) (by norm_num [abs_le])).exactU
  have m13 := m11.addUB k12 .double s1 (by norm_num) (R := 1 / 20000) (by norm_num) (by norm_num) (δ := 1 / 2500) (by norm_num)
  have m14 := m13.mul1U m0 .double (by norm_num) (by norm_num) (by norm_num) (by norm_num)
    (R := 1 / 25000) (by norm_num) (by norm_num) (δ := 1 / 2500) (by norm_num)
  have k15 := (RApx.const cosD_k5 (Q := 139 / 100000) (by norm_num [abs_le])).exactU
  have m16 := m14.addUB k15 .double s1 (by norm_num) (R := 143 / 100000) (by norm_num) (by norm_num) (δ := 19 / 10000) (by norm_num)
  have m17 := m16.mul1U m0 .double (by norm_num) (by norm_num) (by norm_num) (by norm_num)
    (R := 89 / 100000) (by norm_num) (by norm_num) (δ := 3 / 1000) (by norm_num)
  have k18 := (RApx.const cosD_k6 (Q := 4167 / 100000) (by norm_num [abs_le])).exactU
  have m19 := m17.addUB k18 .double s1 (by norm_num) (R := 133 / 3125) (by norm_num) (by norm_num) (δ := 57 / 1250) (by norm_num)
  have m20 := m19.mul1U m0 .double (by norm_num) (by norm_num) (by norm_num) (by norm_num)
    (R := 2627 / 100000) (by norm_num) (by norm_num) (δ := 807 / 10000) (by norm_num)
  have k21 := (RApx.const cosD_half (Q := 1 / 2) (by norm_num [abs_le])).exactU
  have m22 := m20.subUB k21 .double s1 (by norm_num) (R := 52627 / 100000) (by norm_num) (by norm_num) (δ := 607 / 1000) (by norm_num)
  have m23 := m22.mul1U m0 .double (by norm_num) (by norm_num) (by norm_num) (by norm_num)
    (R := 4059 / 12500) (by norm_num) (by norm_num) (δ := 10241 / 10000) (by norm_num)
  have k24 := (RApx.const cosD_one (Q := 1) (by norm_num [abs_le])).exactU
  have m25 := m23.addUB k24 .double s1 (by norm_num) (R := 16559 / 12500) (by norm_num) (by norm_num) (δ := 23489 / 10000) (by norm_num)
  rw [cosD_eq]
  refine ⟨m25.fin, ?_⟩
  have e := m25.err
  have hp := cosD_apx hle
  generalize rval f64 t = T at *
  simp only [cosDA, pEval] at hp
  push_cast at hp
  refine le_trans (abs_sub_le _ _ _) (le_trans (add_le_add e (le_trans (le_of_eq ?_) hp)) ?_)
  · congr 1; ring
  · rw [mul_one]
    have : uRel f64 = 1 / 9007199254740992 := by unfold uRel; norm_num [f64]
    rw [this]; norm_num

theorem sinD_k0 : isFinite f64 0xbd6acf0000000000#64 = true ∧ rval f64 0xbd6acf0000000000#64 = -(6863 / 9007199254740992) := by
  refine ⟨by decide, rval_lit true 982 3042348674056192 (-93) (by decide) (by decide) (by decide) (by decide) (by decide) ?_⟩
  norm_num [f64]

theorem sinD_k1 : isFinite f64 0x3de6124400000000#64 = true ∧ rval f64 0x3de6124400000000#64 = 361617 / 2251799813685248 := by
  refine ⟨by decide, rval_lit false 990 1708933127340032 (-85) (by decide) (by decide) (by decide) (by decide) (by decide) ?_⟩
  norm_num [f64]

theorem sinD_k2 : isFinite f64 0xbe5ae64567000000#64 = true ∧ rval f64 0xbe5ae64567000000#64 = -(451298663 / 18014398509481984) := by
  refine ⟨by decide, rval_lit true 997 3067935522291712 (-78) (by decide) (by decide) (by decide) (by decide) (by decide) ?_⟩
  norm_num [f64]

theorem sinD_k3 : isFinite f64 0x3ec71de3a5540000#64 = true ∧ rval f64 0x3ec71de3a5540000#64 = 24821426517 / 9007199254740992 := by
  refine ⟨by decide, rval_lit false 1004 2003188405501952 (-71) (by decide) (by decide) (by decide) (by decide) (by decide) ?_⟩
  norm_num [f64]

theorem sinD_k4 : isFinite f64 0xbf2a01a01a01a000#64 = true ∧ rval f64 0xbf2a01a01a01a000#64 = -(893571354637 / 4503599627370496) := by
  refine ⟨by decide, rval_lit true 1010 2816536909815808 (-65) (by decide) (by decide) (by decide) (by decide) (by decide) ?_⟩
  norm_num [f64]

theorem sinD_k5 : isFinite f64 0x3f81111111111110#64 = true ∧ rval f64 0x3f81111111111110#64 = 300239975158033 / 36028797018963968 := by
  refine ⟨by decide, rval_lit false 1016 300239975158032 (-59) (by decide) (by decide) (by decide) (by decide) (by decide) ?_⟩
  norm_num [f64]

theorem sinD_k6 : isFinite f64 0xbfc5555555555555#64 = true ∧ rval f64 0xbfc5555555555555#64 = -(6004799503160661 / 36028797018963968) := by
  refine ⟨by decide, rval_lit true 1020 1501199875790165 (-55) (by decide) (by decide) (by decide) (by decide) (by decide) ?_⟩
  norm_num [f64]

def sinDA : List ℚ := [1, -(6004799503160661 / 36028797018963968), 300239975158033 / 36028797018963968, -(893571354637 / 4503599627370496), 24821426517 / 9007199254740992, -(451298663 / 18014398509481984), 361617 / 2251799813685248, -(6863 / 9007199254740992)]

def sinDDiff : List ℚ := pAdd sinDA (pScale (-1) (sinTaylor 0 10))

theorem sinD_cheb : chebBound 0 (2468041 / 4000000) sinDDiff ≤ 43199 / 2000000000000000000000 := by decide +kernel

theorem sinD_apx {t : ℝ} (ht : |t| ≤ 1571 / 2000) : |t * pEval sinDA (t * t) - Real.sin t| ≤ 52486585237428914854632847160994492317080613567120147778487947632401 / 2429602529643646156800000000000000000000000000000000000000000000000000000000000000000 := by
  have hs : |t| ^ 2 ≤ (1571 / 2000) ^ 2 := pow_le_pow_left₀ (abs_nonneg t) ht 2
  rw [sq_abs] at hs
  have hd : |pEval sinDDiff (t * t)| ≤ 43199 / 2000000000000000000000 := by
    refine le_trans (cheb_bound (lo := 0) (hi := 2468041 / 4000000) (by norm_num) (by push_cast; nlinarith) (by push_cast; norm_num at hs ⊢; nlinarith)) ?_
    refine le_trans (Rat.cast_le.mpr sinD_cheb) ?_
    push_cast; norm_num
  have e1 : pEval sinDA (t * t) = pEval sinDDiff (t * t) + pEval (sinTaylor 0 10) (t * t) := by
    rw [sinDDiff, pEval_add, pEval_scale]; push_cast; ring
  have ht1 : |t| ≤ 1 := le_trans ht (by norm_num)
  have h2 := (taylor ht1 (n := 10) (by decide)).2
  have h3 : |t| ^ (2 * 10) ≤ (1571 / 2000) ^ (2 * 10) := pow_le_pow_left₀ (abs_nonneg t) ht _
  have h4 : |t| ^ (2 * 10) * (((2 * 10 : Nat) + 1 : ℝ) / ((2 * 10).factorial * (2 * 10 : Nat))) ≤ 8385398390979690831247160994492317080613567120147778487947632401 / 2429602529643646156800000000000000000000000000000000000000000000000000000000000000000 := by
    refine le_trans (mul_le_mul_of_nonneg_right h3 (by positivity)) ?_
    rw [show Nat.factorial (2 * 10) = 2432902008176640000 by decide]
    norm_num
  rw [e1, show t * (pEval sinDDiff (t * t) + pEval (sinTaylor 0 10) (t * t)) - Real.sin t =
    t * pEval sinDDiff (t * t) + (t * pEval (sinTaylor 0 10) (t * t) - Real.sin t) by ring]
  refine le_trans (abs_add_le _ _) ?_
  rw [abs_mul]
  have h5 := mul_le_mul ht1 hd (abs_nonneg _) (by norm_num)
  linarith

theorem sinD_eq (t : BitVec 64) : sinSeriesD (sArith f64 64) t =
    fAdd f64 (fMul f64 (fAdd f64 (fMul f64 (fAdd f64 (fMul f64 (fAdd f64 (fMul f64 (fAdd f64 (fMul f64 (fAdd f64 (fMul f64 (fAdd f64 (fMul f64 0xbd6acf0000000000#64 (fMul f64 t t)) 0x3de6124400000000#64) (fMul f64 t t)) 0xbe5ae64567000000#64) (fMul f64 t t)) 0x3ec71de3a5540000#64) (fMul f64 t t)) 0xbf2a01a01a01a000#64) (fMul f64 t t)) 0x3f81111111111110#64) (fMul f64 t t)) 0xbfc5555555555555#64) (fMul f64 (fMul f64 t t) t)) t := by
  simp only [sinSeriesD, horner, List.foldl_cons, List.foldl_nil, sArith, id]

/-- The error of the series. -/
theorem sinD_err {t : BitVec 64} (hf : isFinite f64 t = true) (hle : |rval f64 t| ≤ 1571 / 2000) :
    ApproxAbs f64 (Real.sin (rval f64 t)) (281 / 200 * uRel f64) (sinSeriesD (sArith f64 64) t) := by
  have s1 := scale_one (F := f64) .double
  have hx : RApx f64 t 1 (rval f64 t) (0 * uRel f64) (1571 / 2000) := (RApx.self hf (by rw [mul_one]; exact hle)).exactU
  have m0 := hx.mul1U hx .double (by norm_num) (by norm_num) (by norm_num) (by norm_num)
    (R := 30851 / 50000) (by norm_num) (by norm_num) (δ := 6171 / 10000) (by norm_num)
  have k1 := (RApx.const sinD_k0 (Q := 1 / 100000) (by norm_num [abs_le])).exactU
  have m2 := k1.mul1U m0 .double (by norm_num) (by norm_num) (by norm_num) (by norm_num)
    (R := 1 / 100000) (by norm_num) (by norm_num) (δ := 1 / 10000) (by norm_num)
  have k3 := (RApx.const sinD_k1 (Q := 1 / 100000) (by norm_num [abs_le])).exactU
  have m4 := m2.addUB k3 .double s1 (by norm_num) (R := 1 / 50000) (by norm_num) (by norm_num) (δ := 1 / 5000) (by norm_num)
  have m5 := m4.mul1U m0 .double (by norm_num) (by norm_num) (by norm_num) (by norm_num)
    (R := 1 / 50000) (by norm_num) (by norm_num) (δ := 1 / 5000) (by norm_num)
  have k6 := (RApx.const sinD_k2 (Q := 1 / 100000) (by norm_num [abs_le])).exactU
  have m7 := m5.addUB k6 .double s1 (by norm_num) (R := 3 / 100000) (by norm_num) (by norm_num) (δ := 3 / 10000) (by norm_num)
  have m8 := m7.mul1U m0 .double (by norm_num) (by norm_num) (by norm_num) (by norm_num)
    (R := 1 / 50000) (by norm_num) (by norm_num) (δ := 3 / 10000) (by norm_num)
  have k9 := (RApx.const sinD_k3 (Q := 1 / 100000) (by norm_num [abs_le])).exactU
  have m10 := m8.addUB k9 .double s1 (by norm_num) (R := 3 / 100000) (by norm_num) (by norm_num) (δ := 1 / 2500) (by norm_num)
  have m11 := m10.mul1U m0 .double (by norm_num) (by norm_num) (by norm_num) (by norm_num)
    (R := 1 / 50000) (by norm_num) (by norm_num) (δ := 3 / 10000) (by norm_num)
  have k12 := (RApx.const sinD_k4 (Q := 1 / 5000) (by norm_num [abs_le])).exactU
  have m13 := m11.addUB k12 .double s1 (by norm_num) (R := 11 / 50000) (by norm_num) (by norm_num) (δ := 3 / 5000) (by norm_num)
  have m14 := m13.mul1U m0 .double (by norm_num) (by norm_num) (by norm_num) (by norm_num)
    (R := 7 / 50000) (by norm_num) (by norm_num) (δ := 7 / 10000) (by norm_num)
  have k15 := (RApx.const sinD_k5 (Q := 417 / 50000) (by norm_num [abs_le])).exactU
  have m16 := m14.addUB k15 .double s1 (by norm_num) (R := 53 / 6250) (by norm_num) (by norm_num) (δ := 23 / 2500) (by norm_num)
  have m17 := m16.mul1U m0 .double (by norm_num) (by norm_num) (by norm_num) (by norm_num)
    (R := 131 / 25000) (by norm_num) (by norm_num) (δ := 81 / 5000) (by norm_num)
  have k18 := (RApx.const sinD_k6 (Q := 16667 / 100000) (by norm_num [abs_le])).exactU
  have m19 := m17.addUB k18 .double s1 (by norm_num) (R := 17191 / 100000) (by norm_num) (by norm_num) (δ := 941 / 5000) (by norm_num)
  have m20 := m0.mul1U hx .double (by norm_num) (by norm_num) (by norm_num) (by norm_num)
    (R := 48467 / 100000) (by norm_num) (by norm_num) (δ := 1939 / 2000) (by norm_num)
  have m21 := m19.mul1U m20 .double (by norm_num) (by norm_num) (by norm_num) (by norm_num)
    (R := 2083 / 25000) (by norm_num) (by norm_num) (δ := 3413 / 10000) (by norm_num)
  have m22 := m21.addUB hx .double s1 (by norm_num) (R := 43441 / 50000) (by norm_num) (by norm_num) (δ := 6051 / 5000) (by norm_num)
  rw [sinD_eq]
  refine ⟨m22.fin, ?_⟩
  have e := m22.err
  have hp := sinD_apx hle
  generalize rval f64 t = T at *
  simp only [sinDA, pEval] at hp
  push_cast at hp
  refine le_trans (abs_sub_le _ _ _) (le_trans (add_le_add e (le_trans (le_of_eq ?_) hp)) ?_)
  · congr 1; ring
  · rw [mul_one]
    have : uRel f64 = 1 / 9007199254740992 := by unfold uRel; norm_num [f64]
    rw [this]; norm_num

end Vc.Lemma
