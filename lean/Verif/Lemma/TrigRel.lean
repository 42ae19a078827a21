import Verif.Lemma.TrigSerF
import Verif.Lemma.TrigSerD
import Verif.Lemma.TrigRed

/-!
The relative error of the series of `sin`.
-/

namespace Vc.Lemma
open Vc.Model Vc.Spec

set_option maxRecDepth 10000

section
variable {F : Fmt} {w : Nat} {a b x : BitVec w}

theorem rval_grid (x : BitVec w) (h : |rval F x| < 2 * uAbs F) : rval F x = 0 := by
  have hp := one_pos F
  have e : 2 * uAbs F * 2 ^ oneExp F = 1 := by
    unfold uAbs
    rw [neg_add, zpow_add₀ (by norm_num), zpow_neg, zpow_natCast]
    field_simp
  unfold rval at h ⊢
  rw [abs_div, abs_of_pos hp, div_lt_iff₀ hp, e] at h
  have : |fval F x| < 1 := by exact_mod_cast h
  have h0 : fval F x = 0 := Int.abs_lt_one_iff.mp this
  rw [h0]; simp

/-- Products below half of the smallest number are zero. -/
theorem fMul_vanish (h : FmtW F w) (ha : isFinite F a = true) (hb : isFinite F b = true) (hv : |rval F a * rval F b| < uAbs F) :
    isFinite F (fMul F a b) = true ∧ rval F (fMul F a b) = 0 := by
  have hk : KRange F ((F.m + 1 : Int) - oneExp F) := by cases h <;> decide
  have hle : uAbs F ≤ 2 ^ ((F.m + 1 : Int) - oneExp F) := by
    unfold uAbs
    exact zpow_le_zpow_right₀ (by norm_num) (by omega)
  have e := fMul_err h hk ha hb (le_trans hv.le hle)
  rw [show (F.m + 1 : Int) - oneExp F - F.m - 2 = -((oneExp F : Int) + 1) by ring] at e
  refine ⟨e.1, rval_grid _ ?_⟩
  have h2 := e.2
  have := abs_add_le (rval F (fMul F a b) - rval F a * rval F b) (rval F a * rval F b)
  rw [sub_add_cancel] at this
  unfold uAbs at hv ⊢
  linarith

theorem fAdd_zero' (h : FmtW F w) (ha : isFinite F a = true) (hb : isFinite F b = true) (h0 : rval F a = 0) :
    isFinite F (fAdd F a b) = true ∧ rval F (fAdd F a b) = rval F b := by
  have ha0 : fval F a = 0 := by
    unfold rval at h0
    rcases div_eq_zero_iff.mp h0 with h | h
    · exact_mod_cast h
    · exact absurd h (ne_of_gt (one_pos F))
  have hx := fAdd_nearest h ha hb
  have hxy := nearest_eq Nat.one_pos hx (isFinite_not hb).1 (by rw [ha0, Int.zero_add]; simp)
  exact ⟨finite_of_val hb hxy, by unfold rval; rw [hxy]⟩

/-- A number is a scale, or its square is nothing. -/
theorem scale_or_tiny {t : ℝ} (ht : |t| ≤ 1) : Scale F |t| ∨ |t| < uAbs F * 2 ^ 20 / uRel F := by
  rcases le_or_gt (uAbs F) (uRel F / 2 ^ 20 * |t|) with hc | hc
  · exact .inl ⟨abs_nonneg _, ht, .inr hc⟩
  · right
    have := uRel_pos F
    rw [lt_div_iff₀ this]
    have h2 : (0 : ℝ) < 2 ^ 20 := by norm_num
    rw [div_mul_eq_mul_div, div_lt_iff₀ h2] at hc
    linarith

theorem tiny_bound (h : FmtW F w) : uAbs F * 2 ^ 20 / uRel F ≤ uRel F * uRel F ∧ uAbs F * 2 ^ 20 / uRel F * (uAbs F * 2 ^ 20 / uRel F) ≤ uAbs F := by
  have e : uAbs F * 2 ^ 20 / uRel F = 2 ^ (20 - (oneExp F : Int) + F.m) := by
    unfold uAbs uRel
    rw [show (2 : ℝ) ^ 20 = 2 ^ (20 : Int) by norm_num, ← zpow_add₀ (by norm_num), ← zpow_sub₀ (by norm_num)]
    congr 1; ring
  rw [e]
  unfold uAbs uRel
  rw [← zpow_add₀ (by norm_num), ← zpow_add₀ (by norm_num)]
  constructor <;> refine zpow_le_zpow_right₀ (by norm_num) ?_ <;> cases h <;> decide

theorem tiny_sq (h : FmtW F w) {t : ℝ} (ht : |t| < uAbs F * 2 ^ 20 / uRel F) : |t * t| < uAbs F := by
  rw [abs_mul]
  exact lt_of_lt_of_le (mul_self_lt_mul_self (abs_nonneg _) ht) (tiny_bound h).2

theorem tiny_sin (h : FmtW F w) {t c : ℝ} (ht : |t| < uAbs F * 2 ^ 20 / uRel F) (hc : uRel F ≤ c) : |t - Real.sin t| ≤ c * |t| := by
  have hb := (tiny_bound h).1
  have hu := uRel_pos F
  have hu1 := RApx.small_u h
  have h1 : |t| ≤ uRel F := by
    refine le_trans ht.le (le_trans hb ?_)
    have : uRel F * uRel F ≤ 1 * uRel F := mul_le_mul_of_nonneg_right (le_trans hu1 (by norm_num)) hu.le
    linarith
  have hle : |t| ≤ 1 := le_trans h1 (le_trans hu1 (by norm_num))
  have h2 := (taylor hle (n := 1) (by decide)).2
  simp only [sinTaylor, pEval] at h2
  norm_num at h2
  refine le_trans h2 ?_
  have : t ^ 2 = |t| * |t| := by rw [← sq_abs]; ring
  rw [this]
  have h0 := abs_nonneg t
  nlinarith

end

theorem sinF_apxRel {t : ℝ} (ht : |t| ≤ 1571 / 2000) : |t * pEval sinFA (t * t) - Real.sin t| ≤ (26551570831876550475357618654131089347518730611 / 666553590743040000000000000000000000000000000000000000) * |t| := by
  have hs : |t| ^ 2 ≤ (1571 / 2000) ^ 2 := pow_le_pow_left₀ (abs_nonneg t) ht 2
  rw [sq_abs] at hs
  have hd : |pEval sinFDiff (t * t)| ≤ 1991679 / 50000000000000 := by
    refine le_trans (cheb_bound (lo := 0) (hi := 2468041 / 4000000) (by norm_num) (by push_cast; nlinarith) (by push_cast; norm_num at hs ⊢; nlinarith)) ?_
    refine le_trans (Rat.cast_le.mpr sinF_cheb) ?_
    push_cast; norm_num
  have e1 : pEval sinFA (t * t) = pEval sinFDiff (t * t) + pEval (sinTaylor 0 7) (t * t) := by
    rw [sinFDiff, pEval_add, pEval_scale]; push_cast; ring
  have ht1 : |t| ≤ 1 := le_trans ht (by norm_num)
  have h2 := (taylor ht1 (n := 7) (by decide)).2
  have h3 : |t| ^ 13 ≤ (1571 / 2000) ^ 13 := pow_le_pow_left₀ (abs_nonneg t) ht _
  have h4 : |t| ^ (2 * 7) * (((2 * 7 : Nat) + 1 : ℝ) / ((2 * 7).factorial * (2 * 7 : Nat))) ≤ (355050726407192157618654131089347518730611 / 666553590743040000000000000000000000000000000000000000) * |t| := by
    rw [show |t| ^ (2 * 7) = |t| ^ 13 * |t| by ring, mul_right_comm]
    refine mul_le_mul_of_nonneg_right (le_trans (mul_le_mul_of_nonneg_right h3 (by positivity)) ?_) (abs_nonneg t)
    rw [show Nat.factorial (2 * 7) = 87178291200 by decide]
    norm_num
  rw [e1, show t * (pEval sinFDiff (t * t) + pEval (sinTaylor 0 7) (t * t)) - Real.sin t =
    t * pEval sinFDiff (t * t) + (t * pEval (sinTaylor 0 7) (t * t) - Real.sin t) by ring]
  refine le_trans (abs_add_le _ _) ?_
  rw [abs_mul]
  have h5 := mul_le_mul_of_nonneg_left hd (abs_nonneg t)
  linarith

/-- The relative error of the series. -/
theorem sinF_rel {t : BitVec 32} (hf : isFinite f32 t = true) (hle : |rval f32 t| ≤ 1571 / 2000) :
    isFinite f32 (sinSeriesF (sArith f32 32) t) = true ∧
    |rval f32 (sinSeriesF (sArith f32 32) t) - Real.sin (rval f32 t)| ≤ 2209 / 1000 * uRel f32 * |rval f32 t| := by
  have s1 := scale_one (F := f32) .single
  have hu : uRel f32 = 1 / 16777216 := by unfold uRel; norm_num [f32]
  have hx : RApx f32 t 1 (rval f32 t) (0 * uRel f32) (1571 / 2000) := (RApx.self hf (by rw [mul_one]; exact hle)).exactU
  have m0 := hx.mul1U hx .single (by norm_num) (by norm_num) (by norm_num) (by norm_num)
    (R := 30851 / 50000) (by norm_num) (by norm_num) (δ := 6171 / 10000) (by norm_num)
  have k1 := (RApx.const sinF_k0 (Q := 1 / 5000) (by norm_num [abs_le])).exactU
  have m2 := k1.mul1U m0 .single (by norm_num) (by norm_num) (by norm_num) (by norm_num)
    (R := 13 / 100000) (by norm_num) (by norm_num) (δ := 3 / 10000) (by norm_num)
  have k3 := (RApx.const sinF_k1 (Q := 417 / 50000) (by norm_num [abs_le])).exactU
  have m4 := m2.addUB k3 .single s1 (by norm_num) (R := 847 / 100000) (by norm_num) (by norm_num) (δ := 11 / 1250) (by norm_num)
  have m5 := m4.mul1U m0 .single (by norm_num) (by norm_num) (by norm_num) (by norm_num)
    (R := 523 / 100000) (by norm_num) (by norm_num) (δ := 159 / 10000) (by norm_num)
  have k6 := (RApx.const sinF_k2 (Q := 16667 / 100000) (by norm_num [abs_le])).exactU
  have m7 := m5.addUB k6 .single s1 (by norm_num) (R := 1719 / 10000) (by norm_num) (by norm_num) (δ := 1879 / 10000) (by norm_num)
  rw [sinF_eq]
  rcases scale_or_tiny (F := f32) (le_trans hle (by norm_num)) with hσ | htiny
  · have hs : RApx f32 t |rval f32 t| (rval f32 t) (0 * uRel f32) 1 := (RApx.self hf (by rw [one_mul])).exactU
    have m8 := m0.mulU hs .single (by norm_num) (by rw [one_mul]; exact hσ) (by norm_num) (by norm_num) (by norm_num) (by norm_num)
      (R := 30851 / 50000) (by norm_num) (by norm_num) (δ := 6171 / 5000) (by norm_num)
    rw [one_mul] at m8
    have m9 := m7.mulU m8 .single (by norm_num) (by rw [one_mul]; exact hσ) (by norm_num) (by norm_num) (by norm_num) (by norm_num)
      (R := 10607 / 100000) (by norm_num) (by norm_num) (δ := 2171 / 5000) (by norm_num)
    rw [one_mul] at m9
    have m10 := m9.addUB hs .single hσ (by norm_num) (R := 110607 / 100000) (by norm_num) (by norm_num) (δ := 15403 / 10000) (by norm_num)
    refine ⟨m10.fin, ?_⟩
    have e := m10.err
    have hp := sinF_apxRel hle
    have h0 := abs_nonneg (rval f32 t)
    generalize rval f32 t = T at *
    simp only [sinFA, pEval] at hp
    push_cast at hp
    refine le_trans (abs_sub_le _ _ _) (le_trans (add_le_add e (le_trans (le_of_eq ?_) hp)) ?_)
    · congr 1; ring
    · rw [← add_mul, hu]
      exact mul_le_mul_of_nonneg_right (by norm_num) h0
  · have z2 := fMul_vanish .single hf hf (tiny_sq .single htiny)
    have z3 := fMul_zero' .single z2.1 hf z2.2
    have z4 := fMul_repr .single m7.fin z3.1 (repr_zero .single) (by rw [z3.2, mul_zero])
    have z5 := fAdd_zero' .single z4.1 hf z4.2
    refine ⟨z5.1, ?_⟩
    rw [z5.2, hu]
    exact tiny_sin .single htiny (by rw [hu]; norm_num)

theorem sinD_apxRel {t : ℝ} (ht : |t| ≤ 1571 / 2000) : |t * pEval sinDA (t * t) - Real.sin t| ≤ (26244437537845498257159391445572560354602554784926892284206204731 / 1214801264821823078400000000000000000000000000000000000000000000000000000000000000) * |t| := by
  have hs : |t| ^ 2 ≤ (1571 / 2000) ^ 2 := pow_le_pow_left₀ (abs_nonneg t) ht 2
  rw [sq_abs] at hs
  have hd : |pEval sinDDiff (t * t)| ≤ 43199 / 2000000000000000000000 := by
    refine le_trans (cheb_bound (lo := 0) (hi := 2468041 / 4000000) (by norm_num) (by push_cast; nlinarith) (by push_cast; norm_num at hs ⊢; nlinarith)) ?_
    refine le_trans (Rat.cast_le.mpr sinD_cheb) ?_
    push_cast; norm_num
  have e1 : pEval sinDA (t * t) = pEval sinDDiff (t * t) + pEval (sinTaylor 0 10) (t * t) := by
    rw [sinDDiff, pEval_add, pEval_scale]; push_cast; ring
  have ht1 : |t| ≤ 1 := le_trans ht (by norm_num)
  have h2 := (taylor ht1 (n := 10) (by decide)).2
  have h3 : |t| ^ 19 ≤ (1571 / 2000) ^ 19 := pow_le_pow_left₀ (abs_nonneg t) ht _
  have h4 : |t| ^ (2 * 10) * (((2 * 10 : Nat) + 1 : ℝ) / ((2 * 10).factorial * (2 * 10 : Nat))) ≤ (5337618326530675258591445572560354602554784926892284206204731 / 1214801264821823078400000000000000000000000000000000000000000000000000000000000000) * |t| := by
    rw [show |t| ^ (2 * 10) = |t| ^ 19 * |t| by ring, mul_right_comm]
    refine mul_le_mul_of_nonneg_right (le_trans (mul_le_mul_of_nonneg_right h3 (by positivity)) ?_) (abs_nonneg t)
    rw [show Nat.factorial (2 * 10) = 2432902008176640000 by decide]
    norm_num
  rw [e1, show t * (pEval sinDDiff (t * t) + pEval (sinTaylor 0 10) (t * t)) - Real.sin t =
    t * pEval sinDDiff (t * t) + (t * pEval (sinTaylor 0 10) (t * t) - Real.sin t) by ring]
  refine le_trans (abs_add_le _ _) ?_
  rw [abs_mul]
  have h5 := mul_le_mul_of_nonneg_left hd (abs_nonneg t)
  linarith

/-- The relative error of the series. -/
theorem sinD_rel {t : BitVec 64} (hf : isFinite f64 t = true) (hle : |rval f64 t| ≤ 1571 / 2000) :
    isFinite f64 (sinSeriesD (sArith f64 64) t) = true ∧
    |rval f64 (sinSeriesD (sArith f64 64) t) - Real.sin (rval f64 t)| ≤ 217 / 125 * uRel f64 * |rval f64 t| := by
  have s1 := scale_one (F := f64) .double
  have hu : uRel f64 = 1 / 9007199254740992 := by unfold uRel; norm_num [f64]
  have hx : RApx f64 t 1 (rval f64 t) (0 * uRel f64) (1571 / 2000) := (RApx.self hf (by rw [mul_one]; exact hle)).exactU
  have m0 := hx.mul1U hx .double (by norm_num) (by norm_num) (by norm_num) (by norm_num)
    (R := 30851 / 50000) (by norm_num) (by norm_num) (δ := 6171 / 10000) (by norm_num)
  have k1 := (RApx.const sinD_k0 (Q := 1 / 100000) (by norm_num [abs_le])).exactU
  have m2 := k1.mul1U m0 .double (by norm_num) (by norm_num) (by norm_num) (by norm_num)
    (R := 1 / 100000) (by norm_num) (by norm_num) (δ := 1 / 10000) (by norm_num)
  have k3 := (RApx.const sinD_k1 (Q := 1 / 100000) (by norm_num [abs_le])).exactU
  have m4 := m2.addUB k3 .double s1 (by norm_num) (R := 1 / 50000) (by norm_num) (by norm_num) (δ := 1 / 5000) (by norm_num)
  have m5 := m4.mul1U m0 .double (by norm_num) (by norm_num) (by norm_num) (by norm_num)
    (R := 1 / 50000) (by norm_num) (by norm_num) (δ := 1 / 5000) (by norm_num)
  have k6 := (RApx.const sinD_k2 (Q := 1 / 100000) (by norm_num [abs_le])).exactU
  have m7 := m5.addUB k6 .double s1 (by norm_num) (R := 3 / 100000) (by norm_num) (by norm_num) (δ := 3 / 10000) (by norm_num)
  have m8 := m7.mul1U m0 .double (by norm_num) (by norm_num) (by norm_num) (by norm_num)
    (R := 1 / 50000) (by norm_num) (by norm_num) (δ := 3 / 10000) (by norm_num)
  have k9 := (RApx.const sinD_k3 (Q := 1 / 100000) (by norm_num [abs_le])).exactU
  have m10 := m8.addUB k9 .double s1 (by norm_num) (R := 3 / 100000) (by norm_num) (by norm_num) (δ := 1 / 2500) (by norm_num)
  have m11 := m10.mul1U m0 .double (by norm_num) (by norm_num) (by norm_num) (by norm_num)
    (R := 1 / 50000) (by norm_num) (by norm_num) (δ := 3 / 10000) (by norm_num)
  have k12 := (RApx.const sinD_k4 (Q := 1 / 5000) (by norm_num [abs_le])).exactU
  have m13 := m11.addUB k12 .double s1 (by norm_num) (R := 11 / 50000) (by norm_num) (by norm_num) (δ := 3 / 5000) (by norm_num)
  have m14 := m13.mul1U m0 .double (by norm_num) (by norm_num) (by norm_num) (by norm_num)
    (R := 7 / 50000) (by norm_num) (by norm_num) (δ := 7 / 10000) (by norm_num)
  have k15 := (RApx.const sinD_k5 (Q := 417 / 50000) (by norm_num [abs_le])).exactU
  have m16 := m14.addUB k15 .double s1 (by norm_num) (R := 53 / 6250) (by norm_num) (by norm_num) (δ := 23 / 2500) (by norm_num)
  have m17 := m16.mul1U m0 .double (by norm_num) (by norm_num) (by norm_num) (by norm_num)
    (R := 131 / 25000) (by norm_num) (by norm_num) (δ := 81 / 5000) (by norm_num)
  have k18 := (RApx.const sinD_k6 (Q := 16667 / 100000) (by norm_num [abs_le])).exactU
  have m19 := m17.addUB k18 .double s1 (by norm_num) (R := 17191 / 100000) (by norm_num) (by norm_num) (δ := 941 / 5000) (by norm_num)
  rw [sinD_eq]
  rcases scale_or_tiny (F := f64) (le_trans hle (by norm_num)) with hσ | htiny
  · have hs : RApx f64 t |rval f64 t| (rval f64 t) (0 * uRel f64) 1 := (RApx.self hf (by rw [one_mul])).exactU
    have m20 := m0.mulU hs .double (by norm_num) (by rw [one_mul]; exact hσ) (by norm_num) (by norm_num) (by norm_num) (by norm_num)
      (R := 30851 / 50000) (by norm_num) (by norm_num) (δ := 6171 / 5000) (by norm_num)
    rw [one_mul] at m20
    have m21 := m19.mulU m20 .double (by norm_num) (by rw [one_mul]; exact hσ) (by norm_num) (by norm_num) (by norm_num) (by norm_num)
      (R := 663 / 6250) (by norm_num) (by norm_num) (δ := 543 / 1250) (by norm_num)
    rw [one_mul] at m21
    have m22 := m21.addUB hs .double hσ (by norm_num) (R := 6913 / 6250) (by norm_num) (by norm_num) (δ := 3081 / 2000) (by norm_num)
    refine ⟨m22.fin, ?_⟩
    have e := m22.err
    have hp := sinD_apxRel hle
    have h0 := abs_nonneg (rval f64 t)
    generalize rval f64 t = T at *
    simp only [sinDA, pEval] at hp
    push_cast at hp
    refine le_trans (abs_sub_le _ _ _) (le_trans (add_le_add e (le_trans (le_of_eq ?_) hp)) ?_)
    · congr 1; ring
    · rw [← add_mul, hu]
      exact mul_le_mul_of_nonneg_right (by norm_num) h0
  · have z2 := fMul_vanish .double hf hf (tiny_sq .double htiny)
    have z3 := fMul_zero' .double z2.1 hf z2.2
    have z4 := fMul_repr .double m19.fin z3.1 (repr_zero .double) (by rw [z3.2, mul_zero])
    have z5 := fAdd_zero' .double z4.1 hf z4.2
    refine ⟨z5.1, ?_⟩
    rw [z5.2, hu]
    exact tiny_sin .double htiny (by rw [hu]; norm_num)

end Vc.Lemma
