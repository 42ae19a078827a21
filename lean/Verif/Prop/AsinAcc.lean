import Verif.Lemma.AsinD
import Verif.Prop.Asin

/-!
C81: the documented precision of `asin`, in units in the last place.
-/

namespace Vc.Prop
open Vc.Model Vc.Spec Vc.Lemma

theorem rval_zero {F : Fmt} {w : Nat} (h : FmtW F w) : isFinite F 0#w = true ∧ rval F 0#w = 0 := by
  cases h
  · exact ⟨by decide, by unfold rval; rw [show fval f32 0#32 = 0 by decide +kernel]; simp⟩
  · exact ⟨by decide, by unfold rval; rw [show fval f64 0#64 = 0 by decide +kernel]; simp⟩

/-- The sign is put back at the end. -/
theorem asin_sign {F : Fmt} {w : Nat} (h : FmtW F w) {k : ℝ} {x c : BitVec w} (hf : isFinite F x = true)
    (hc : WithinUlps F k (Real.arcsin (rval F (absL x))) c) :
    WithinUlps F k (Real.arcsin (rval F x)) (if fLt F x 0#w then c ^^^ sgn w else c) := by
  have z := rval_zero h
  obtain ⟨-, -, -, ha⟩ := rval_absL h x
  rw [fLt_real hf z.1, z.2]
  rw [ha] at hc
  by_cases hx : rval F x < 0
  · rw [if_pos (decide_eq_true hx)]
    have := within_neg h hc
    rwa [abs_of_neg hx, Real.arcsin_neg, neg_neg] at this
  · rw [if_neg (by simpa using hx)]
    rwa [abs_of_nonneg (not_lt.mp hx)] at hc

/-- Positive numbers are determined by their value. -/
theorem rval_inj {F : Fmt} {w : Nat} (h : FmtW F w) {a b : BitVec w} (ha : fneg F a = false) (hb : fneg F b = false)
    (e : rval F a = rval F b) : a = b := by
  have hp := one_pos F
  unfold rval at e
  rw [div_left_inj' hp.ne'] at e
  have e' : fval F a = fval F b := by exact_mod_cast e
  unfold fval at e'
  rw [ha, hb] at e'
  simp only [Bool.false_eq_true, if_false, Int.natCast_inj] at e'
  refine sm_ext h.width (ha.trans hb.symm) ?_
  rcases lt_trichotomy (fmag F a) (fmag F b) with hl | hl | hl
  · have := (magVal_lt_iff (F := F)).mpr hl; omega
  · exact hl
  · have := (magVal_lt_iff (F := F)).mpr hl; omega

theorem asinF_within (B : CmpBuild) {x : BitVec 32} (hf : isFinite f32 x = true) (h1 : |rval f32 x| ≤ 1) :
    WithinUlps f32 3 (Real.arcsin (rval f32 x)) (asinF (sArc B f32 32) (fSqrt f32) x) := by
  obtain ⟨hn, h0, hfa, ha⟩ := rval_absL .single x
  have hfa := hfa.trans hf
  rw [asinF_core, gtL_real B hfa atF_one.1, atF_one.2, ha, if_neg (by simpa using h1)]
  refine asin_sign .single hf ?_
  rcases lt_or_eq_of_le h1 with hlt | heq
  · rcases le_or_gt (rval f32 (absL x)) (1 / 2) with hs | hl
    · exact within_mono (asF_small_err B hfa h0 hs) (by norm_num)
    · exact asF_large_err B hfa hl (by rw [ha]; exact hlt)
  · have e : absL x = 0x3f800000#32 := rval_inj .single (absL_spec .single x).1 (by decide) (by rw [ha, atF_one.2, heq])
    rw [ha, heq, Real.arcsin_one, e, show asF B 0x3f800000#32 = 0x3fc90fdb#32 by cases B <;> decide +kernel]
    have := pi_gt_d50
    refine within_of_abs (c := 1) atF_c2.1 (by rw [abs_of_pos] <;> norm_num at * <;> linarith) (by norm_num) (le_trans pi2F ?_) (by norm_num)
    exact mul_le_mul_of_nonneg_right (by norm_num) (uRel_pos _).le

theorem asinD_within (B : CmpBuild) {x : BitVec 64} (hf : isFinite f64 x = true) (h1 : |rval f64 x| ≤ 1) :
    WithinUlps f64 8 (Real.arcsin (rval f64 x)) (asinD (sArc B f64 64) (fSqrt f64) x) := by
  obtain ⟨hn, h0, hfa, ha⟩ := rval_absL .double x
  have hfa := hfa.trans hf
  rw [asinD_core, gtL_real B hfa atD_one.1, atD_one.2, if_neg (by rw [ha]; simpa using h1), fLt_real hfa asD_lim.1, asD_lim.2]
  by_cases hs : rval f64 (absL x) < 3022314549036573 / 302231454903657293676544
  · rw [if_pos (decide_eq_true hs)]
    have key : ∀ t : ℝ, 0 ≤ t → t < 3022314549036573 / 302231454903657293676544 → |t - Real.arcsin t| ≤ 1 * uRel f64 * Real.arcsin t := by
      intro t t0 t1
      have hl := le_arcsin t0 (by linarith)
      have hup := arcsin_upper t0 (by linarith)
      rw [abs_of_nonpos (by linarith), uRel64]
      rcases eq_or_lt_of_le t0 with he | hpos
      · rw [← he]; simp
      · have h3 := Real.sin_gt_sub_cube (x := Real.arcsin t) (by linarith)
        rw [Real.sin_arcsin (by linarith) (by linarith)] at h3
        generalize Real.arcsin t = θ at *
        have h4 : θ ^ 2 ≤ (1.1 / 10 ^ 8) ^ 2 := pow_le_pow_left₀ (by linarith) (by norm_num at *; linarith) 2
        have h5 : θ ^ 3 ≤ (1.1 / 10 ^ 8) ^ 2 * θ := by
          rw [show θ ^ 3 = θ ^ 2 * θ by ring]
          exact mul_le_mul_of_nonneg_right h4 (by linarith)
        norm_num at *
        linarith
    refine within_of_rel (c := 1) (d := 0) hf (by norm_num) (by norm_num) ?_ (by norm_num)
    simp only [zero_mul, ite_self, add_zero]
    rw [ha] at hs
    have := key _ (abs_nonneg _) hs
    rcases abs_cases (rval f64 x) with ⟨e, hx⟩ | ⟨e, hx⟩
    · rw [e] at this
      rwa [abs_of_nonneg (Real.arcsin_nonneg.mpr hx)]
    · rw [e, Real.arcsin_neg, neg_sub_neg, abs_sub_comm] at this
      rwa [abs_of_nonpos (Real.arcsin_nonpos.mpr hx.le)]
  · rw [if_neg (by simpa using hs)]
    refine asin_sign .double hf ?_
    rcases lt_or_eq_of_le h1 with hlt | heq
    · rcases le_or_gt (rval f64 (absL x)) (5 / 8) with hs' | hl
      · exact asD_small_err B hfa (by norm_num at hs ⊢; linarith) hs'
      · exact within_mono (asD_large_err B hfa hl (by rw [ha]; exact hlt)) (by norm_num)
    · have e : absL x = 0x3ff0000000000000#64 := rval_inj .double (absL_spec .double x).1 (by decide) (by rw [ha, atD_one.2, heq])
      rw [ha, heq, Real.arcsin_one, e, show asD B 0x3ff0000000000000#64 = 0x3ff921fb54442d18#64 by cases B <;> decide +kernel]
      have h3 := pi_gt_d50
      refine within_of_abs (c := 1) asD_hpi.1 (by rw [abs_of_pos] <;> norm_num at * <;> linarith) (by norm_num) ?_ (by norm_num)
      rw [asD_hpi.2, uRel64, abs_le]
      have := pi_gt_d50
      have := pi_lt_d50
      constructor <;> norm_num at * <;> linarith

/-- Float: the arcus sinus of a number in [-1, 1] is correct up to 3 units in the last place.  Missing: the documentation
promises 2, see `C81_float_violated`. -/
theorem C81_float_partial {n : Nat} {E : ArcEnv n} (h : ArcVF n E) (x : BitVec n) {i : Nat} (hi : 32 * (i + 1) ≤ n)
    (hf : isFinite f32 (lane 32 x i) = true) (h1 : |rval f32 (lane 32 x i)| ≤ 1) :
    WithinUlps f32 3 (Real.arcsin (rval f32 (lane 32 x i))) (lane 32 (asinF (vArc E f32 32) (vSqrt f32 32) x) i) := by
  rw [asinF_lane h.ok hi (v := x) rfl]
  exact asinF_within E.B hf h1

/-- Float: up to 1/2 the promised 2 units hold. -/
theorem C81_float_half {n : Nat} {E : ArcEnv n} (h : ArcVF n E) (x : BitVec n) {i : Nat} (hi : 32 * (i + 1) ≤ n)
    (hf : isFinite f32 (lane 32 x i) = true) (h1 : |rval f32 (lane 32 x i)| ≤ 1 / 2) :
    WithinUlps f32 2 (Real.arcsin (rval f32 (lane 32 x i))) (lane 32 (asinF (vArc E f32 32) (vSqrt f32 32) x) i) := by
  rw [asinF_lane h.ok hi (v := x) rfl]
  obtain ⟨hn, h0, hfa, ha⟩ := rval_absL .single (lane 32 x i)
  have hfa := hfa.trans hf
  rw [asinF_core, gtL_real E.B hfa atF_one.1, atF_one.2, ha, if_neg (by simp; linarith)]
  exact asin_sign .single hf (asF_small_err E.B hfa h0 (by rw [ha]; exact h1))

/-- The real arcus sinus of one number. -/
theorem arcsin_witness : Real.arcsin (8392735 / 16777216) ≤ 0.5238828419 ∧ 1 / 2 ≤ Real.arcsin (8392735 / 16777216) := by
  constructor
  · have h := asinSum_bound (n := 19) (T := 8392735 / 16777216) (K := 1.16) (t := 8392735 / 16777216) (by norm_num) (by norm_num) (by norm_num)
      (by norm_num) le_rfl
    have h2 := h.2
    rw [← asinTaylor_sum] at h2
    simp only [asinTaylor, asinC, pEval] at h2
    push_cast at h2
    norm_num at h2 ⊢
    linarith
  · exact le_trans (by norm_num) (le_arcsin (t := 8392735 / 16777216) (by norm_num) (by norm_num))

/-- The documented 2 units in the last place do not hold: for 0.50024599 the error is 2.4 units. -/
theorem C81_float_violated : ∃ x : BitVec 32, isFinite f32 x = true ∧ |rval f32 x| ≤ 1 ∧ ∀ {n : Nat} {E : ArcEnv n}, ArcVF n E →
    ∀ (v : BitVec n) (i : Nat), 32 * (i + 1) ≤ n → lane 32 v i = x →
      ¬ WithinUlps f32 2.4 (Real.arcsin (rval f32 x)) (lane 32 (asinF (vArc E f32 32) (vSqrt f32 32) v) i) := by
  have e : rval f32 0x3f00101f#32 = 8392735 / 16777216 :=
    rval_lit false 126 4127 (-24) (by decide) (by decide) (by decide) (by decide) (by decide) (by norm_num [f32])
  refine ⟨0x3f00101f#32, by decide, by rw [e, abs_of_pos (by norm_num)]; norm_num, fun {n E} h v i hi hv hw => ?_⟩
  obtain ⟨w1, w2⟩ := arcsin_witness
  rw [asinF_lane h.ok hi (v := v) rfl, hv, e, show asinF (sArc E.B f32 32) (fSqrt f32) 0x3f00101f#32 = 0x3f061d32#32 by
    generalize E.B = B; cases B <;> decide +kernel] at hw
  have h2 := hw.2.2 (-1) (by rw [abs_of_pos (by linarith)]; norm_num; linarith) (by rw [abs_of_pos (by linarith)]; norm_num; norm_num at w1; linarith)
  rw [show max (-1 - (f32.m : Int)) (-(oneExp f32 : Int)) = -24 by decide, rval_lit (v := 4394649 / 8388608) false 126 400690 (-24) (by decide) (by decide) (by decide) (by decide) (by decide) (by norm_num [f32])] at h2
  have := (abs_le.mp h2).2
  norm_num at this w1
  linarith

/-- Double: the arcus sinus of a number in [-1, 1] is correct up to 8 units in the last place; the documentation promises 36. -/
theorem C81_double {n : Nat} {E : ArcEnv n} (h : ArcVD n E) (x : BitVec n) {i : Nat} (hi : 64 * (i + 1) ≤ n)
    (hf : isFinite f64 (lane 64 x i) = true) (h1 : |rval f64 (lane 64 x i)| ≤ 1) :
    WithinUlps f64 8 (Real.arcsin (rval f64 (lane 64 x i))) (lane 64 (asinD (vArc E f64 64) (vSqrt f64 64) x) i) := by
  rw [asinD_lane h.ok hi (v := x) rfl]
  exact asinD_within E.B hf h1

/-- Witness: arguments of all ranges, in one vector. -/
example : ArcVF 128 (arcSseF sse42) ∧ ArcVD 128 (arcSseD sse2) ∧
    lane 32 (0xbf4000003f8000003e80000038000000#128) 3 = 0xbf400000#32 ∧ isFinite f32 0xbf400000#32 = true ∧
    |rval f32 0xbf400000#32| ≤ 1 ∧ lane 64 (0x3fe80000000000003fd0000000000000#128) 1 = 0x3fe8000000000000#64 ∧
    isFinite f64 0x3fe8000000000000#64 = true ∧ |rval f64 0x3fe8000000000000#64| ≤ 1 := by
  refine ⟨.sse _, .sse _, by decide, by decide, ?_, by decide, by decide, ?_⟩
  · rw [rval_lit (v := -(3 / 4)) true 126 4194304 (-24) (by decide) (by decide) (by decide) (by decide) (by decide) (by norm_num [f32])]
    norm_num [abs_le]
  · rw [rval_lit (v := 3 / 4) false 1022 2251799813685248 (-53) (by decide) (by decide) (by decide) (by decide) (by decide) (by norm_num [f64])]
    norm_num [abs_le]

end Vc.Prop
