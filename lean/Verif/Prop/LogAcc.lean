import Verif.Lemma.LogTwoI
import Verif.Lemma.LogTen
import Verif.Prop.Log

/-!
C82: the documented precision of `log`, `log2` and `log10`, in units in the last place.
-/

namespace Vc.Prop
open Vc.Model Vc.Spec Vc.Lemma

/-- The error proved for float, in units in the last place, .. -/
noncomputable def logUlpF : LogBase → ℝ
  | .e => 1
  | .ten => 16 / 5
  | .two => 13 / 4
/-- .. and for double. -/
noncomputable def logUlpD : LogBase → ℝ
  | .e => 6 / 5
  | .ten => 7 / 2
  | .two => 18 / 5

theorem logF_within {x : BitVec 32} (b : LogBase) (hp : 0 < rval f32 x) :
    WithinUlps f32 (logUlpF b) (logR b (rval f32 x)) (logL f32 logConstF expoF (logSeriesF (sArith f32 32) b) x) := by
  rw [logL_pos .single (rval_nonneg_sign hp) (mag_ne_of_pos hp)]
  obtain ⟨E, hr⟩ := log_red logKF (rval_nonneg_sign hp) (mag_ne_of_pos hp)
  cases b
  · exact logF_ulp hr
  · exact logF_ulp10 hr
  · exact logF_ulp2 hr

theorem logD_within {x : BitVec 64} (b : LogBase) (hp : 0 < rval f64 x) :
    WithinUlps f64 (logUlpD b) (logR b (rval f64 x)) (logL f64 logConstD expoD (logSeriesD (sArith f64 64) b) x) := by
  rw [logL_pos .double (rval_nonneg_sign hp) (mag_ne_of_pos hp)]
  obtain ⟨E, hr⟩ := log_red logKD (rval_nonneg_sign hp) (mag_ne_of_pos hp)
  cases b
  · exact logD_ulp hr
  · exact logD_ulp10 hr
  · exact logD_ulp2 hr

/-- Float: the natural logarithm of every positive number, denormal or not and beyond 1000 as well, is correct up to
one unit in the last place. -/
theorem C82_float_log {n : Nat} {x r : BitVec n} (h : LogFloat n .e x r) {i : Nat} (hi : 32 * (i + 1) ≤ n)
    (_hf : isFinite f32 (lane 32 x i) = true) (hp : 0 < rval f32 (lane 32 x i)) :
    WithinUlps f32 1 (Real.log (rval f32 (lane 32 x i))) (lane 32 r i) := by
  rw [logFloat_lane h hi]
  exact logF_within .e hp

/-- Float: `log10` is correct up to 3.2 and `log2` up to 3.25 units in the last place.  Missing: the documentation promises
2 and 1, see `C82_float_log10_violated` and `C82_float_log2_violated`. -/
theorem C82_float_partial {n : Nat} {b : LogBase} {x r : BitVec n} (h : LogFloat n b x r) {i : Nat} (hi : 32 * (i + 1) ≤ n)
    (_hf : isFinite f32 (lane 32 x i) = true) (hp : 0 < rval f32 (lane 32 x i)) :
    WithinUlps f32 (logUlpF b) (logR b (rval f32 (lane 32 x i))) (lane 32 r i) := by
  rw [logFloat_lane h hi]
  exact logF_within b hp

/-- Double: `log` is correct up to 1.2, `log10` up to 3.5 and `log2` up to 3.6 units in the last place.  Missing: the
documentation promises 1, 2 and 1; see `C82_double_log_violated` and `C82_double_log2_violated`.  For `log10` no
counterexample is known. -/
theorem C82_double_partial {n : Nat} {b : LogBase} {x r : BitVec n} (h : LogDouble n b x r) {i : Nat} (hi : 64 * (i + 1) ≤ n)
    (_hf : isFinite f64 (lane 64 x i) = true) (hp : 0 < rval f64 (lane 64 x i)) :
    WithinUlps f64 (logUlpD b) (logR b (rval f64 (lane 64 x i))) (lane 64 r i) := by
  rw [logDouble_lane h hi]
  exact logD_within b hp

/-- A logarithm, from the logarithms of two and of a number near one. -/
theorem log_sqr {X t : ℝ} (k : Int) (ht : -1 < t) (h : X ^ 2 = 2 ^ k * (1 + t)) :
    Real.log X = (k * Real.log 2 + Real.log (1 + t)) / 2 := by
  have := congrArg Real.log h
  rw [Real.log_pow, Real.log_mul (by positivity) (by linarith), Real.log_zpow] at this
  push_cast at this
  linarith

theorem wit_float_log10 : (-(1 / 2)) < Real.logb 10 (11762993 / 33554432) ∧ Real.logb 10 (11762993 / 33554432) < (-(1 / 4)) ∧ (-(1527505297 / 3355443200)) < Real.logb 10 (11762993 / 33554432) := by
  have hl := log_sqr (X := (11762993 / 33554432)) (t := (-(2369484037279 / 140737488355328))) (-3) (by norm_num) (by norm_num)
  have ht := log_taylor (t := (-(2369484037279 / 140737488355328))) (by rw [abs_lt]; constructor <;> norm_num) 6
  rw [abs_of_neg (by norm_num : ((-(2369484037279 / 140737488355328)) : ℝ) < 0)] at ht
  norm_num [pEval, logTaylor] at ht
  have ht := abs_le.mp ht
  have h2 := abs_le.mp log2_near
  have h10 := abs_le.mp log10_near
  have lp : 0 < Real.log 10 := Real.log_pos (by norm_num)
  rw [Real.logb, lt_div_iff₀ lp, div_lt_iff₀ lp, lt_div_iff₀ lp]
  norm_num at hl ht h2 h10 ⊢
  rw [hl]
  refine ⟨?_, ?_, ?_⟩ <;> linarith [ht.1, ht.2, h2.1, h2.2, h10.1, h10.2]

/-- Float: `log10` is wrong by more than 2.03 units in the last place for some number in the documented range. -/
theorem C82_float_log10_violated : ∃ x : BitVec 32, isFinite f32 x = true ∧ 0 < rval f32 x ∧ rval f32 x ≤ 1000 ∧
    ∀ {n : Nat} {v r : BitVec n}, LogFloat n .ten v r → ∀ i : Nat, 32 * (i + 1) ≤ n → lane 32 v i = x →
      ¬ WithinUlps f32 (203 / 100) (Real.logb 10 (rval f32 x)) (lane 32 r i) := by
  have e : rval f32 0x3eb37d31#32 = 11762993 / 33554432 :=
    rval_lit false 125 3374385 (-25) (by decide) (by decide) (by decide) (by decide) (by decide) (by norm_num [f32])
  refine ⟨0x3eb37d31#32, by decide, by rw [e]; norm_num, by rw [e]; norm_num, fun {n v r} h i hi hv hw => ?_⟩
  obtain ⟨w1, w2, w3⟩ := wit_float_log10
  rw [logFloat_lane h hi, hv, e, show logL f32 logConstF expoF (logSeriesF (sArith f32 32) .ten) 0x3eb37d31#32 = 0xbee9142f#32 by decide +kernel] at hw
  generalize Real.logb 10 (11762993 / 33554432 : ℝ) = z at w1 w2 w3 hw
  have h2 := hw.2.2 (-2) (by rw [abs_of_neg (by linarith)]; norm_num at w1 w2 ⊢; linarith) (by rw [abs_of_neg (by linarith)]; norm_num at w1 w2 ⊢; linarith)
  rw [show max (-2 - (f32.m : Int)) (-(oneExp f32 : Int)) = -25 by decide, show rval f32 0xbee9142f#32 = -(15275055 / 33554432) from
    rval_lit true 125 6886447 (-25) (by decide) (by decide) (by decide) (by decide) (by decide) (by norm_num [f32])] at h2
  have h3 := abs_le.mp h2
  norm_num at h3 w3
  linarith [h3.1, h3.2]

theorem wit_float_log2 : (1 / 4) < Real.logb 2 (11652369 / 8388608) ∧ Real.logb 2 (11652369 / 8388608) < (1 / 2) ∧ (397720647 / 838860800) < Real.logb 2 (11652369 / 8388608) := by
  have hl := log_sqr (X := (11652369 / 8388608)) (t := (-(4959785043167 / 140737488355328))) (1) (by norm_num) (by norm_num)
  have ht := log_taylor (t := (-(4959785043167 / 140737488355328))) (by rw [abs_lt]; constructor <;> norm_num) 7
  rw [abs_of_neg (by norm_num : ((-(4959785043167 / 140737488355328)) : ℝ) < 0)] at ht
  norm_num [pEval, logTaylor] at ht
  have ht := abs_le.mp ht
  have h2 := abs_le.mp log2_near
  have lp : 0 < Real.log 2 := Real.log_pos (by norm_num)
  rw [Real.logb, lt_div_iff₀ lp, div_lt_iff₀ lp, lt_div_iff₀ lp]
  norm_num at hl ht h2 ⊢
  rw [hl]
  refine ⟨?_, ?_, ?_⟩ <;> linarith [ht.1, ht.2, h2.1, h2.2]

/-- Float: `log2` is wrong by more than 1.88 units in the last place for some number in the documented range. -/
theorem C82_float_log2_violated : ∃ x : BitVec 32, isFinite f32 x = true ∧ 0 < rval f32 x ∧ rval f32 x ≤ 1000 ∧
    ∀ {n : Nat} {v r : BitVec n}, LogFloat n .two v r → ∀ i : Nat, 32 * (i + 1) ≤ n → lane 32 v i = x →
      ¬ WithinUlps f32 (47 / 25) (Real.logb 2 (rval f32 x)) (lane 32 r i) := by
  have e : rval f32 0x3fb1cd11#32 = 11652369 / 8388608 :=
    rval_lit false 127 3263761 (-23) (by decide) (by decide) (by decide) (by decide) (by decide) (by norm_num [f32])
  refine ⟨0x3fb1cd11#32, by decide, by rw [e]; norm_num, by rw [e]; norm_num, fun {n v r} h i hi hv hw => ?_⟩
  obtain ⟨w1, w2, w3⟩ := wit_float_log2
  rw [logFloat_lane h hi, hv, e, show logL f32 logConstF expoF (logSeriesF (sArith f32 32) .two) 0x3fb1cd11#32 = 0x3ef2bfd8#32 by decide +kernel] at hw
  generalize Real.logb 2 (11652369 / 8388608 : ℝ) = z at w1 w2 w3 hw
  have h2 := hw.2.2 (-2) (by rw [abs_of_pos (by linarith)]; norm_num at w1 w2 ⊢; linarith) (by rw [abs_of_pos (by linarith)]; norm_num at w1 w2 ⊢; linarith)
  rw [show max (-2 - (f32.m : Int)) (-(oneExp f32 : Int)) = -25 by decide, show rval f32 0x3ef2bfd8#32 = 1988603 / 4194304 from
    rval_lit false 125 7520216 (-25) (by decide) (by decide) (by decide) (by decide) (by decide) (by norm_num [f32])] at h2
  have h3 := abs_le.mp h2
  norm_num at h3 w3
  linarith [h3.1, h3.2]

theorem wit_double_log : (1 / 4) < Real.log (6368487617704515 / 4503599627370496) ∧ Real.log (6368487617704515 / 4503599627370496) < (1 / 2) ∧ Real.log (6368487617704515 / 4503599627370496) < (3120859654779833499 / 9007199254740992000) := by
  have hl := log_sqr (X := (6368487617704515 / 4503599627370496)) (t := (-(7184670447612051416651186807 / 40564819207303340847894502572032))) (1) (by norm_num) (by norm_num)
  have ht := log_taylor (t := (-(7184670447612051416651186807 / 40564819207303340847894502572032))) (by rw [abs_lt]; constructor <;> norm_num) 6
  rw [abs_of_neg (by norm_num : ((-(7184670447612051416651186807 / 40564819207303340847894502572032)) : ℝ) < 0)] at ht
  norm_num [pEval, logTaylor] at ht
  have ht := abs_le.mp ht
  have h2 := abs_le.mp log2_near
  norm_num at hl ht h2 ⊢
  rw [hl]
  refine ⟨?_, ?_, ?_⟩ <;> linarith [ht.1, ht.2, h2.1, h2.2]

/-- Double: `log` is wrong by more than 1.002 units in the last place for some number in the documented range. -/
theorem C82_double_log_violated : ∃ x : BitVec 64, isFinite f64 x = true ∧ 0 < rval f64 x ∧ rval f64 x ≤ 1000 ∧
    ∀ {n : Nat} {v r : BitVec n}, LogDouble n .e v r → ∀ i : Nat, 64 * (i + 1) ≤ n → lane 64 v i = x →
      ¬ WithinUlps f64 (501 / 500) (Real.log (rval f64 x)) (lane 64 r i) := by
  have e : rval f64 0x3ff6a01b1235b243#64 = 6368487617704515 / 4503599627370496 :=
    rval_lit false 1023 1864887990334019 (-52) (by decide) (by decide) (by decide) (by decide) (by decide) (by norm_num [f64])
  refine ⟨0x3ff6a01b1235b243#64, by decide, by rw [e]; norm_num, by rw [e]; norm_num, fun {n v r} h i hi hv hw => ?_⟩
  obtain ⟨w1, w2, w3⟩ := wit_double_log
  rw [logDouble_lane h hi, hv, e, show logL f64 logConstD expoD (logSeriesD (sArith f64 64) .e) 0x3ff6a01b1235b243#64 = 0x3fd62ccf863be774#64 by decide +kernel] at hw
  generalize Real.log (6368487617704515 / 4503599627370496 : ℝ) = z at w1 w2 w3 hw
  have h2 := hw.2.2 (-2) (by rw [abs_of_pos (by linarith)]; norm_num at w1 w2 ⊢; linarith) (by rw [abs_of_pos (by linarith)]; norm_num at w1 w2 ⊢; linarith)
  rw [show max (-2 - (f64.m : Int)) (-(oneExp f64 : Int)) = -54 by decide, show rval f64 0x3fd62ccf863be774#64 = 1560429827389917 / 4503599627370496 from
    rval_lit false 1021 1738119682189172 (-54) (by decide) (by decide) (by decide) (by decide) (by decide) (by norm_num [f64])] at h2
  have h3 := abs_le.mp h2
  norm_num at h3 w3
  linarith [h3.1, h3.2]

theorem wit_double_log2 : (1 / 4) < Real.logb 2 (395630585066989 / 281474976710656) ∧ Real.logb 2 (395630585066989 / 281474976710656) < (1 / 2) ∧ (884772299903018997 / 1801439850948198400) < Real.logb 2 (395630585066989 / 281474976710656) := by
  have hl := log_sqr (X := (395630585066989 / 281474976710656)) (t := (-(1932765188080655665470374551 / 158456325028528675187087900672))) (1) (by norm_num) (by norm_num)
  have ht := log_taylor (t := (-(1932765188080655665470374551 / 158456325028528675187087900672))) (by rw [abs_lt]; constructor <;> norm_num) 9
  rw [abs_of_neg (by norm_num : ((-(1932765188080655665470374551 / 158456325028528675187087900672)) : ℝ) < 0)] at ht
  norm_num [pEval, logTaylor] at ht
  have ht := abs_le.mp ht
  have h2 := abs_le.mp log2_near
  have lp : 0 < Real.log 2 := Real.log_pos (by norm_num)
  rw [Real.logb, lt_div_iff₀ lp, div_lt_iff₀ lp, lt_div_iff₀ lp]
  norm_num at hl ht h2 ⊢
  rw [hl]
  refine ⟨?_, ?_, ?_⟩ <;> linarith [ht.1, ht.2, h2.1, h2.2]

/-- Double: `log2` is wrong by more than 1.97 units in the last place for some number in the documented range. -/
theorem C82_double_log2_violated : ∃ x : BitVec 64, isFinite f64 x = true ∧ 0 < rval f64 x ∧ rval f64 x ≤ 1000 ∧
    ∀ {n : Nat} {v r : BitVec n}, LogDouble n .two v r → ∀ i : Nat, 64 * (i + 1) ≤ n → lane 64 v i = x →
      ¬ WithinUlps f64 (197 / 100) (Real.logb 2 (rval f64 x)) (lane 64 r i) := by
  have e : rval f64 0x3ff67d2ec7c35ed0#64 = 395630585066989 / 281474976710656 :=
    rval_lit false 1023 1826489733701328 (-52) (by decide) (by decide) (by decide) (by decide) (by decide) (by norm_num [f64])
  refine ⟨0x3ff67d2ec7c35ed0#64, by decide, by rw [e]; norm_num, by rw [e]; norm_num, fun {n v r} h i hi hv hw => ?_⟩
  obtain ⟨w1, w2, w3⟩ := wit_double_log2
  rw [logDouble_lane h hi, hv, e, show logL f64 logConstD expoD (logSeriesD (sArith f64 64) .two) 0x3ff67d2ec7c35ed0#64 = 0x3fdf6ef50a6da1ac#64 by decide +kernel] at hw
  generalize Real.logb 2 (395630585066989 / 281474976710656 : ℝ) = z at w1 w2 w3 hw
  have h2 := hw.2.2 (-2) (by rw [abs_of_pos (by linarith)]; norm_num at w1 w2 ⊢; linarith) (by rw [abs_of_pos (by linarith)]; norm_num at w1 w2 ⊢; linarith)
  rw [show max (-2 - (f64.m : Int)) (-(oneExp f64 : Int)) = -54 by decide, show rval f64 0x3fdf6ef50a6da1ac#64 = 2211930749757547 / 4503599627370496 from
    rval_lit false 1021 4344123371659692 (-54) (by decide) (by decide) (by decide) (by decide) (by decide) (by norm_num [f64])] at h2
  have h3 := abs_le.mp h2
  norm_num at h3 w3
  linarith [h3.1, h3.2]

/-! The hypotheses hold for, e.g., the smallest denormal number. -/

example : isFinite f64 (lane 64 (set1 (n := 128) 64 0x0000000000000001#64) 1) = true ∧
    0 < rval f64 (lane 64 (set1 (n := 128) 64 0x0000000000000001#64) 1) := by
  rw [lane_set1 _ (by decide)]
  refine ⟨by decide, ?_⟩
  unfold rval
  have : fval f64 0x0000000000000001#64 = 1 := by decide +kernel
  rw [this]; positivity

example : LogFloat 128 .e (set1 32 0x40000000#32) (logSseF sse2 .e (set1 32 0x40000000#32)) := .sse _ _ _
example : 32 * (2 + 1) ≤ 128 ∧ lane 32 (set1 (n := 128) 32 0x3eb37d31#32) 2 = 0x3eb37d31#32 := ⟨by decide, lane_set1 _ (by decide)⟩

end Vc.Prop
