import Verif.Lemma.LogL
import Verif.Prop.SseInt
import Mathlib.Analysis.SpecialFunctions.Log.Base

/-!
C73: `log`, `log2` and `log10` of the floating-point vectors.
-/

namespace Vc.Prop
open Vc.Model Vc.Spec Vc.Lemma

/-- The logarithm the base stands for. -/
noncomputable def logR : LogBase → ℝ → ℝ
  | .e, v => Real.log v
  | .ten, v => Real.logb 10 v
  | .two, v => Real.logb 2 v

/-- The relative error: two units in the last place of float (four for the bases 2 and 10), .. -/
noncomputable def logEpsF : LogBase → ℝ
  | .e => 1 / 2 ^ 22
  | _ => 1 / 2 ^ 21
/-- .. four units in the last place of double (eight for the bases 2 and 10). -/
noncomputable def logEpsD : LogBase → ℝ
  | .e => 1 / 2 ^ 50
  | _ => 1 / 2 ^ 49

/-- The versions of `log` of float vectors: base, argument and result. -/
inductive LogFloat : (n : Nat) → LogBase → BitVec n → BitVec n → Prop
  | sse (I : Isa) (b : LogBase) (x : M128) : LogFloat 128 b x (logSseF I b x)
  | avx (b : LogBase) (x : M256) : LogFloat 256 b x (logAvxF b x)

/-- The versions of `log` of double vectors. -/
inductive LogDouble : (n : Nat) → LogBase → BitVec n → BitVec n → Prop
  | sse (I : Isa) (b : LogBase) (x : M128) : LogDouble 128 b x (logSseD I b x)
  | avx (b : LogBase) (x r : M256) (h : logAvxD b x = some r) : LogDouble 256 b x r

theorem logFloat_lane {n : Nat} {b : LogBase} {x r : BitVec n} (h : LogFloat n b x r) {i : Nat} (hi : 32 * (i + 1) ≤ n) :
    lane 32 r i = logL f32 logConstF expoF (logSeriesF (sArith f32 32) b) (lane 32 x i) := by
  cases h with
  | sse I b x => exact lane_logSseF I b x (by omega)
  | avx b x => exact lane_logAvxF b x (by omega)

theorem logDouble_lane {n : Nat} {b : LogBase} {x r : BitVec n} (h : LogDouble n b x r) {i : Nat} (hi : 64 * (i + 1) ≤ n) :
    lane 64 r i = logL f64 logConstD expoD (logSeriesD (sArith f64 64) b) (lane 64 x i) := by
  cases h with
  | sse I b x => exact lane_logSseD I b x (by omega)
  | avx b x r h =>
    obtain ⟨r', h1, h2⟩ := lane_logAvxD b x
    rw [h] at h1
    injection h1 with h1
    rw [h1]
    exact h2 i (by omega)

/-- `log` of an AVX double vector never reads undefined elements. -/
theorem C73_double_avx_defined (b : LogBase) (x : M256) : ∃ r, logAvxD b x = some r :=
  let ⟨r, h, _⟩ := lane_logAvxD b x; ⟨r, h⟩

theorem logF_pos {x : BitVec 32} (b : LogBase) (hs : fneg f32 x = false) (h0 : fmag f32 x ≠ 0) :
    ApproxRel f32 (logR b (rval f32 x)) (logEpsF b) (logL f32 logConstF expoF (logSeriesF (sArith f32 32) b) x) := by
  rw [logL_pos .single hs h0]
  obtain ⟨E, hr⟩ := log_red logKF hs h0
  obtain ⟨h1, h2, h3⟩ := logF_all hr
  have u4 : 4 * uRel f32 = 1 / 2 ^ 22 := by unfold uRel; norm_num [f32]
  have u8 : 8 * uRel f32 = 1 / 2 ^ 21 := by unfold uRel; norm_num [f32]
  rw [u4] at h1
  rw [u8] at h2 h3
  cases b
  · exact h1
  · exact h2
  · exact h3

theorem logD_pos {x : BitVec 64} (b : LogBase) (hs : fneg f64 x = false) (h0 : fmag f64 x ≠ 0) :
    ApproxRel f64 (logR b (rval f64 x)) (logEpsD b) (logL f64 logConstD expoD (logSeriesD (sArith f64 64) b) x) := by
  rw [logL_pos .double hs h0]
  obtain ⟨E, hr⟩ := log_red logKD hs h0
  obtain ⟨h1, h2, h3⟩ := logD_all hr
  have u4 : 8 * uRel f64 = 1 / 2 ^ 50 := by unfold uRel; norm_num [f64]
  have u8 : 16 * uRel f64 = 1 / 2 ^ 49 := by unfold uRel; norm_num [f64]
  rw [u4] at h1
  rw [u8] at h2 h3
  cases b
  · exact h1
  · exact h2
  · exact h3

theorem mag_ne_of_pos {F : Fmt} {w : Nat} {x : BitVec w} (hp : 0 < rval F x) : fmag F x ≠ 0 := by
  intro h
  rw [rval, fval_zero_of_mag h] at hp
  simp at hp

theorem mag_zero_of_val {F : Fmt} {w : Nat} {x : BitVec w} (h : fval F x = 0) : fmag F x = 0 := by
  unfold fval at h
  refine (magVal_eq_zero F _).mp ?_
  split at h <;> omega

/-- Every entry of a float vector whose argument is finite, or infinite and negative: the logarithm (to the base e, 2
or 10) with a relative error of at most `logEpsF` if the argument is positive (denormal or not), negative infinity for
zeros, NaN if the argument is negative.  The relative bound means that the logarithm of 1 is exactly 0, and the logarithm
to the base 2 of a power of two is exact.

Missing for the full claim: positive infinity and NaN (`C73_float_inf_violated`). -/
theorem C73_float_partial {n : Nat} {b : LogBase} {x r : BitVec n} (h : LogFloat n b x r) {i : Nat} (hi : 32 * (i + 1) ≤ n) :
    (isFinite f32 (lane 32 x i) = true → 0 < rval f32 (lane 32 x i) →
      ApproxRel f32 (logR b (rval f32 (lane 32 x i))) (logEpsF b) (lane 32 r i)) ∧
    (isFinite f32 (lane 32 x i) = true → rval f32 (lane 32 x i) = 0 → lane 32 r i = 0xff800000#32) ∧
    (isFinite f32 (lane 32 x i) = true → rval f32 (lane 32 x i) < 0 → isNaN f32 (lane 32 r i) = true) ∧
    (isInf f32 (lane 32 x i) = true → fneg f32 (lane 32 x i) = true → isNaN f32 (lane 32 r i) = true) ∧
    (∀ k : Int, b = .two → isFinite f32 (lane 32 x i) = true → rval f32 (lane 32 x i) = 2 ^ k →
      isFinite f32 (lane 32 r i) = true ∧ rval f32 (lane 32 r i) = k) := by
  rw [logFloat_lane h hi]
  generalize lane 32 x i = y
  refine ⟨fun _ hp => logF_pos b (rval_nonneg_sign hp) (mag_ne_of_pos hp), fun _ hz => ?_, fun hf hn => ?_, fun hinf hs => ?_,
    fun k hb _ hk => ?_⟩
  · refine logL_zero .single ?_
    by_contra hne
    have : fval f32 y = 0 := by
      unfold rval at hz
      have h2 := (div_eq_zero_iff.mp hz).resolve_right (by positivity)
      exact_mod_cast h2
    exact hne (mag_zero_of_val this)
  · have hs : fneg f32 y = true := by
      by_contra hc
      rw [rval_sign] at hn
      have : fneg f32 y = false := by simpa using hc
      rw [this] at hn
      simp only [Bool.false_eq_true, if_false, one_mul] at hn
      exact absurd hn (not_lt.mpr (by positivity))
    rw [logL_neg .single hs (fun h0 => by rw [rval, fval_zero_of_mag h0] at hn; simp at hn) (isFinite_not hf).1]
    decide
  · have hm : fmag f32 y = infMag f32 := of_decide_eq_true hinf
    rw [logL_neg .single hs (by rw [hm]; decide) (by unfold isNaN; rw [hm]; simp)]
    decide
  · subst hb
    have hp : 0 < rval f32 y := by rw [hk]; positivity
    obtain ⟨E, hr⟩ := log_red logKF (rval_nonneg_sign hp) (mag_ne_of_pos hp)
    rw [logL_pos .single (rval_nonneg_sign hp) (mag_ne_of_pos hp)]
    exact log2F_exact hr hk

/-- The logarithm of positive infinity, and of the NaNs whose sign bit is not set, is a finite number. -/
theorem C73_float_inf_violated {n : Nat} {b : LogBase} {x r : BitVec n} (h : LogFloat n b x r) {i : Nat}
    (hi : 32 * (i + 1) ≤ n) (hs : fneg f32 (lane 32 x i) = false)
    (hx : isInf f32 (lane 32 x i) = true ∨ isNaN f32 (lane 32 x i) = true) : isFinite f32 (lane 32 r i) = true := by
  rw [logFloat_lane h hi]
  refine (logF_pos b hs ?_).1
  rcases hx with hx | hx
  · rw [of_decide_eq_true hx]; decide
  · have : infMag f32 < fmag f32 (lane 32 x i) := of_decide_eq_true hx
    omega

/-- Every entry of a double vector: as for float, with `logEpsD`. -/
theorem C73_double_partial {n : Nat} {b : LogBase} {x r : BitVec n} (h : LogDouble n b x r) {i : Nat} (hi : 64 * (i + 1) ≤ n) :
    (isFinite f64 (lane 64 x i) = true → 0 < rval f64 (lane 64 x i) →
      ApproxRel f64 (logR b (rval f64 (lane 64 x i))) (logEpsD b) (lane 64 r i)) ∧
    (isFinite f64 (lane 64 x i) = true → rval f64 (lane 64 x i) = 0 → lane 64 r i = 0xfff0000000000000#64) ∧
    (isFinite f64 (lane 64 x i) = true → rval f64 (lane 64 x i) < 0 → isNaN f64 (lane 64 r i) = true) ∧
    (isInf f64 (lane 64 x i) = true → fneg f64 (lane 64 x i) = true → isNaN f64 (lane 64 r i) = true) ∧
    (∀ k : Int, b = .two → isFinite f64 (lane 64 x i) = true → rval f64 (lane 64 x i) = 2 ^ k →
      isFinite f64 (lane 64 r i) = true ∧ rval f64 (lane 64 r i) = k) := by
  rw [logDouble_lane h hi]
  generalize lane 64 x i = y
  refine ⟨fun _ hp => logD_pos b (rval_nonneg_sign hp) (mag_ne_of_pos hp), fun _ hz => ?_, fun hf hn => ?_, fun hinf hs => ?_,
    fun k hb _ hk => ?_⟩
  · refine logL_zero .double ?_
    by_contra hne
    have : fval f64 y = 0 := by
      unfold rval at hz
      have h2 := (div_eq_zero_iff.mp hz).resolve_right (by positivity)
      exact_mod_cast h2
    exact hne (mag_zero_of_val this)
  · have hs : fneg f64 y = true := by
      by_contra hc
      rw [rval_sign] at hn
      have : fneg f64 y = false := by simpa using hc
      rw [this] at hn
      simp only [Bool.false_eq_true, if_false, one_mul] at hn
      exact absurd hn (not_lt.mpr (by positivity))
    rw [logL_neg .double hs (fun h0 => by rw [rval, fval_zero_of_mag h0] at hn; simp at hn) (isFinite_not hf).1]
    decide
  · have hm : fmag f64 y = infMag f64 := of_decide_eq_true hinf
    rw [logL_neg .double hs (by rw [hm]; decide) (by unfold isNaN; rw [hm]; simp)]
    decide
  · subst hb
    have hp : 0 < rval f64 y := by rw [hk]; positivity
    obtain ⟨E, hr⟩ := log_red logKD (rval_nonneg_sign hp) (mag_ne_of_pos hp)
    rw [logL_pos .double (rval_nonneg_sign hp) (mag_ne_of_pos hp)]
    exact log2D_exact hr hk

theorem C73_double_inf_violated {n : Nat} {b : LogBase} {x r : BitVec n} (h : LogDouble n b x r) {i : Nat}
    (hi : 64 * (i + 1) ≤ n) (hs : fneg f64 (lane 64 x i) = false)
    (hx : isInf f64 (lane 64 x i) = true ∨ isNaN f64 (lane 64 x i) = true) : isFinite f64 (lane 64 r i) = true := by
  rw [logDouble_lane h hi]
  refine (logD_pos b hs ?_).1
  rcases hx with hx | hx
  · rw [of_decide_eq_true hx]; decide
  · have : infMag f64 < fmag f64 (lane 64 x i) := of_decide_eq_true hx
    omega

/-! The hypotheses hold for, e.g., the smallest denormal number, the largest number, 0, -1, infinities and NaN. -/

example : isFinite f32 (lane 32 (set1 (n := 128) 32 0x00000001#32) 2) = true ∧
    0 < rval f32 (lane 32 (set1 (n := 128) 32 0x00000001#32) 2) := by
  rw [lane_set1 _ (by decide)]
  refine ⟨by decide, ?_⟩
  unfold rval
  have : fval f32 0x00000001#32 = 1 := by decide +kernel
  rw [this]; positivity

example : lane 32 (logSseF sse2 .e (set1 32 0x40000000#32)) 2 = 0x3f317218#32 := by
  rw [lane_logSseF _ _ _ (by decide), lane_set1 _ (by decide)]; decide +kernel
example : lane 32 (logAvxF .two (set1 32 0x00000001#32)) 7 = 0xc3150000#32 := by
  rw [lane_logAvxF _ _ (by decide), lane_set1 _ (by decide)]; decide +kernel
example : lane 32 (logSseF sse2 .ten (set1 32 0x7f800000#32)) 0 = 0x421a209b#32 := by
  rw [lane_logSseF _ _ _ (by decide), lane_set1 _ (by decide)]; decide +kernel
example : lane 64 (logSseD sse2 .e (set1 64 0x4000000000000000#64)) 1 = 0x3fe62e42fefa39ef#64 := by
  rw [lane_logSseD _ _ _ (by decide), lane_set1 _ (by decide)]; decide +kernel
example : isInf f32 0x7f800000#32 = true ∧ fneg f32 0x7f800000#32 = false := by decide

end Vc.Prop
