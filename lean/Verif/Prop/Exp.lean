import Verif.Lemma.ExpD2
import Verif.Prop.SseInt

/-!
C72: `exp` of the floating-point vectors.
-/

namespace Vc.Prop
open Vc.Model Vc.Spec Vc.Lemma

/-- The versions of `exp` of float vectors, with the way the build compares. -/
inductive ExpFloat : CmpBuild → (n : Nat) → (BitVec n → BitVec n) → Prop
  | sse (I : Isa) : ExpFloat .sse 128 (expSseF I)
  | avx (B : CmpBuild) (avx2 : Bool) : ExpFloat B 256 (expAvxF B avx2)

theorem expFloat_lane {B : CmpBuild} {n : Nat} {f : BitVec n → BitVec n} (hf : ExpFloat B n f) (x : BitVec n) {i : Nat}
    (hi : 32 * (i + 1) ≤ n) : ExpLaneF B (lane 32 x i) (lane 32 (f x) i) := by
  cases hf with
  | sse I => exact lane_vExpF .sse (expOps_sse I) x hi
  | avx B avx2 => exact lane_vExpF B (expOps_avx avx2) x hi

/-- Every entry of `exp` of a float vector whose argument is finite: the exponential with a relative error of at most
`2 ^ -22` (two units in the last place) if that is between (just above) the smallest normal number and the largest
number; infinity exactly from `2 ^ 128`; otherwise a number between 0 and (just above) the smallest normal number.

Missing for the full claim: relative accuracy for results below the smallest normal number
(`C72_float_denormal_violated`). -/
theorem C72_float_partial {B : CmpBuild} {n : Nat} {f : BitVec n → BitVec n} (hf : ExpFloat B n f) (x : BitVec n) {i : Nat}
    (hi : 32 * (i + 1) ≤ n) (hx : isFinite f32 (lane 32 x i) = true) :
    (2 ^ (-126 : Int) * (1 + 1 / 2 ^ 20) ≤ Real.exp (rval f32 (lane 32 x i)) →
      Real.exp (rval f32 (lane 32 x i)) < 2 ^ (128 : Int) →
      ApproxRel f32 (Real.exp (rval f32 (lane 32 x i))) (1 / 2 ^ 22) (lane 32 (f x) i)) ∧
    (2 ^ (128 : Int) ≤ Real.exp (rval f32 (lane 32 x i)) → lane 32 (f x) i = 0x7f800000#32) ∧
    (Real.exp (rval f32 (lane 32 x i)) < 2 ^ (-126 : Int) * (1 + 1 / 2 ^ 20) →
      isFinite f32 (lane 32 (f x) i) = true ∧ fneg f32 (lane 32 (f x) i) = false ∧
      rval f32 (lane 32 (f x) i) ≤ 2 ^ (-126 : Int) * (1 + 1 / 2 ^ 19)) := by
  have h := expFloat_lane hf x hi
  refine ⟨fun h1 h2 => ?_, fun h1 => expF_large_main h hx h1, fun h1 => expF_small_main h hx h1⟩
  have := expF_main h hx h1 h2
  exact ⟨this.1, by rw [abs_of_pos (Real.exp_pos _)]; exact this.2⟩

/-- Infinities and NaNs; for the builds that compare `>` as such. -/
theorem C72_float_special {B : CmpBuild} {n : Nat} {f : BitVec n → BitVec n} (hf : ExpFloat B n f) (x : BitVec n) {i : Nat}
    (hi : 32 * (i + 1) ≤ n) :
    (isInf f32 (lane 32 x i) = true → fneg f32 (lane 32 x i) = false → lane 32 (f x) i = 0x7f800000#32) ∧
    (isInf f32 (lane 32 x i) = true → fneg f32 (lane 32 x i) = true → lane 32 (f x) i = 0#32) ∧
    (B ≠ .avx → isNaN f32 (lane 32 x i) = true → isNaN f32 (lane 32 (f x) i) = true) := by
  have h := expFloat_lane hf x hi
  refine ⟨fun h1 h2 => ?_, fun h1 h2 => ?_, fun hB h1 => expF_nan h h1 hB⟩
  · have := expF_inf h h1
    rwa [h2] at this
  · have := expF_inf h h1
    rwa [h2] at this

/-- `exp` of NaN is infinity where `>` is the negated `≤`. -/
theorem C72_float_nan_violated (avx2 : Bool) (x : M256) {i : Nat} (hi : i < 8) (hx : isNaN f32 (lane 32 x i) = true) :
    lane 32 (expAvxF .avx avx2 x) i = 0x7f800000#32 :=
  expF_avx_nan (expFloat_lane (.avx .avx avx2) x (by omega)) hx

/-- Both thresholds of `C72_float_partial` are met by arguments such as 1. -/
example : isFinite f32 (lane 32 (set1 (n := 128) 32 0x3f800000#32) 2) = true ∧
    2 ^ (-126 : Int) * (1 + 1 / 2 ^ 20) ≤ Real.exp (rval f32 (lane 32 (set1 (n := 128) 32 0x3f800000#32) 2)) ∧
    Real.exp (rval f32 (lane 32 (set1 (n := 128) 32 0x3f800000#32) 2)) < 2 ^ (128 : Int) := by
  rw [lane_set1 _ (by decide), expF_one.2]
  refine ⟨expF_one.1, ?_, ?_⟩
  · have := Real.add_one_le_exp (1 : ℝ)
    refine le_trans ?_ this
    norm_num
  · rw [exp_lt_zpow]
    have := log2_gt
    push_cast
    norm_num at this ⊢
    linarith

example : lane 32 (expSseF sse2 (set1 32 0x3f800000#32)) 2 = 0x402df854#32 := by decide +kernel
example : lane 32 (expAvxF .avx true (set1 32 0x7fc00000#32)) 5 = 0x7f800000#32 := by decide +kernel

theorem expF_den_eval : lane 32 (expSseF sse2 (set1 32 0xc2afc000#32)) 0 = 0x00156a08#32 := by decide +kernel

/-- Results below the smallest normal number are wrong: for -87.875 the result is less than half of the exponential, and
more than a million denormal numbers lie in between. -/
theorem C72_float_denormal_violated :
    ∃ x : M128, isFinite f32 (lane 32 x 0) = true ∧ isFinite f32 (lane 32 (expSseF sse2 x) 0) = true ∧
      ¬ApproxRel f32 (Real.exp (rval f32 (lane 32 x 0))) (1 / 2) (lane 32 (expSseF sse2 x) 0) ∧
      ¬ApproxAbs f32 (Real.exp (rval f32 (lane 32 x 0))) (2 ^ (-129 : Int)) (lane 32 (expSseF sse2 x) 0) := by
  refine ⟨set1 32 0xc2afc000#32, ?_⟩
  rw [lane_set1 _ (by decide), expF_den_eval]
  have hx : isFinite f32 0xc2afc000#32 = true ∧ rval f32 0xc2afc000#32 = -(703 / 8) := by
    refine ⟨by decide, ?_⟩
    unfold rval
    have : fval f32 0xc2afc000#32 = -(703 * 2 ^ 146) := by decide +kernel
    have e : oneExp f32 = 149 := by decide
    rw [this, e]; norm_num
  have hr : rval f32 0x00156a08#32 = 1403400 / 2 ^ 149 := by
    unfold rval
    have : fval f32 0x00156a08#32 = 1403400 := by decide +kernel
    have e : oneExp f32 = 149 := by decide
    rw [this, e]; norm_num
  have hE : 1.15 * (2 : ℝ) ^ (-127 : Int) ≤ Real.exp (rval f32 0xc2afc000#32) := by
    rw [exp_add_log2 _ (-127)]
    refine mul_le_mul_of_nonneg_right ?_ (by positivity)
    refine le_trans ?_ (Real.add_one_le_exp _)
    rw [hx.2]
    have := log2_gt
    push_cast
    norm_num at this ⊢
    linarith
  refine ⟨hx.1, by decide, fun h => ?_, fun h => ?_⟩
  · have := (abs_le.mp h.2).1
    rw [abs_of_pos (Real.exp_pos _), hr] at this
    norm_num at this hE
    linarith
  · have := (abs_le.mp h.2).1
    rw [hr] at this
    norm_num at this hE
    linarith

/-- The versions of `exp` of double vectors, with the way the build compares. -/
inductive ExpDouble : CmpBuild → (n : Nat) → (BitVec n → BitVec n) → Prop
  | sse (I : Isa) : ExpDouble .sse 128 (expSseD I)
  | avx (B : CmpBuild) (avx2 : Bool) : ExpDouble B 256 (expAvxD B avx2)

theorem expDouble_lane {B : CmpBuild} {n : Nat} {f : BitVec n → BitVec n} (hf : ExpDouble B n f) (x : BitVec n) {i : Nat}
    (hi : 64 * (i + 1) ≤ n) : ExpLaneD B (lane 64 x i) (lane 64 (f x) i) := by
  cases hf with
  | sse I => exact lane_vExpD .sse (expOps_sseD I) x hi
  | avx B avx2 => exact lane_vExpD B (expOps_avxD avx2) x hi

/-- Every entry of `exp` of a double vector whose argument is finite: the exponential with a relative error of at most
`2 ^ -50` (four units in the last place) if that is between the smallest normal number and `2 ^ 1022`, zero below.

Missing for the full claim: from `2 ^ 1022` on the result is infinity, although the format reaches to `2 ^ 1024`
(`C72_double_overflow_violated`). -/
theorem C72_double_partial {B : CmpBuild} {n : Nat} {f : BitVec n → BitVec n} (hf : ExpDouble B n f) (x : BitVec n) {i : Nat}
    (hi : 64 * (i + 1) ≤ n) (hx : isFinite f64 (lane 64 x i) = true) :
    (2 ^ (-1022 : Int) ≤ Real.exp (rval f64 (lane 64 x i)) → Real.exp (rval f64 (lane 64 x i)) < 2 ^ (1022 : Int) →
      ApproxRel f64 (Real.exp (rval f64 (lane 64 x i))) (1 / 2 ^ 50) (lane 64 (f x) i)) ∧
    (2 ^ (1024 : Int) ≤ Real.exp (rval f64 (lane 64 x i)) → lane 64 (f x) i = 0x7ff0000000000000#64) ∧
    (Real.exp (rval f64 (lane 64 x i)) < 2 ^ (-1022 : Int) → lane 64 (f x) i = 0#64) := by
  have h := expDouble_lane hf x hi
  refine ⟨fun h1 h2 => ?_, fun h1 => expD_large_main h hx (le_trans ?_ h1), fun h1 => expD_small_main h hx h1⟩
  · have := expD_main h hx h1 h2
    exact ⟨this.1, by rw [abs_of_pos (Real.exp_pos _)]; exact this.2⟩
  · exact zpow_le_zpow_right₀ (by norm_num) (by decide)

theorem C72_double_special {B : CmpBuild} {n : Nat} {f : BitVec n → BitVec n} (hf : ExpDouble B n f) (x : BitVec n) {i : Nat}
    (hi : 64 * (i + 1) ≤ n) :
    (isInf f64 (lane 64 x i) = true → fneg f64 (lane 64 x i) = false → lane 64 (f x) i = 0x7ff0000000000000#64) ∧
    (isInf f64 (lane 64 x i) = true → fneg f64 (lane 64 x i) = true → lane 64 (f x) i = 0#64) ∧
    (B ≠ .avx → isNaN f64 (lane 64 x i) = true → isNaN f64 (lane 64 (f x) i) = true) := by
  have h := expDouble_lane hf x hi
  refine ⟨fun h1 h2 => ?_, fun h1 h2 => ?_, fun hB h1 => expD_nan h h1 hB⟩
  · have := expD_inf h h1
    rwa [h2] at this
  · have := expD_inf h h1
    rwa [h2] at this

theorem C72_double_nan_violated (avx2 : Bool) (x : M256) {i : Nat} (hi : i < 4) (hx : isNaN f64 (lane 64 x i) = true) :
    lane 64 (expAvxD .avx avx2 x) i = 0x7ff0000000000000#64 :=
  expD_avx_nan (expDouble_lane (.avx .avx avx2) x (by omega)) hx

example : isFinite f64 (lane 64 (set1 (n := 128) 64 0x3ff0000000000000#64) 1) = true ∧
    2 ^ (-1022 : Int) ≤ Real.exp (rval f64 (lane 64 (set1 (n := 128) 64 0x3ff0000000000000#64) 1)) ∧
    Real.exp (rval f64 (lane 64 (set1 (n := 128) 64 0x3ff0000000000000#64) 1)) < 2 ^ (1022 : Int) := by
  rw [lane_set1 _ (by decide), expD_one.2]
  refine ⟨expD_one.1, ?_, ?_⟩
  · rw [zpow_le_exp]
    have := log2_gt
    push_cast
    norm_num at this ⊢
    linarith
  · rw [exp_lt_zpow]
    have := log2_gt
    push_cast
    norm_num at this ⊢
    linarith

/-- Every finite argument for which the exponential is at least `2 ^ 1022` gives infinity, e.g. 709, though the
exponential is below the largest number of the format (here: below `2 ^ 1023`). -/
theorem C72_double_overflow_violated {B : CmpBuild} {n : Nat} {f : BitVec n → BitVec n} (hf : ExpDouble B n f) {i : Nat}
    (hi : 64 * (i + 1) ≤ n) :
    (∀ x : BitVec n, isFinite f64 (lane 64 x i) = true → 2 ^ (1022 : Int) ≤ Real.exp (rval f64 (lane 64 x i)) →
      lane 64 (f x) i = 0x7ff0000000000000#64) ∧
    ∃ x : BitVec n, isFinite f64 (lane 64 x i) = true ∧ Real.exp (rval f64 (lane 64 x i)) < 2 ^ (1023 : Int) ∧
      lane 64 (f x) i = 0x7ff0000000000000#64 := by
  have key : ∀ x : BitVec n, isFinite f64 (lane 64 x i) = true → 2 ^ (1022 : Int) ≤ Real.exp (rval f64 (lane 64 x i)) →
      lane 64 (f x) i = 0x7ff0000000000000#64 := fun x hx h1 => expD_large_main (expDouble_lane hf x hi) hx h1
  refine ⟨key, set1 64 0x4086280000000000#64, ?_⟩
  have hv : isFinite f64 0x4086280000000000#64 = true ∧ rval f64 0x4086280000000000#64 = 709 := by
    refine ⟨by decide, ?_⟩
    unfold rval
    have : fval f64 0x4086280000000000#64 = 709 * 2 ^ 1074 := by decide +kernel
    have e : oneExp f64 = 1074 := by decide
    rw [this, e]; push_cast
    rw [mul_div_assoc, div_self (by positivity), mul_one]
  have hk := key (set1 64 0x4086280000000000#64)
  rw [lane_set1 _ hi, hv.2] at hk
  rw [lane_set1 _ hi, hv.2]
  have l1 := log2_gt
  have l2 := log2_lt
  refine ⟨hv.1, ?_, hk hv.1 ?_⟩
  · rw [exp_lt_zpow]; push_cast; norm_num at l1 ⊢; linarith
  · rw [zpow_le_exp]; push_cast; norm_num at l2 ⊢; linarith

end Vc.Prop
