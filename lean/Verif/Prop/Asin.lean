import Verif.Lemma.AsinSpecial
import Verif.Prop.Arc
import Verif.Lemma.AtanD
import Verif.Lemma.AtanSerF

/-!
C80: special values and symmetry of `asin`.
-/

namespace Vc.Prop
open Vc.Model Vc.Spec Vc.Lemma

theorem asinF_one (B : CmpBuild) : asinF (sArc B f32 32) (fSqrt f32) 0x3f800000#32 = 0x3fc90fdb#32 := by
  cases B <;> decide +kernel

theorem asinD_one (B : CmpBuild) : asinD (sArc B f64 64) (fSqrt f64) 0x3ff0000000000000#64 = 0x3ff921fb54442d18#64 := by
  cases B <;> decide +kernel

/-- Float: the arcus sinus of a NaN and of a number outside [-1, 1], an infinity included, is a NaN; that of a number closer
to zero than 0.0001 is the number itself; that of one is the number next to `π/2`; and changing the sign of a number in
[-1, 1] changes the sign of the result and nothing else.  Missing: the arcus sinus of minus zero, see
`C80_float_violated`. -/
theorem C80_float_partial {n : Nat} {E : ArcEnv n} (h : ArcVF n E) {i : Nat} (hi : 32 * (i + 1) ≤ n) (x : BitVec n) :
  (isNaN f32 (lane 32 x i) = true → isNaN f32 (lane 32 (asinF (vArc E f32 32) (vSqrt f32 32) x) i) = true) ∧
    (fmag f32 0x3f800000#32 < fmag f32 (lane 32 x i) → isNaN f32 (lane 32 (asinF (vArc E f32 32) (vSqrt f32 32) x) i) = true) ∧
    (fmag f32 (lane 32 x i) < fmag f32 0x38d1b717#32 → (fmag f32 (lane 32 x i) ≠ 0 ∨ fneg f32 (lane 32 x i) = false) → lane 32 (asinF (vArc E f32 32) (vSqrt f32 32) x) i = lane 32 x i) ∧
    (lane 32 x i = 0x3f800000#32 → lane 32 (asinF (vArc E f32 32) (vSqrt f32 32) x) i = 0x3fc90fdb#32) ∧
    (fmag f32 (lane 32 x i) ≤ fmag f32 0x3f800000#32 → fmag f32 (lane 32 x i) ≠ 0 → ∀ y : BitVec n,
      lane 32 y i = lane 32 x i ^^^ BitVec.ofNat 32 (2 ^ (32 - 1)) →
      lane 32 (asinF (vArc E f32 32) (vSqrt f32 32) y) i =
        lane 32 (asinF (vArc E f32 32) (vSqrt f32 32) x) i ^^^ BitVec.ofNat 32 (2 ^ (32 - 1))) := by
  have ok := h.ok
  rw [asinF_lane ok hi (v := x) rfl]
  refine ⟨fun hx => asinF_nan _ hx, fun hx => asinF_out _ hx, fun hx h0 => asinF_small _ hx h0, fun hx => ?_, fun hx h0 y hy => ?_⟩
  · rw [hx]; exact asinF_one _
  · have := asinF_odd E.B hx h0
    rw [sgn_def] at this
    rw [asinF_lane ok hi (v := y) rfl, hy, this]

/-- C99 wants `asin(-0)` to be `-0`; on all vector types of float the result is `+0`. -/
theorem C80_float_violated : ∃ x : BitVec 32, fneg f32 x = true ∧ fmag f32 x = 0 ∧ ∀ {n : Nat} {E : ArcEnv n}, ArcVF n E →
    ∀ (v : BitVec n) (i : Nat), 32 * (i + 1) ≤ n → lane 32 v i = x →
      lane 32 (asinF (vArc E f32 32) (vSqrt f32 32) v) i = 0#32 := by
  refine ⟨BitVec.ofNat 32 (2 ^ (32 - 1)), by decide +kernel, by decide +kernel, fun {n E} h v i hi e => ?_⟩
  rw [asinF_lane h.ok hi (v := v) rfl, e]
  generalize E.B = B
  cases B <;> decide +kernel

/-- Double: the arcus sinus of a NaN and of a number outside [-1, 1], an infinity included, is a NaN; that of a number closer
to zero than 10⁻⁸, a zero of either sign included, is the number itself; that of one is the number next to `π/2`; and
changing the sign of a number in [-1, 1] changes the sign of the result and nothing else. -/
theorem C80_double {n : Nat} {E : ArcEnv n} (h : ArcVD n E) {i : Nat} (hi : 64 * (i + 1) ≤ n) (x : BitVec n) :
  (isNaN f64 (lane 64 x i) = true → isNaN f64 (lane 64 (asinD (vArc E f64 64) (vSqrt f64 64) x) i) = true) ∧
    (fmag f64 0x3ff0000000000000#64 < fmag f64 (lane 64 x i) → isNaN f64 (lane 64 (asinD (vArc E f64 64) (vSqrt f64 64) x) i) = true) ∧
    (fmag f64 (lane 64 x i) < fmag f64 0x3e45798ee2308c3a#64 → lane 64 (asinD (vArc E f64 64) (vSqrt f64 64) x) i = lane 64 x i) ∧
    (lane 64 x i = 0x3ff0000000000000#64 → lane 64 (asinD (vArc E f64 64) (vSqrt f64 64) x) i = 0x3ff921fb54442d18#64) ∧
    (fmag f64 (lane 64 x i) ≤ fmag f64 0x3ff0000000000000#64 → ∀ y : BitVec n,
      lane 64 y i = lane 64 x i ^^^ BitVec.ofNat 64 (2 ^ (64 - 1)) →
      lane 64 (asinD (vArc E f64 64) (vSqrt f64 64) y) i =
        lane 64 (asinD (vArc E f64 64) (vSqrt f64 64) x) i ^^^ BitVec.ofNat 64 (2 ^ (64 - 1))) := by
  have ok := h.ok
  rw [asinD_lane ok hi (v := x) rfl]
  refine ⟨fun hx => asinD_nan _ hx, fun hx => asinD_out _ hx, fun hx => asinD_small _ hx, fun hx => ?_, fun hx y hy => ?_⟩
  · rw [hx]; exact asinD_one _
  · have := asinD_odd E.B hx
    rw [sgn_def] at this
    rw [asinD_lane ok hi (v := y) rfl, hy, this]

theorem asF_lit : isFinite f32 0x38d1b717#32 = true ∧ rval f32 0x38d1b717#32 = 13743895 / 137438953472 := by
  refine ⟨by decide, rval_lit false 113 5355287 (-37) (by decide) (by decide) (by decide) (by decide) (by decide) ?_⟩
  norm_num [f32]

theorem asD_lit : isFinite f64 0x3e45798ee2308c3a#64 = true ∧ rval f64 0x3e45798ee2308c3a#64 = 3022314549036573 / 302231454903657293676544 := by
  refine ⟨by decide, rval_lit false 996 1541029470702650 (-79) (by decide) (by decide) (by decide) (by decide) (by decide) ?_⟩
  norm_num [f64]

theorem asF_hpi : isFinite f32 0x3fc90fdb#32 = true ∧ rval f32 0x3fc90fdb#32 = 13176795 / 8388608 := by
  refine ⟨by decide, rval_lit false 127 4788187 (-23) (by decide) (by decide) (by decide) (by decide) (by decide) ?_⟩
  norm_num [f32]

theorem asD_hpi : isFinite f64 0x3ff921fb54442d18#64 = true ∧ rval f64 0x3ff921fb54442d18#64 = 884279719003555 / 562949953421312 := by
  refine ⟨by decide, rval_lit false 1023 2570638124657944 (-52) (by decide) (by decide) (by decide) (by decide) (by decide) ?_⟩
  norm_num [f64]

/-- The constants of the statements: one, 0.0001 and 10⁻⁸ to within a millionth, and the numbers next to `π/2`. -/
theorem C80_constants :
    rval f32 0x3f800000#32 = 1 ∧ rval f64 0x3ff0000000000000#64 = 1 ∧
    |rval f32 0x38d1b717#32 - 1 / 10 ^ 4| ≤ 1 / 10 ^ 10 ∧ |rval f64 0x3e45798ee2308c3a#64 - 1 / 10 ^ 8| ≤ 1 / 10 ^ 14 ∧
    WithinUlps f32 (1 / 2) (Real.pi / 2) 0x3fc90fdb#32 ∧ WithinUlps f64 (1 / 2) (Real.pi / 2) 0x3ff921fb54442d18#64 := by
  have := pi_gt_d50
  have := pi_lt_d50
  refine ⟨atF_one.2, atD_one.2, ?_, ?_, ?_, ?_⟩
  · rw [asF_lit.2, abs_le]; constructor <;> norm_num
  · rw [asD_lit.2, abs_le]; constructor <;> norm_num
  · have : |Real.pi / 2| = Real.pi / 2 := abs_of_pos (by linarith)
    refine within_of_pow (j := 0) asF_hpi.1 (by norm_num) (by rw [this]; norm_num; linarith) ?_
    rw [asF_hpi.2, abs_le]; constructor <;> norm_num [f32] <;> linarith
  · have : |Real.pi / 2| = Real.pi / 2 := abs_of_pos (by linarith)
    refine within_of_pow (j := 0) asD_hpi.1 (by norm_num) (by rw [this]; norm_num; linarith) ?_
    rw [asD_hpi.2, abs_le]; constructor <;> norm_num [f64] <;> linarith

/-- Arguments of every kind: a NaN, an infinity, two, one, a small number and -1/2. -/
example : isNaN f32 0x7fc00000#32 = true ∧ fmag f32 0x3f800000#32 < fmag f32 0xff800000#32 ∧
    fmag f32 0x3f800000#32 < fmag f32 0x40000000#32 ∧ fmag f32 0x00000001#32 < fmag f32 0x38d1b717#32 ∧
    fmag f32 0xbf000000#32 ≤ fmag f32 0x3f800000#32 ∧ fmag f32 0xbf000000#32 ≠ 0 ∧
    asinF (sArc .sse f32 32) (fSqrt f32) 0xbf000000#32 = 0xbf060a92#32 := by decide +kernel

example : isNaN f64 0x7ff8000000000000#64 = true ∧ fmag f64 0x3ff0000000000000#64 < fmag f64 0xfff0000000000000#64 ∧
    fmag f64 0x8000000000000000#64 < fmag f64 0x3e45798ee2308c3a#64 ∧
    fmag f64 0xbfe0000000000000#64 ≤ fmag f64 0x3ff0000000000000#64 ∧
    asinD (sArc .avx f64 64) (fSqrt f64) 0xbfe0000000000000#64 = 0xbfe0c152382d7366#64 := by decide +kernel
example : ArcVF 256 (arcAvxF .avxGcc) ∧ ArcVD 128 (arcSseD sse2) := ⟨.avx _, .sse _⟩

end Vc.Prop
