import Verif.Spec.Float
import Mathlib.Data.Real.Basic

/-!
The real number a floating-point pattern stands for.
-/

namespace Vc.Spec

/-- The value of a finite number: `fval` counts units of the smallest positive number. -/
noncomputable def rval (F : Fmt) {w : Nat} (x : BitVec w) : ℝ := (fval F x : ℝ) / 2 ^ oneExp F

/-- A finite number that differs from `v` by at most `ε` times `v`. -/
def ApproxRel (F : Fmt) {w : Nat} (v ε : ℝ) (r : BitVec w) : Prop := isFinite F r = true ∧ |rval F r - v| ≤ ε * |v|

/-- A finite number that differs from `v` by at most `ε`. -/
def ApproxAbs (F : Fmt) {w : Nat} (v ε : ℝ) (r : BitVec w) : Prop := isFinite F r = true ∧ |rval F r - v| ≤ ε

end Vc.Spec
