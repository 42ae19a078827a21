import Verif.Spec.Ulp
import Mathlib.Analysis.Real.Sqrt

/-!
Square root and reciprocal as IEEE-754 has them; `rval` of a finite number is its value, that of an infinity the number
that would follow the greatest finite one.
-/

namespace Vc.Spec

/-- `r` is the square root of `x`: the number that is nearest to the root. -/
def IsRoot (F : Fmt) {w : Nat} (x r : BitVec w) : Prop :=
  (isNaN F x = true → isNaN F r = true) ∧
  (fmag F x ≠ 0 → fneg F x = true → isNaN F r = true) ∧
  (fmag F x = 0 → r = x) ∧
  (isInf F x = true → fneg F x = false → r = x) ∧
  (isFinite F x = true → 0 < rval F x →
    isFinite F r = true ∧ ∀ y : BitVec w, isFinite F y = true → |rval F r - Real.sqrt (rval F x)| ≤ |rval F y - Real.sqrt (rval F x)|)

/-- `r` is the reciprocal of `x`: the number that is nearest to it, or an infinity if it is too large. -/
def IsReciprocal (F : Fmt) {w : Nat} (x r : BitVec w) : Prop :=
  (isNaN F x = true → isNaN F r = true) ∧
  (fmag F x = 0 → isInf F r = true) ∧
  (isInf F x = true → fmag F r = 0) ∧
  (isNaN F x = false → isNaN F r = false ∧ fneg F r = fneg F x) ∧
  (isFinite F x = true → rval F x ≠ 0 →
    ∀ y : BitVec w, isNaN F y = false → |rval F r - 1 / rval F x| ≤ |rval F y - 1 / rval F x|)

/-- `r` is the reciprocal of the square root of `x`, up to `k` units in the last place. -/
def IsRecipRoot (F : Fmt) {w : Nat} (k : ℝ) (x r : BitVec w) : Prop :=
  (isNaN F x = true → isNaN F r = true) ∧
  (fmag F x ≠ 0 → fneg F x = true → isNaN F r = true) ∧
  (fmag F x = 0 → isInf F r = true ∧ fneg F r = fneg F x) ∧
  (isInf F x = true → fneg F x = false → fmag F r = 0 ∧ fneg F r = false) ∧
  (isFinite F x = true → 0 < rval F x → WithinUlps F k (1 / Real.sqrt (rval F x)) r)

end Vc.Spec
