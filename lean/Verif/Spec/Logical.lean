import Verif.Spec.Lane
import Verif.Spec.Float
import Verif.Spec.Mask
import Verif.Spec.FloatCvt

/-!
The C++ meaning of a number used as a condition, and of adding and subtracting one.
-/

namespace Vc.Spec

/-- An integer is true unless it is zero. -/
def intTrue (sgn : Bool) {w : Nat} (x : BitVec w) : Bool := decide (val sgn x ≠ 0)

/-- A floating-point number is true unless it is zero, of either sign; a NaN is true. -/
def floatTrue (F : Fmt) {w : Nat} (x : BitVec w) : Bool := decide (fnum F x ≠ some 0)

/-- The number one more (`d = 1`) or less (`d = -1`): if it is in range, exactly; modulo `2 ^ w` anyway. -/
def StepInt (sgn : Bool) (d : Int) {w : Nat} (x r : BitVec w) : Prop :=
  ((val sgn r - (val sgn x + d)) % 2 ^ w = 0) ∧
  ((if sgn then -(2 ^ (w - 1) : Int) ≤ val sgn x + d ∧ val sgn x + d < 2 ^ (w - 1)
    else 0 ≤ val sgn x + d ∧ val sgn x + d < 2 ^ w) → val sgn r = val sgn x + d)

/-- The sum of a finite number and `d = ±1` rounded to nearest; infinities and NaNs stay. -/
def StepFloat (F : Fmt) (d : Int) {w : Nat} (x r : BitVec w) : Prop :=
  (isFinite F x = true → NearestTo F (fval F x + d * 2 ^ oneExp F) 1 r) ∧
  (isInf F x = true → r = x) ∧ (isNaN F x = true → isNaN F r = true)

end Vc.Spec
