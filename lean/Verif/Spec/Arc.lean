import Verif.Spec.Float

/-!
The values C99 (annex F.10.1.4) gives `atan2` where an operand is zero or infinite.
-/

namespace Vc.Spec

/-- Magnitudes of the numbers next to `π`, `π/2`, `π/4` and `3π/4`. -/
structure PiTable where
  pi : Nat
  half : Nat
  quarter : Nat
  three : Nat

/-- The magnitude of `atan2(y, x)`, or nothing where both operands are finite and not zero or one is not a number.  The
sign of the result is that of `y`. -/
def atan2Table (F : Fmt) (T : PiTable) {w : Nat} (y x : BitVec w) : Option Nat :=
  if isNaN F y || isNaN F x then none
  else if fmag F y = 0 then some (if fneg F x then T.pi else 0)
  else if fmag F x = 0 then some T.half
  else if isInf F y then some (if isInf F x then (if fneg F x then T.three else T.quarter) else T.half)
  else if isInf F x then some (if fneg F x then T.pi else 0)
  else none

end Vc.Spec
