import Verif.Spec.FloatInt
import Verif.Spec.Lane

/-!
Conversions between floating-point numbers and integers, and rounding to a floating-point format.
-/

namespace Vc.Spec

/-- The range of an integer type with `v` bits. -/
def InRange (sgn : Bool) (v : Nat) (n : Int) : Prop :=
  if sgn then -2 ^ (v - 1) ≤ n ∧ n < 2 ^ (v - 1) else 0 ≤ n ∧ n < 2 ^ v

/-- `r` is `x` converted to an integer type: the number without its fractional part, whenever that is in
the range of the type (the C++ standard leaves everything else undefined). -/
def ConvertsToInt (F : Fmt) (sgn : Bool) {w v : Nat} (x : BitVec w) (r : BitVec v) : Prop :=
  isFinite F x = true → ∀ n, IsTrunc (fval F x) (2 ^ oneExp F) n → InRange sgn v n → val sgn r = n

/-- `r` is the number of the format nearest to `num / den` (in units of the smallest number), if two are
equally near the one with even mantissa.  Overflow is included: infinity takes part as the number that
would follow the greatest finite one, as IEEE-754 prescribes. -/
def NearestTo (F : Fmt) (num : Int) (den : Nat) {w : Nat} (r : BitVec w) : Prop :=
  isNaN F r = false ∧ ∀ y : BitVec w, isNaN F y = false →
    (fval F r * den - num).natAbs ≤ (fval F y * den - num).natAbs ∧
    ((fval F r * den - num).natAbs = (fval F y * den - num).natAbs → fval F y = fval F r ∨ fmag F r % 2 = 0)

/-- `r` is the integer `n` rounded to the format. -/
def RoundedInt (F : Fmt) (n : Int) {w : Nat} (r : BitVec w) : Prop := NearestTo F (n * 2 ^ oneExp F) 1 r

/-- `r` is exactly the integer `n`. -/
def ExactInt (F : Fmt) (n : Int) {w : Nat} (r : BitVec w) : Prop :=
  isFinite F r = true ∧ fval F r = n * 2 ^ oneExp F

/-- `r` is `x` in the other format: the nearest number, with the same sign, infinities and NaN stay what they
are. -/
def Reformatted (F G : Fmt) {w v : Nat} (x : BitVec w) (r : BitVec v) : Prop :=
  fneg G r = fneg F x ∧ isNaN G r = isNaN F x ∧ (isInf F x = true → isInf G r = true) ∧
  (isFinite F x = true → NearestTo G (fval F x * 2 ^ oneExp G) (2 ^ oneExp F) r)

end Vc.Spec
