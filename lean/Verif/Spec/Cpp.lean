import Verif.Model.MixedOp

/-!
The usual arithmetic conversions of C++ and the value of an expression of two integers.
-/

namespace Vc.Spec.Cpp
open Vc.Model

/-- Number of bits. -/
def bits (t : CTy) : Nat := 8 * t.size
/-- The smallest and the largest value of an integer type. -/
def minVal (t : CTy) : Int := if t.isUnsigned then 0 else -(2 ^ (bits t - 1))
def maxVal (t : CTy) : Int := if t = .bool then 1 else if t.isUnsigned then 2 ^ bits t - 1 else 2 ^ (bits t - 1) - 1
/-- `v` is a value of the type. -/
def Fits (t : CTy) (v : Int) : Prop := minVal t ≤ v ∧ v ≤ maxVal t
instance (t : CTy) (v : Int) : Decidable (Fits t v) := inferInstanceAs (Decidable (_ ∧ _))

/-- Conversion rank of integer types [conv.rank]. -/
def rank : CTy → Nat
  | .bool => 0
  | .char | .schar | .uchar => 1
  | .short | .ushort => 2
  | .int | .uint => 3
  | .long | .ulong => 4
  | _ => 5
/-- Integral promotion [conv.prom]: to `int` if it has all the values. -/
def promote (t : CTy) : CTy :=
  if rank t < rank .int then (if minVal .int ≤ minVal t ∧ maxVal t ≤ maxVal .int then .int else .uint) else t
def toUnsigned : CTy → CTy
  | .int => .uint
  | .long => .ulong
  | .llong => .ullong
  | t => t
/-- The usual arithmetic conversions [expr.arith.conv]. -/
def common (t u : CTy) : CTy :=
  if t = .ldouble ∨ u = .ldouble then .ldouble
  else if t = .double ∨ u = .double then .double
  else if t = .float ∨ u = .float then .float
  else
    let t := promote t
    let u := promote u
    if t = u then t
    else if t.isUnsigned = u.isUnsigned then (if rank t < rank u then u else t)
    else
      let s := if t.isUnsigned then u else t
      let n := if t.isUnsigned then t else u
      if rank s ≤ rank n then n
      else if minVal s ≤ minVal n ∧ maxVal n ≤ maxVal s then s
      else toUnsigned s
/-- The type of an operand after the promotion of enumerations: that of their underlying type. -/
def scalTy : Scal → CTy
  | .arith u => u
  | .enum u => u

/-- Conversion of an integer to an integer type: the value of the type that is congruent to it. -/
def Wraps (t : CTy) (v r : Int) : Prop := Fits t r ∧ ∃ k : Int, v = r + k * 2 ^ bits t

end Vc.Spec.Cpp
