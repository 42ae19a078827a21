/-!
Specification vocabulary for the native vectors: the number a lane stands for and the truth value a
mask lane stands for.
-/

namespace Vc.Spec

/-- The number a lane of an integer vector stands for: two's complement for signed entry types. -/
def val {w : Nat} (sgn : Bool) (a : BitVec w) : Int := if sgn then a.toInt else (a.toNat : Int)

/-- A mask lane that stands for the truth value `b`: all bits set or all bits clear. -/
def boolLane (w : Nat) (b : Bool) : BitVec w := if b then BitVec.allOnes w else 0#w

/-- `static_cast` of an integer to a 16 bit type: the number modulo `2 ^ 16`, in the range of the type. -/
def cast16 (sgn : Bool) (a : Int) : Int :=
  if sgn then (a + 32768) % 65536 - 32768 else a % 65536

end Vc.Spec
