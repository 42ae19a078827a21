/-!
Specification of the C++ conversion between integer types.
-/

namespace Vc.Spec

/-- The number a `w` bit integer type (`sgn`: signed) gets when `z` is converted to it: congruent modulo
`2 ^ w`, in the range of the type. -/
def castInt (w : Nat) (sgn : Bool) (z : Int) : Int :=
  if sgn then (z + 2 ^ (w - 1)) % 2 ^ w - 2 ^ (w - 1) else z % 2 ^ w

end Vc.Spec
