/-!
# Sets of bits
-/

namespace Vc.Spec

/-- The positions below `k` of the set bits of `x`, ascending. -/
def setBits (k x : Nat) : List Nat := (List.range k).filter (fun i => x.testBit i)

/-- The number of set bits below position `k`. -/
def countBits (k x : Nat) : Nat := (List.range k).countP (fun i => x.testBit i)

end Vc.Spec
