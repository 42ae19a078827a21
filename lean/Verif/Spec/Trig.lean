/-!
Signs of the entries of a vector.
-/

namespace Vc.Spec

/-- Only sign bits are set: `x ^^^ g` is `x` with the signs of some entries of `w` bits changed. -/
def SignPattern (w : Nat) {n : Nat} (g : BitVec n) : Prop := ∀ j, j < n → (j + 1) % w ≠ 0 → g.getLsbD j = false

end Vc.Spec
