import Verif.Spec.Float

/-!
The classes of floating-point numbers by value. In units of the smallest positive number the smallest normal
number is `2 ^ m`.
-/

namespace Vc.Spec

inductive FpClass where
  | nan | infinite | zero | subnormal | normal

/-- The number `x` belongs to the class. -/
def InClass (F : Fmt) {w : Nat} (x : BitVec w) : FpClass → Prop
  | .nan => isNaN F x = true
  | .infinite => isInf F x = true
  | .zero => isFinite F x = true ∧ fval F x = 0
  | .subnormal => isFinite F x = true ∧ 0 < (fval F x).natAbs ∧ (fval F x).natAbs < 2 ^ F.m
  | .normal => isFinite F x = true ∧ 2 ^ F.m ≤ (fval F x).natAbs

end Vc.Spec
