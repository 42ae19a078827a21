import Verif.Spec.Lane

/-!
Shifts as arithmetic on the numbers the entries stand for.
-/

namespace Vc.Spec

/-- `r` is `x * 2 ^ c` as a number of `w` bits: modulo `2 ^ w`. -/
def ShlOf (sgn : Bool) {w : Nat} (x : BitVec w) (c : Nat) (r : BitVec w) : Prop :=
  (val sgn r - val sgn x * 2 ^ c) % 2 ^ w = 0

/-- `r` is `x / 2 ^ c` rounded towards minus infinity. -/
def ShrOf (sgn : Bool) {w : Nat} (x : BitVec w) (c : Nat) (r : BitVec w) : Prop :=
  val sgn r * 2 ^ c ≤ val sgn x ∧ val sgn x < (val sgn r + 1) * 2 ^ c

end Vc.Spec
