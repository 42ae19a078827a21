import Verif.Spec.Lane

/-!
The binary operators of C++ on integers, lane by lane.
-/

namespace Vc.Spec

/-- The operators; the right operand of the last two is an `int` that is the same for all lanes. -/
inductive IntOp where
  | add | sub | mul | div | mod | and | or | xor | shl | shr
  | shlBy (k : Nat) | shrBy (k : Nat)
  deriving DecidableEq

/-- The operands for which the operation on the entry type is defined.  Entries of 16 bits are promoted to
`int`; the wrap-around of signed sums and products is not regarded as undefined here. -/
def IntOp.Defined (op : IntOp) (sgn : Bool) {w : Nat} (a b : BitVec w) : Prop :=
  match op with
  | .div | .mod => val sgn b ≠ 0 ∧ ¬(sgn = true ∧ w = 32 ∧ val sgn a = -2147483648 ∧ val sgn b = -1)
  | .shl | .shr => 0 ≤ val sgn b ∧ val sgn b < 32
  | .shlBy k | .shrBy k => k < 32
  | _ => True

instance (op : IntOp) (sgn : Bool) {w : Nat} (a b : BitVec w) : Decidable (op.Defined sgn a b) := by
  cases op <;> unfold IntOp.Defined <;> infer_instance

/-- The result, reduced to the range of the entry type. -/
def IntOp.value (op : IntOp) (sgn : Bool) {w : Nat} (a b : BitVec w) : BitVec w :=
  let x := val sgn a
  let y := val sgn b
  match op with
  | .add => BitVec.ofInt w (x + y)
  | .sub => BitVec.ofInt w (x - y)
  | .mul => BitVec.ofInt w (x * y)
  | .div => BitVec.ofInt w (x.tdiv y)
  | .mod => BitVec.ofInt w (x.tmod y)
  | .and => a &&& b
  | .or => a ||| b
  | .xor => a ^^^ b
  | .shl => BitVec.ofInt w (x * 2 ^ y.toNat)
  | .shr => BitVec.ofInt w (x / 2 ^ y.toNat)
  | .shlBy k => BitVec.ofInt w (x * 2 ^ k)
  | .shrBy k => BitVec.ofInt w (x / 2 ^ k)

end Vc.Spec
