import Verif.Model.Limits
import Verif.Spec.Cpp

/-!
What the functions of `numeric_limits` mean, for integers and for the binary formats of IEEE 754.
-/

namespace Vc.Spec
open Vc.Model Vc.Spec.Cpp

/-- The integer that a pattern of `w` bits stands for. -/
def patVal (sgn : Bool) (w p : Nat) : Int := if sgn && decide (2 ^ (w - 1) ≤ p) then (p : Int) - 2 ^ w else p

/-- Integers of `w` bits: `max` is the largest number, `min` and `lowest` are the least, all else is zero. -/
def IsIntLimit (sgn : Bool) (w : Nat) (f : LimFn) (p : Nat) : Prop :=
  p < 2 ^ w ∧
  match f with
  | .max => ∀ q < 2 ^ w, patVal sgn w q ≤ patVal sgn w p
  | .min | .lowest => ∀ q < 2 ^ w, patVal sgn w p ≤ patVal sgn w q
  | _ => p = 0

/-- Binary floating-point numbers with `e` bits of exponent and `m` of mantissa.  Positive numbers are ordered as their
patterns; infinity is the first pattern with the largest exponent, NaNs are above it. -/
def IsFloatLimit (e m : Nat) (f : LimFn) (p : Nat) : Prop :=
  let inf := (2 ^ e - 1) * 2 ^ m
  let bias := 2 ^ (e - 1) - 1
  match f with
  | .max => p + 1 = inf
  | .min => p = 1 * 2 ^ m
  | .lowest => ∃ q, p = 2 ^ (e + m) + q ∧ q + 1 = inf
  -- the distance from 1 (exponent `bias`) to the next number
  | .epsilon => p = (bias - m) * 2 ^ m
  -- 1/2
  | .roundError => p = (bias - 1) * 2 ^ m
  | .infinity => p = inf
  | .quietNaN => inf < p ∧ p < 2 ^ (e + m) ∧ p.testBit (m - 1) = true
  | .signalingNaN => inf < p ∧ p < 2 ^ (e + m) ∧ p.testBit (m - 1) = false
  | .denormMin => p = 1

/-- The limit of an entry type. -/
def IsLimit : CTy → LimFn → Nat → Prop
  | .float => IsFloatLimit 8 23
  | .double => IsFloatLimit 11 52
  | t => IsIntLimit (!t.isUnsigned) (bits t)

/-- The entry type of a vector. -/
def LimHasType : LimVec → CTy → Prop
  | .sseInt sgn w, t | .avxInt sgn w, t =>
    (t = .int ∨ t = .uint ∨ t = .short ∨ t = .ushort) ∧ sgn = !t.isUnsigned ∧ w = bits t
  | .native t' _, t | .simdArray t', t | .fixedSize t', t => validVec t = true ∧ t' = t
/-- `i` is the number of an entry. -/
def LimEntry : LimVec → Nat → Prop
  | .sseInt _ w, i => w * (i + 1) ≤ 128
  | .avxInt _ w, i => w * (i + 1) ≤ 256
  | _, _ => True

end Vc.Spec
