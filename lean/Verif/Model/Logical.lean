import Verif.Model.AvxMask
import Verif.Model.AvxInt
import Verif.Model.AvxDiv
import Verif.Model.FloatOps
import Verif.Model.Exp

/-!
`!v`, `v && w`, `v || w`, `~v`, `++v`, `--v`, `v++` and `v--`.

The operators `&&` and `||` are written once, in terms of `operator!` of the vector, `operator!` of its
mask and the mask constructor from `bool`; `LogicOps` collects these three for a vector type.
-/

namespace Vc.Model

open Vc.Spec

/-- The operations `Vc_LOGICAL_OPERATOR` calls. -/
structure LogicOps (n : Nat) where
  /-- `Vector::operator!`. -/
  vecNot : BitVec n → BitVec n
  /-- `Mask::operator!`. -/
  maskNot : BitVec n → BitVec n
  /-- `Mask(bool)`. -/
  init : Bool → BitVec n

/-- `Mask(bool)` (/repo/Vc/sse/mask.h:121). -/
def smInit (b : Bool) : M128 := if b then BitVec.allOnes 128 else 0#128

/-- `Mask::operator!` (/repo/Vc/sse/mask.h:162-169); `gcc`: the operator of the compiler's vector types. -/
def smNot (gcc : Bool) (k : M128) : M128 := if gcc then ~~~k else andnot k (BitVec.allOnes 128)

/-- SSE integer vectors: `operator!` is `*this == Zero()` (/repo/Vc/sse/vector.h:291-294). -/
def sseIntLogic (gcc : Bool) (w : Nat) : LogicOps 128 := ⟨fun x => vEq w x 0#128, smNot gcc, smInit⟩

/-- AVX integer vectors (/repo/Vc/avx/vector.h:351-354). -/
def avxIntLogic (gcc avx2 : Bool) (w : Nat) : LogicOps 256 := ⟨fun x => aEq avx2 w x 0#256, amNot gcc, amInit⟩

/-- SSE::float_v and SSE::double_v (/repo/Vc/sse/vector.h:291-294). -/
def sseFloatLogic (gcc : Bool) (F : Fmt) (w : Nat) : LogicOps 128 := ⟨fun x => vFEq F w x 0#128, smNot gcc, smInit⟩

/-- AVX::float_v and AVX::double_v (/repo/Vc/avx/vector.h:351-354). -/
def avxFloatLogic (gcc : Bool) (F : Fmt) (w : Nat) : LogicOps 256 := ⟨fun x => vFEq F w x 0#256, amNot gcc, amInit⟩

/-- `!!x` (/repo/Vc/common/operators.h:198). -/
def LogicOps.toMask {n : Nat} (o : LogicOps n) (x : BitVec n) : BitVec n := o.maskNot (o.vecNot x)

/-- `x && y`, `x || y` of two vectors (/repo/Vc/common/operators.h:193-209), with `operator&&` and
`operator||` of the masks (/repo/Vc/sse/mask.h:179-180, /repo/Vc/avx/mask.h:168-169).  The second overload,
for two vector types, has the same body; its masks have the same representation. -/
def LogicOps.and {n : Nat} (o : LogicOps n) (x y : BitVec n) : BitVec n := o.toMask x &&& o.toMask y
def LogicOps.or {n : Nat} (o : LogicOps n) (x y : BitVec n) : BitVec n := o.toMask x ||| o.toMask y

/-- A scalar operand. -/
inductive ScalarArg where
  | bool (b : Bool)
  | int {k : Nat} (y : BitVec k)
  | float (F : Fmt) {k : Nat} (y : BitVec k)

/-- `!y` of a scalar, converted to `bool`. -/
def ScalarArg.not : ScalarArg → Bool
  | .bool b => !b
  | .int y => y == 0
  | .float F y => fEq F y 0

/-- `x && y`, `x || y` of a vector and a scalar (/repo/Vc/common/operators.h:210-217). -/
def LogicOps.andScalar {n : Nat} (o : LogicOps n) (x : BitVec n) (y : ScalarArg) : BitVec n :=
  o.toMask x &&& o.init (!y.not)
def LogicOps.orScalar {n : Nat} (o : LogicOps n) (x : BitVec n) (y : ScalarArg) : BitVec n :=
  o.toMask x ||| o.init (!y.not)

/-- `x && y`, `x || y` of a scalar and a vector (/repo/Vc/common/operators.h:218-225). -/
def LogicOps.scalarAnd {n : Nat} (o : LogicOps n) (x : ScalarArg) (y : BitVec n) : BitVec n :=
  o.init (!x.not) &&& o.toMask y
def LogicOps.scalarOr {n : Nat} (o : LogicOps n) (x : ScalarArg) (y : BitVec n) : BitVec n :=
  o.init (!x.not) ||| o.toMask y

/-- Scalar::Vector: `Mask(!m_data)` (/repo/Vc/scalar/vector.h:177-180) with the operators of
Scalar::Mask (/repo/Vc/scalar/mask.h:111-116), in the same generic operators. -/
def scalarAnd (x y : ScalarArg) : Bool := !x.not && !y.not
def scalarOr (x y : ScalarArg) : Bool := !x.not || !y.not

/-- `operator~`: `andnot_(data(), allone)` (/repo/Vc/sse/vector.h:295-302, /repo/Vc/avx/vector.h:355-362). -/
def vCompl {n : Nat} (x : BitVec n) : BitVec n := andnot x (BitVec.allOnes n)

/-- What an increment or decrement leaves in the vector and what the expression returns. -/
structure Step (α : Type) where
  stored : α
  returned : α

/-- `++v`, `--v`, `v++`, `v--` of the native vectors for a given `add` or `sub` and the vector `one`
(/repo/Vc/sse/vector.h:252-257, /repo/Vc/avx/vector.h:311-316). -/
def prefixStep {n : Nat} (op : BitVec n → BitVec n → BitVec n) (one x : BitVec n) : Step (BitVec n) :=
  let data := op x one
  ⟨data, data⟩
def postfixStep {n : Nat} (op : BitVec n → BitVec n → BitVec n) (one x : BitVec n) : Step (BitVec n) :=
  let r := x
  ⟨op x one, r⟩

/-- `c_general::one16`, `c_general::one32` of SSE, all elements from the table
(/repo/Vc/sse/intrinsics.h:81-84, /repo/src/const.cpp:281-282). -/
def sseOne (w : Nat) : M128 := set1 w 1#w

/-- AVX: `one16` is a pair of shorts broadcast as one float, `setone_epi32` broadcasts element 1 of
`_IndexesFromZero32` (/repo/Vc/avx/intrinsics.h:113-116, /repo/src/const.cpp:47,171). -/
def avxOne (w : Nat) : M256 := if w = 16 then set1 32 (1#16 ++ 1#16) else set1 w 1#w

/-- `++` and `--` of Scalar::Vector on an integer entry type of `w` bits
(/repo/Vc/scalar/vector.h:130-137).  Types narrower than `int` are computed in `int` and converted back;
signed overflow of wider types is undefined (`none`). -/
def scalarStep (sgn : Bool) {w : Nat} (d : Int) (x : BitVec w) : Option (BitVec w) :=
  let r := (if sgn then x.toInt else (x.toNat : Int)) + d
  if sgn ∧ 32 ≤ w ∧ (r < -(2 ^ (w - 1) : Int) ∨ (2 ^ (w - 1) : Int) ≤ r) then none else some (BitVec.ofInt w r)

end Vc.Model
