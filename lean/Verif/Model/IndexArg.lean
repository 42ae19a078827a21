import Verif.Model.MixedOp

/-!
Index arguments of gathers and scatters: which are accepted, and the offsets that are used.
`/repo/Vc/common/detail.h`, `/repo/Vc/common/gatherinterface.h`, `/repo/Vc/common/scatterinterface.h`, `/repo/Vc/common/subscript.h`.

Simplifications: an argument is its kind, the type of its indexes and their values.  The loads that convert arrays are taken
to exist for all integer types.  The functions with a mask have the same checks and conversions and are not repeated.  Scales and
nested subscripts are in `Verif/Model/Subscript.lean`.
-/

namespace Vc.Model

/-- Kinds of index arguments.  `other`: any other class with a subscript operator, which returns an lvalue reference or not. -/
inductive IdxKind
  | simd | stdArray | vcArray | cArray | pointer | stdVector | initList | other (lvalueRef : Bool)
  deriving DecidableEq, Repr

/-- An index argument.  Its number of indexes is part of the type for `simd`, `stdArray`, `vcArray` and `cArray`; for a pointer
it is the number of indexes that may be read. -/
structure IdxArg where
  kind : IdxKind
  ty : CTy
  vals : List Int
  deriving DecidableEq, Repr

/-- `promoted_type`, /repo/Vc/common/detail.h:61-62: the type of `T + 1`. -/
def promotedTy (t : CTy) : CTy := if t.isIntegral && t.size < 4 then .int else t

/-- Conversion of all indexes to another type. -/
def convIdx (k : IdxKind) (t : CTy) (a : IdxArg) : IdxArg := ⟨k, t, a.vals.map fun v => (CInt.conv t v).val⟩

/-- `convertIndexVector`, /repo/Vc/common/detail.h:39-129; `none` if no overload fits (or the one that fits is deleted), or if
there is no `SimdArray` of the promoted type (/repo/Vc/common/simdarray.h:118-123, 618-623). -/
def convertIndex (a : IdxArg) : Option IdxArg :=
  match a.kind with
  | .simd => if 4 ≤ a.ty.size then some a else some (convIdx .simd .int a)
  | .stdArray | .vcArray | .cArray =>
    if a.ty.isIntegral && validVec (promotedTy a.ty) then some (convIdx .simd (promotedTy a.ty) a) else none
  | .pointer => none
  | .initList => some (convIdx .stdVector (promotedTy a.ty) a)
  | .stdVector =>
    if !a.ty.isIntegral then none
    else if 4 ≤ a.ty.size then some a else some (convIdx .stdVector (promotedTy a.ty) a)
  | .other lvalueRef => if lvalueRef then none else some a

/-- `Traits::has_subscript_operator`, /repo/Vc/traits/has_subscript_operator.h. -/
def hasSubscript (k : IdxKind) : Bool := k != .initList

/-- `std::is_array`. -/
def isArray (k : IdxKind) : Bool := k == .cArray

/-- `Vc_ASSERT_GATHER_PARAMETER_TYPES_` and `Vc_ASSERT_SCATTER_PARAMETER_TYPES_`, /repo/Vc/common/gatherinterface.h:67-85,
/repo/Vc/common/scatterinterface.h:61-79, for a vector of `size` entries.  The last condition asks whether `T`, the entry type
of the vector, is an array, not whether `IT` is; entry types are arithmetic. -/
def paramTypes (size : Nat) (a : IdxArg) : Bool :=
  let entryIsArray := false
  hasSubscript a.kind && (a.kind != .simd || decide (size ≤ a.vals.length)) && (!entryIsArray || decide (size ≤ a.vals.length))

/-- What a program with a gather or scatter does: it is rejected by the compiler, it reads indexes that do not exist, or it
uses these offsets. -/
inductive IdxUse
  | reject
  | undefined
  | offsets (l : List Int)
  deriving DecidableEq, Repr

/-- Reading the indexes `0` to `size - 1`. -/
def readIdx (size : Nat) (a : IdxArg) : IdxUse := if size ≤ a.vals.length then .offsets (a.vals.take size) else .undefined

/-- Gather constructor and `gather(mem, indexes)`, /repo/Vc/common/gatherinterface.h:139-147, 175-183. -/
def gatherIdx (size : Nat) (a : IdxArg) : IdxUse :=
  if paramTypes size a then
    match convertIndex a with
    | some b => readIdx size b
    | none => .reject
  else .reject

/-- `scatter(mem, indexes)`, /repo/Vc/common/scatterinterface.h:94-102: no conversion. -/
def scatterIdx (size : Nat) (a : IdxArg) : IdxUse := if paramTypes size a then readIdx size a else .reject

/-- `IndexVectorSizeMatches`, /repo/Vc/common/subscript.h:194-237. -/
def sizeMatches (minSize : Nat) (a : IdxArg) : Bool :=
  match a.kind with
  | .simd | .cArray | .stdArray | .vcArray => decide (minSize ≤ a.vals.length)
  | _ => true

/-- `V x = container[indexes]`, /repo/Vc/common/subscript.h:239-241, 289-315, 458-515: the index argument must be valid and
match in size; the gather from `gatherArguments` is checked again with the converted indexes
(/repo/Vc/common/gatherinterface.h:149-154). -/
def subscriptGatherIdx (size : Nat) (a : IdxArg) : IdxUse :=
  match convertIndex a with
  | none => .reject
  | some b => if sizeMatches size a && paramTypes size b then readIdx size b else .reject

/-- `container[indexes] = v`, /repo/Vc/common/subscript.h:317-327. -/
def subscriptScatterIdx (size : Nat) (a : IdxArg) : IdxUse :=
  match convertIndex a with
  | none => .reject
  | some b => if sizeMatches size a then scatterIdx size b else .reject

end Vc.Model
