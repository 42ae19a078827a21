/-!
# The type transformation of simdize (independent of the model)

Types: the vectorizable arithmetic types other than `bool` (by number), `bool`, types that are not
transformed, and instances `c<args...>` of class templates (by number).
-/

namespace Vc.Spec

inductive Ty where
  | arith (t : Nat)
  | bool
  /-- `size` is the static member `Size` if the type has one, otherwise 0. -/
  | other (size : Nat)
  | tmpl (c : Nat) (args : List Ty)

/-- Transformed types: `Vector<t, Abi>` or `SimdArray<t, n>` with `n` lanes, a mask with `n` lanes for
vectors of `t`, an unchanged type, an `Adapter` with `size() == n`. -/
inductive VTy where
  | vec (t n : Nat)
  | mask (t n : Nat)
  | same (ty : Ty)
  | adapter (c : Nat) (args : List VTy) (n : Nat)

mutual
/-- All vectors and masks in the type have `n` lanes, all adapters report `size() == n`. -/
def VTy.AllWidth (n : Nat) : VTy → Prop
  | .vec _ k => k = n
  | .mask _ k => k = n
  | .same _ => True
  | .adapter _ args k => k = n ∧ allWidth n args
def allWidth (n : Nat) : List VTy → Prop
  | [] => True
  | v :: t => v.AllWidth n ∧ allWidth n t
end

mutual
/-- The scalar type that a transformed type stands for. -/
def VTy.scalar : VTy → Ty
  | .vec t _ => .arith t
  | .mask _ _ => .bool
  | .same ty => ty
  | .adapter c args _ => .tmpl c (scalars args)
def scalars : List VTy → List Ty
  | [] => []
  | v :: t => v.scalar :: scalars t
end

mutual
/-- A vectorizable arithmetic type occurs in the type. -/
def Ty.HasArith : Ty → Prop
  | .arith _ => True
  | .bool => True
  | .other _ => False
  | .tmpl _ args => hasArith args
def hasArith : List Ty → Prop
  | [] => False
  | t :: ts => t.HasArith ∨ hasArith ts
end

mutual
/-- No type that is not transformed has a member `Size`. -/
def Ty.NoSize : Ty → Prop
  | .arith _ => True
  | .bool => True
  | .other s => s = 0
  | .tmpl _ args => noSize args
def noSize : List Ty → Prop
  | [] => True
  | t :: ts => t.NoSize ∧ noSize ts
end

mutual
/-- The number of lanes of the first vectorizable type in the order of the template arguments; `bool`
counts as `float` (number 0). -/
def Ty.firstSize (native : Nat → Nat) : Ty → Option Nat
  | .arith t => some (native t)
  | .bool => some (native 0)
  | .other _ => none
  | .tmpl _ args => firstSizes native args
def firstSizes (native : Nat → Nat) : List Ty → Option Nat
  | [] => none
  | t :: ts => match t.firstSize native with
    | some n => some n
    | none => firstSizes native ts
end

/-- Not a class template instance. -/
def Ty.Flat : Ty → Prop
  | .tmpl _ _ => False
  | _ => True

end Vc.Spec
