import Verif.Spec.Simdize

/-!
# The type transformation of simdize (Vc/common/simdize.h:150-508)

`none`: the program does not compile. Class templates with non-type parameters and iterators (which are
transformed to vectorizing iterators) are left out.
-/

namespace Vc.Model
open Vc.Spec

/-- `float` (/repo/Vc/common/simdize.h:317-324). -/
def tyFloat : Nat := 0

/-- What the target fixes: `Vector<t>::size()`, and the size of `select_best_vector_type<t, n>::type`
(/repo/Vc/common/simdarray.h:70-81). -/
structure SizeEnv where
  native : Nat → Nat
  best : Nat → Nat → Nat

/-- Number of lanes of `simdize<t, N>` for an arithmetic type: `Vector<t>`, or `deduce_vector_t<t, N>` =
`conditional<Best::size() == N, Best, SimdArray<t, N>>` (/repo/Vc/common/simdize.h:294-308). -/
def arithSize (E : SizeEnv) (t N : Nat) : Nat :=
  if N = 0 then E.native t else if E.best t N = N then E.best t N else N

/-- `size_or_0<U>`: the static member `Size` or 0 (/repo/Vc/common/simdize.h:344-350). Unchanged class
template instances are assumed to have no such member. -/
def VTy.sizeOr0 : VTy → Nat
  | .vec _ n => n
  | .mask _ n => n
  | .same (.other s) => s
  | .same _ => 0
  | .adapter _ _ n => n

/-- `is_same<T, V>` for one template argument. -/
def VTy.isSame : VTy → Bool
  | .same _ => true
  | _ => false

/-- `NewN` (/repo/Vc/common/simdize.h:355-359). -/
def newN (N : Nat) (v : VTy) : Nat := if N ≠ 0 then N else VTy.sizeOr0 v

/-- `NewMT` (/repo/Vc/common/simdize.h:361-367); `none` is `void`. -/
def newMT (N : Nat) (MT : Option Ty) (v : VTy) (t : Ty) : Option Ty :=
  if N ≠ newN N v ∧ MT.isNone then
    (match t with | .bool => some (.arith tyFloat) | t => some t)
  else MT

mutual
/-- `ReplaceTypes<T, N, MT>::type` (/repo/Vc/common/simdize.h:273-324, 489-508). -/
def replaceTypes (E : SizeEnv) (N : Nat) (MT : Option Ty) : Ty → Option VTy
  | .arith t => some (.vec t (arithSize E t N))
  | .bool =>
    -- `typename ReplaceTypes<MT, N, MT>::type::mask_type`, with `float` if `MT` is `void`
    match MT with
    | none => some (.mask tyFloat (arithSize E tyFloat N))
    | some (.arith t) => some (.mask t (arithSize E t N))
    | some _ => none
  | .other s => some (.same (.other s))
  | .tmpl c args => do
    let (vs, n) ← substituteOneByOne E N MT args
    if vs.all VTy.isSame then some (.same (.tmpl c args)) else some (.adapter c vs n)

/-- `SubstituteOneByOne<N, MT, Typelist<...>, Ts...>` (/repo/Vc/common/simdize.h:326-375, 448-470): the
replaced types and the final `N`. -/
def substituteOneByOne (E : SizeEnv) (N : Nat) (MT : Option Ty) : List Ty → Option (List VTy × Nat)
  | [] => some ([], N)
  | t :: ts => do
    let v ← replaceTypes E N MT t
    let (vs, n) ← substituteOneByOne E (newN N v) (newMT N MT v t) ts
    some (v :: vs, n)
end

end Vc.Model
