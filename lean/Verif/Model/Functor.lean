import Verif.Model.Algorithms

/-!
Which functors `simd_for_each` accepts, and whether it stores what they did to their argument.
`/repo/Vc/traits/is_functor_argument_immutable.h`, `/repo/Vc/common/algorithms.h`.

Simplifications: functors that are `volatile`, reference qualified or take default arguments are left out.
-/

namespace Vc.Model

/-- Form of a parameter: `A`, `A &` or `A &&`; with `const` or not. -/
inductive PForm | value | lref | rref
  deriving DecidableEq, Repr

/-- The call operator: a template (as in generic lambdas), one function, several overloads (for `simdize<T>` and `simdize<T, 1>`), or no
call operator but a pointer to a function. -/
inductive FKind | templ | single | overloaded | pointer
  deriving DecidableEq, Repr

/-- The type of a functor. -/
structure FSig where
  kind : FKind
  form : PForm
  const : Bool
  /-- The call returns `void`. -/
  void : Bool
  deriving DecidableEq, Repr

/-- Overloads of `test` for a pointer to a member function `R (F::*)(P)`, /repo/Vc/traits/is_functor_argument_immutable.h:37-42; they
are declared for `void` only.  The overload for `A &` is the most specialized one for lvalue references, the one for `A &&` for rvalue
references. -/
def testMember (f : FSig) : Option Bool :=
  if f.void then
    match f.form with
    | .value => some true
    | .lref | .rref => some f.const
  else none

/-- `is_functor_argument_immutable<F, A>` for a functor passed by value, /repo/Vc/traits/is_functor_argument_immutable.h:46-65, 74-80: the
address of `operator()<A>`, otherwise of `operator()`; `none` if there is neither (or more than one), which is an error.  A function
is passed as a pointer, which is no function (`std::is_function`). -/
def argImmutable (f : FSig) : Option Bool :=
  match f.kind with
  | .templ | .single => testMember f
  | .overloaded | .pointer => none

/-- `f(tmp)` is a valid call for variables `tmp` of the types `simdize<T>` and `simdize<T, 1>`; `same` if these are one type.  The
parameter `T &&` of a template binds to both. -/
def callable (same : Bool) (f : FSig) : Bool :=
  match f.kind, f.form with
  | .templ, .rref => !f.const
  | .templ, _ => true
  | .overloaded, .rref => false
  | .overloaded, _ => true
  | .single, .rref | .pointer, .rref => false
  | .single, _ | .pointer, _ => same

/-- What a program with `simd_for_each` does: it is rejected, or runs (`none`: outside of the memory). -/
inductive ForEachUse (α σ : Type) | reject | run (r : Option (List α × σ))

/-- `simd_for_each(first, last, f)`, /repo/Vc/common/algorithms.h:65-113: the trait selects the function with or without a store.
`g` is the action of the functor: the value of its parameter at the end of the call, and its new state. -/
def forEachAny {α σ : Type} (w : Nat) (hw : 0 < w) (f : FSig) (g : List α → σ → List α × σ) (first last : Int) (mem : List α) (s : σ) :
    ForEachUse α σ :=
  if callable (w == 1) f then
    match argImmutable f with
    | none => .reject
    | some true => .run ((simdForEachConst w hw (fun v s => (g v s).2) first last mem s).map fun s => (mem, s))
    | some false => .run (simdForEachMut w hw g first last mem s)
  else .reject

end Vc.Model
