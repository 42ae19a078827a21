import Verif.Model.Subscript

/-!
Containers in gather and scatter expressions `c[indexes]...`, and the deprecated gather and scatter functions.
-/

namespace Vc.Model
open Vc.Spec

/-- Types of containers; `adapt` is `AdaptSubscriptOperator<Base>`, `Vc::vector` is `adapt stdVector`. -/
inductive ContainerTy where
  | cArray | stdArray | vcArray | stdVector | vectorBool | deque | list | span | initializerList | uniquePtrArray
  | pointer | simdArray
  | adapt (base : ContainerTy)
  deriving DecidableEq

/-- Category of `T::iterator`: random access (`some true`), weaker (`some false`) or no such member. -/
def ContainerTy.randomAccess : ContainerTy → Option Bool
  | .cArray | .uniquePtrArray | .pointer | .simdArray | .initializerList => none
  | .list => some false
  | .adapt b => b.randomAccess
  | _ => some true

/-- `Traits::has_contiguous_storage` (/repo/Vc/traits/has_contiguous_storage.h:56-95, /repo/Vc/array:250-253,
/repo/Vc/vector:57-60): the specialisations, otherwise the heuristic about iterators. -/
def ContainerTy.hasContiguousStorage (c : ContainerTy) : Bool :=
  match c with
  | .pointer | .uniquePtrArray | .initializerList | .cArray | .stdArray | .vcArray | .stdVector | .vectorBool => true
  | .adapt .stdVector | .adapt .vectorBool => true
  | c => c.randomAccess.getD false

/-- Whether `*begin(c)` is valid and an lvalue reference. -/
def ContainerTy.beginIsLvalue : ContainerTy → Bool
  | .pointer | .uniquePtrArray | .vectorBool | .simdArray => false
  | .adapt b => b.beginIsLvalue
  | _ => true

/-- Whether `subscript_operator(c, indexes)` takes part in overload resolution
(/repo/Vc/common/subscript.h:464-479), for a valid vector of indexes. -/
def ContainerTy.accepted (c : ContainerTy) : Bool := c.hasContiguousStorage && c.beginIsLvalue

/-- `Traits::has_no_allocated_data` (/repo/Vc/traits/has_no_allocated_data.h:54-77, /repo/Vc/array:246-249,
/repo/Vc/common/simdarrayfwd.h:198-201). -/
def ContainerTy.hasNoAllocatedData : ContainerTy → Bool
  | .cArray | .stdArray | .vcArray | .simdArray => true
  | _ => false

/-- Whether `x[i]` of the type yields an lvalue reference. -/
def ContainerTy.elementIsLvalue : ContainerTy → Bool
  | .simdArray | .vectorBool | .list => false
  | .adapt b => b.elementIsLvalue
  | _ => true

/-- Whether a subscript of a nested object of this type compiles (/repo/Vc/common/subscript.h:391-420: the condition
of `enable_if` and the assertions; 423-455 has the first only, and takes the address of `x[0]`). -/
def ContainerTy.nestedAccepted (c : ContainerTy) : Bool := c.hasNoAllocatedData && c.elementIsLvalue

/-- A container object: addresses of its elements, their number and the size of an element. -/
structure ContainerObj where
  elemAddr : Nat → Int
  count : Nat
  esize : Nat

/-- The assertion of debug builds (/repo/Vc/common/subscript.h:481-485): it looks at the elements 0 and 1; `none`: there
is no element 1 (or 0), the iterator must not be dereferenced. -/
def ContainerObj.debugCheck (o : ContainerObj) : Option Bool :=
  if 2 ≤ o.count then some (decide (o.elemAddr 0 + o.esize = o.elemAddr 1)) else none

/-- The gather expression `c[indexes]...`: it starts from the address of the first element
(/repo/Vc/common/subscript.h:486). -/
def ContainerObj.gather {b : Nat} (o : ContainerObj) (hw sgn : Bool) (idx : Nat → BitVec b) (steps : List Step) (l : Nat) :
    Option Int := gatherAddress hw sgn (subscript (o.elemAddr 0) o.esize idx steps) l

/-- `std::deque` as libstdc++ stores it: blocks of 512 bytes anywhere in memory. -/
def dequeObj (block : Nat → Int) (count esize : Nat) : ContainerObj :=
  ⟨fun i => block (i / (512 / esize)) + Int.ofNat (i % (512 / esize) * esize), count, esize⟩

/-- `std::vector`, `std::array` and so on. -/
def contiguousObj (base : Int) (count esize : Nat) : ContainerObj := ⟨fun i => base + Int.ofNat (i * esize), count, esize⟩

/-! ### Deprecated gathers and scatters -/

/-- The arguments that select a member: `member1`, `member1, member2`, or `ptrMember1` with `innerIndexes`. -/
inductive DeprecatedArgs where
  | member (off usize : Nat)
  | member2 (off1 usize1 off2 usize2 : Nat)
  | ptrMember (off : Nat) (inner : Nat → Int) (usize : Nat)

/-- Address that `gather(array, member1, ..., indexes)` reads for component `l`; `none`: it does not compile
(/repo/Vc/common/gatherinterface_deprecated.h:13-298).  The subscript of a pointer member is not viable: pointers do
not satisfy `has_no_allocated_data`. -/
def deprecatedGather {b : Nat} (hw sgn : Bool) (array : Int) (size : Nat) (idx : Nat → BitVec b) (l : Nat) :
    DeprecatedArgs → Option Int
  | .member off u => gatherAddress hw sgn (subscript array size idx [.member off u]) l
  | .member2 o1 u1 o2 u2 => gatherAddress hw sgn (subscript array size idx [.member o1 u1, .member o2 u2]) l
  | .ptrMember off inner u =>
    if ContainerTy.nestedAccepted .pointer then
      gatherAddress hw sgn (subscript array size idx [.member off 8, .elems inner u]) l
    else none

/-- The scatters (/repo/Vc/common/scatterinterface_deprecated.h:13-145). -/
def deprecatedScatter {b : Nat} (sgn : Bool) (array : Int) (size : Nat) (idx : Nat → BitVec b) (l : Nat) :
    DeprecatedArgs → Option Int
  | .member off u => scatterAddress sgn (subscript array size idx [.member off u]) l
  | .member2 o1 u1 o2 u2 => scatterAddress sgn (subscript array size idx [.member o1 u1, .member o2 u2]) l
  | .ptrMember off inner u =>
    if ContainerTy.nestedAccepted .pointer then
      scatterAddress sgn (subscript array size idx [.member off 8, .elems inner u]) l
    else none

end Vc.Model
