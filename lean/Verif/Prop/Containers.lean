import Verif.Model.Containers
import Verif.Prop.Subscript

/-!
# C95: containers in gather and scatter expressions
-/

namespace Vc.Prop
open Vc.Model Vc.Spec Vc.Lemma

/-- How objects of a container type store their elements, and where: inside of the object or not. -/
inductive Stores : ContainerTy → ContainerObj → Prop where
  | contiguous {c : ContainerTy}
      (h : c ∈ [.cArray, .stdArray, .vcArray, .stdVector, .span, .initializerList]) (base : Int) (count esize : Nat) :
      Stores c (contiguousObj base count esize)
  | deque (block : Nat → Int) (count esize : Nat) (h : esize ∣ 512) : Stores .deque (dequeObj block count esize)
  | adapt {c : ContainerTy} {o : ContainerObj} (h : Stores c o) : Stores (.adapt c) o

/-- The class without adaptors. -/
def innermost : ContainerTy → ContainerTy
  | .adapt b => innermost b
  | c => c

private theorem randomAccess_innermost (c : ContainerTy) : c.randomAccess = (innermost c).randomAccess := by
  induction c <;> simp_all [ContainerTy.randomAccess, innermost]

private theorem lvalue_innermost (c : ContainerTy) : c.beginIsLvalue = (innermost c).beginIsLvalue := by
  induction c <;> simp_all [ContainerTy.beginIsLvalue, innermost]

/-- Accepted are containers with contiguous storage, and `std::deque`. -/
theorem C95_accepted {c : ContainerTy} (h : c.accepted = true) :
    innermost c ∈ [.cArray, .stdArray, .vcArray, .stdVector, .span, .initializerList] ∨ innermost c = .deque := by
  unfold ContainerTy.accepted at h
  rw [Bool.and_eq_true] at h
  obtain ⟨h1, h2⟩ := h
  rw [lvalue_innermost] at h2
  have key : (innermost c).randomAccess.getD false = true ∨
      c ∈ [.pointer, .uniquePtrArray, .initializerList, .cArray, .stdArray, .vcArray, .stdVector, .vectorBool,
        .adapt .stdVector, .adapt .vectorBool] := by
    unfold ContainerTy.hasContiguousStorage at h1
    split at h1
    all_goals first
      | (right; simp; done)
      | (left; rw [← randomAccess_innermost]; exact h1)
  rcases key with key | key
  · have hn : ∀ b, innermost c ≠ .adapt b := by
      clear h1 h2 key
      induction c <;> simp_all [innermost]
    generalize innermost c = d at h2 key hn
    cases d <;> simp_all [ContainerTy.randomAccess, ContainerTy.beginIsLvalue]
  · simp only [List.mem_cons, List.not_mem_nil, or_false] at key
    rcases key with rfl | rfl | rfl | rfl | rfl | rfl | rfl | rfl | rfl | rfl <;>
      simp_all [ContainerTy.beginIsLvalue, innermost]

/-- The containers that the documentation names are accepted, what has no elements at `&*begin(c)` is not. -/
theorem C95_documented :
    (∀ c ∈ [.cArray, .stdArray, .vcArray, .stdVector, .adapt .stdVector, .adapt .stdArray, .span, .initializerList],
      ContainerTy.accepted c = true) ∧
    ∀ c ∈ [.vectorBool, .adapt .vectorBool, .list, .adapt .list, .pointer, .uniquePtrArray, .simdArray],
      ContainerTy.accepted c = false := by decide

example : (ContainerTy.adapt .stdVector).accepted = true ∧ ContainerTy.vcArray.accepted = true ∧
    (ContainerTy.adapt .vectorBool).accepted = false ∧ ContainerTy.pointer.accepted = false := by decide

/-- An element of a container is where the expression looks for it. -/
private theorem contiguous_addr (base : Int) (count esize i : Nat) :
    (contiguousObj base count esize).elemAddr i =
      (contiguousObj base count esize).elemAddr 0 + Int.ofNat i * Int.ofNat esize := by
  simp [contiguousObj]

private theorem stores_contiguous {c : ContainerTy} {o : ContainerObj} (hs : Stores c o) (hd : innermost c ≠ .deque)
    (i : Nat) : o.elemAddr i = o.elemAddr 0 + Int.ofNat i * Int.ofNat o.esize := by
  induction hs with
  | contiguous h base count esize => exact contiguous_addr ..
  | deque block count esize h => exact absurd rfl hd
  | adapt h ih => exact ih hd

/-- `c[indexes]...` of every accepted container but deques reads, for each component, the object that the path selects
from element `indexes[l]` of the container (hypotheses on the sizes and indexes as in C59). -/
theorem C95_gather_partial {b : Nat} {hw sgn : Bool} {c : ContainerTy} {o : ContainerObj} (_ha : c.accepted = true)
    (hs : Stores c o) (hd : innermost c ≠ .deque) (hb : 0 < b) (he : 0 < o.esize) {idx : Nat → BitVec b}
    {steps : List Step} {l i : Nat} (hi : indexValue sgn (idx l) = Int.ofNat i) (_hc : i < o.count)
    (hp : Positive steps) (hdv : Divides o.esize steps) {n : Int} (hn : ElementOffset sgn o.esize idx steps l n)
    (hr : Representable b sgn n ∧ (hw = true → Representable b true n)) {a : Int}
    (h : o.gather hw sgn idx steps l = some a) : a = stepAddress l (o.elemAddr i) steps := by
  have := C59_gather_address_partial hb he hp hdv hn hr h
  rw [this]
  unfold subscriptAddress
  simp only []
  rw [hi, stores_contiguous hs hd i]

/-- The hypotheses hold for a `Vc::vector<float>` and a gather of element 5. -/
example : Stores (.adapt .stdVector) (contiguousObj 1000 100 4) ∧ innermost (.adapt .stdVector) ≠ .deque ∧
    ElementOffset true 4 (fun _ => (5 : BitVec 32)) [] 0 5 ∧ Representable 32 true 5 ∧
    (contiguousObj 1000 100 4).gather false true (fun _ => (5 : BitVec 32)) [] 0 = some 1020 := by
  refine ⟨.adapt (.contiguous (by simp) _ _ _), by decide, ?_, ?_, by decide⟩
  · show (5 : BitVec 32).toInt * 4 + 0 = 5 * 4
    decide
  · unfold Representable; decide

/-- `AdaptSubscriptOperator<std::deque<float>>` is accepted, the assertion of debug builds holds, but element 128 is
not where it is read from. -/
theorem C95_deque_violated :
    (ContainerTy.adapt .deque).accepted = true ∧
    ∃ o, Stores (.adapt .deque) o ∧ o.debugCheck = some true ∧ 128 < o.count ∧
      ∃ a, o.gather false true (fun _ => (128 : BitVec 32)) [] 0 = some a ∧ a ≠ o.elemAddr 128 :=
  ⟨by decide, dequeObj (fun k => if k = 0 then 4096 else 8192) 200 4, .adapt (.deque _ _ _ (by decide)), by decide,
    by decide, 4608, by decide, by decide⟩

/-- The assertion never fails for containers with contiguous storage and at least two elements. -/
theorem C95_debug_partial {c : ContainerTy} {o : ContainerObj} (hs : Stores c o) (hd : innermost c ≠ .deque)
    (hc : 2 ≤ o.count) : o.debugCheck = some true := by
  unfold ContainerObj.debugCheck
  rw [if_pos hc, stores_contiguous hs hd 1]
  simp

/-- With a single element it dereferences an iterator to the end. -/
theorem C95_debug_violated (base : Int) (esize : Nat) :
    Stores .vcArray (contiguousObj base 1 esize) ∧ (contiguousObj base 1 esize).debugCheck = none :=
  ⟨.contiguous (by simp) _ _ _, rfl⟩

/-- Subscripts of nested objects compile only if the elements are stored inside of the object. -/
theorem C95_nested (c : ContainerTy) :
    c.nestedAccepted = true ↔ c = .cArray ∨ c = .stdArray ∨ c = .vcArray := by
  cases c <;> simp [ContainerTy.nestedAccepted, ContainerTy.hasNoAllocatedData, ContainerTy.elementIsLvalue]

/-- The path that the arguments of the deprecated functions select. -/
def deprecatedPath : DeprecatedArgs → List Step
  | .member off u => [.member off u]
  | .member2 o1 u1 o2 u2 => [.member o1 u1, .member o2 u2]
  | .ptrMember off inner u => [.member off 8, .elems inner u]

/-- The deprecated gathers and scatters access `array[indexes[l]].*member1` and `array[indexes[l]].*member1.*member2`. -/
theorem C95_deprecated_partial {b : Nat} {hw sgn : Bool} {array : Int} {size l : Nat} {idx : Nat → BitVec b}
    {args : DeprecatedArgs} (hb : 0 < b) (hs : 0 < size) (hp : Positive (deprecatedPath args))
    (hd : Divides size (deprecatedPath args)) {n : Int} (hn : ElementOffset sgn size idx (deprecatedPath args) l n)
    (hr : Representable b sgn n ∧ (hw = true → Representable b true n)) {a : Int} :
    (deprecatedGather hw sgn array size idx l args = some a →
      a = subscriptAddress array size (fun l => indexValue sgn (idx l)) (deprecatedPath args) l) ∧
    (deprecatedScatter sgn array size idx l args = some a →
      a = subscriptAddress array size (fun l => indexValue sgn (idx l)) (deprecatedPath args) l) := by
  have hnp : ContainerTy.nestedAccepted .pointer = false := by decide
  cases args with
  | member off u =>
    exact ⟨fun h => C59_gather_address_partial hb hs hp hd hn hr h,
      fun h => C59_scatter_address_partial hb hs hp hd hn hr.1 h⟩
  | member2 o1 u1 o2 u2 =>
    exact ⟨fun h => C59_gather_address_partial hb hs hp hd hn hr h,
      fun h => C59_scatter_address_partial hb hs hp hd hn hr.1 h⟩
  | ptrMember off inner u =>
    constructor
    · intro h; unfold deprecatedGather at h; simp only [hnp] at h; cases h
    · intro h; unfold deprecatedScatter at h; simp only [hnp] at h; cases h

/-- `struct { int i; struct { float x, y; } p; }` of 12 bytes: `p.y` of element 3. -/
example : Positive (deprecatedPath (.member2 4 8 4 4)) ∧ Divides 12 (deprecatedPath (.member2 4 8 4 4)) ∧
    ElementOffset true 12 (fun _ => (3 : BitVec 32)) (deprecatedPath (.member2 4 8 4 4)) 0 9 ∧ Representable 32 true 9 ∧
    deprecatedGather false true 1000 12 (fun _ => (3 : BitVec 32)) 0 (.member2 4 8 4 4) = some 1044 := by
  refine ⟨⟨by decide, by decide, trivial⟩, trivial, ?_, ?_, by decide⟩
  · show (3 : BitVec 32).toInt * 12 + 0 = 9 * 4
    decide
  · unfold Representable; decide

/-- The documented forms with a pointer member do not compile, whatever the arguments. -/
theorem C95_pointer_violated {b : Nat} (hw sgn : Bool) (array : Int) (size l off u : Nat) (idx : Nat → BitVec b)
    (inner : Nat → Int) :
    deprecatedGather hw sgn array size idx l (.ptrMember off inner u) = none ∧
      deprecatedScatter sgn array size idx l (.ptrMember off inner u) = none := ⟨rfl, rfl⟩

end Vc.Prop
