import Verif.Model.SimdArray

/-!
`new`, `new[]`, `delete` and `delete[]` of the classes of Vc, `Vc_FREE_STORE_OPERATORS_ALIGNED`.
-/

namespace Vc.Model
open Vc.Spec Vc.Lemma

/-- What a `new` expression uses: `sizeof`, `alignof` and the argument of
`Vc_FREE_STORE_OPERATORS_ALIGNED` in the class. -/
structure ClassInfo where
  size : Nat
  align : Nat
  req : Nat

/-- Outcomes of a `new` expression. -/
inductive NewResult where
  /-- The address of the (first) object. -/
  | object (p : Nat)
  /-- `std::bad_alloc` or a class derived from it. -/
  | badAlloc
  /-- The allocation function returned a null pointer although it is not `noexcept`: undefined. -/
  | undefined
  deriving DecidableEq

/-- `new T`: `operator new(sizeof(T))` returns `aligned_malloc<align_>(size)`
(/repo/Vc/common/macros.h:187-190), a null pointer if `posix_memalign` fails
(/repo/Vc/common/malloc.h:63-70).  `alloc` is `posix_memalign`. -/
def newObject (alloc : AllocRequest → Option Nat) (c : ClassInfo) : NewResult :=
  match alloc (alignedMalloc c.req c.size) with
  | some p => .object p
  | none => .undefined

/-- Space in front of the elements of an array for their number; the deallocation function of the class takes
the size, so it is always there.  `max(sizeof(size_t), alignof(T))` in the Itanium C++ ABI. -/
def arrayCookie (c : ClassInfo) : Nat := max 8 c.align

/-- The size a `new T[k]` expression asks for. -/
def arrayBytes (c : ClassInfo) (k : Nat) : Nat := arrayCookie c + k * c.size

/-- `new T[k]`: the address of the first element.  The compiler throws `std::bad_array_new_length` if the size
is not a `size_t`, otherwise calls `operator new[]` (/repo/Vc/common/macros.h:194-197). -/
def newArray (alloc : AllocRequest → Option Nat) (c : ClassInfo) (k : Nat) : NewResult :=
  if 2 ^ 64 ≤ arrayBytes c k then .badAlloc
  else
    match alloc (alignedMalloc c.req (arrayBytes c k)) with
    | some p => .object (p + arrayCookie c)
    | none => .undefined

/-- What `delete p` and `delete[] p` pass to `Vc::Common::free` (/repo/Vc/common/macros.h:200-209). -/
def deleteObject (p : Nat) : Nat := p
def deleteArray (c : ClassInfo) (p : Nat) : Nat := p - arrayCookie c

/-- `Detail::max` (/repo/Vc/common/alignedbase.h:41-49). -/
def detailMax : Nat → List Nat → Nat
  | a, [] => a
  | a, b :: rest => if a > b then detailMax a rest else detailMax b rest

/-- `AlignedBase<a>` and classes derived from it, which `new` with the operators of the base; `align` and `size`
are those of the derived class (/repo/Vc/common/alignedbase.h:67-70). -/
def alignedBaseClass (a align size : Nat) : ClassInfo := ⟨size, align, a⟩

/-- The native vectors and masks, registers of `bytes` bytes (/repo/Vc/sse/vector.h:72, /repo/Vc/sse/mask.h:100,
/repo/Vc/avx/vector.h:89, /repo/Vc/avx/mask.h:81). -/
def registerClass (bytes : Nat) : ClassInfo := ⟨bytes, bytes, bytes⟩

/-- `WriteMaskedVector`: a mask of the given alignment and size and a reference
(/repo/Vc/common/writemaskedvector.h:49, 124-132). -/
def writeMaskedClass (align size : Nat) : ClassInfo :=
  ⟨roundUp (roundUp size 8 + 8) (max align 8), max align 8, align⟩

/-- `SimdArray<T, N>`: `alignof(storage_type)`, the native vector, for the atomic array
(/repo/Vc/common/simdarray.h:503), `alignof(storage_type0)` for the others (/repo/Vc/common/simdarray.h:1464). -/
def SA.newAlign {α : Type u} (C : Cfg) : SA α → Nat
  | .atom l => l.length * C.sz
  | .node a _ => a.alignOf C

def SA.classInfo {α : Type u} (C : Cfg) (x : SA α) : ClassInfo := ⟨x.sizeOf C, x.alignOf C, x.newAlign C⟩

/-- `SimdMaskArray<T, N>` of which the masks have the size of the vectors: `alignof(mask_type)` is that of the
native mask for the atomic array (/repo/Vc/common/simdmaskarray.h:79; `nat` for masks of one lane, which are
`bool`s) and that of the class itself for the others (/repo/Vc/common/simdmaskarray.h:371). -/
def SA.maskClassInfo {α : Type u} (C : Cfg) (nat : Nat) : SA α → ClassInfo
  | .atom l => ⟨(SA.atom l).sizeOf C, (SA.atom l).alignOf C, if l.length = 1 then nat else l.length * C.sz⟩
  | .node a b => ⟨(SA.node a b).sizeOf C, (SA.node a b).alignOf C, (SA.node a b).alignOf C⟩

/-- `SimdArray::MemoryAlignment`, that of a native vector is its size (/repo/Vc/common/simdarray.h:151,
691-695). -/
def SA.memoryAlignment {α : Type u} (C : Cfg) : SA α → Nat
  | .atom l => l.length * C.sz
  | .node a b =>
    if a.memoryAlignment C > b.memoryAlignment C then a.memoryAlignment C else b.memoryAlignment C

/-- Offset and size in bytes of every native vector in a `SimdArray`. -/
def SA.registers {α : Type u} (C : Cfg) : SA α → List (Nat × Nat)
  | .atom l => [(0, l.length * C.sz)]
  | .node a b => a.registers C ++ (b.registers C).map fun r => (SA.off1 C a b + r.1, r.2)

end Vc.Model
