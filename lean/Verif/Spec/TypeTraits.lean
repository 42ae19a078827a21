/-!
# Types as the type traits see them
-/

namespace Vc.Spec.Traits

/-- Arithmetic types of C++. -/
inductive Ar where
  | double | float | longDouble | bool | char | schar | uchar | short | ushort | int | uint | long | ulong | llong | ullong
  deriving DecidableEq, Repr

def Ar.floating : Ar → Bool
  | .double | .float | .longDouble => true
  | _ => false

/-- `char` is signed on x86. -/
def Ar.signed : Ar → Bool
  | .bool | .uchar | .ushort | .uint | .ulong | .ullong => false
  | _ => true

/-- The entry types of Vc. -/
def Ar.entry : Ar → Bool
  | .double | .float | .int | .uint | .short | .ushort => true
  | _ => false

/-- Size in bytes of an entry. -/
def Ar.bytes : Ar → Nat
  | .double => 8
  | .float | .int | .uint => 4
  | _ => 2

inductive Abi where
  | scalar | sse | avx
  deriving DecidableEq, Repr

/-- Number of entries of a native vector. -/
def Abi.entries : Abi → Ar → Nat
  | .scalar, _ => 1
  | .sse, t => 16 / t.bytes
  | .avx, t => 32 / t.bytes

/-- Types: arithmetic ones, `Vector<T, Abi>`, `Mask<T, Abi>`, `SimdArray<T, N, V, M>`, `SimdMaskArray<T, N, V, M>`,
`Vector<T, fixed_size<N>>`, `Mask<T, fixed_size<N>>` (which are derived from the former), sequences of `k` integers like
`std::index_sequence<...>`, and classes, pointers etc. that have no static member function `size()`. -/
inductive Ty where
  | arith (t : Ar)
  | vector (t : Ar) (a : Abi)
  | mask (t : Ar) (a : Abi)
  | simdArray (t : Ar) (n m : Nat)
  | simdMaskArray (t : Ar) (n m : Nat)
  | fixedVector (t : Ar) (n : Nat)
  | fixedMask (t : Ar) (n : Nat)
  | indexSequence (k : Nat)
  | other (name : Nat)
  deriving DecidableEq, Repr

/-- A type with qualifiers and references. -/
inductive QTy where
  | ty (t : Ty)
  | const (q : QTy)
  | volatile (q : QTy)
  | ref (q : QTy)
  | rref (q : QTy)
  deriving Repr

/-- The type without qualifiers and references. -/
def QTy.base : QTy → Ty
  | ty t => t
  | const q | volatile q | ref q | rref q => q.base

/-- A SIMD vector of `n` entries of type `t`. -/
inductive IsVector : Ty → Ar → Nat → Prop
  | native (t : Ar) (a : Abi) : t.entry = true → IsVector (.vector t a) t (a.entries t)
  | array (t : Ar) (n m : Nat) : t.entry = true → IsVector (.simdArray t n m) t n
  | fixed (t : Ar) (n : Nat) : t.entry = true → IsVector (.fixedVector t n) t n

/-- A mask of such vectors. -/
inductive IsMaskTy : Ty → Ar → Nat → Prop
  | native (t : Ar) (a : Abi) : t.entry = true → IsMaskTy (.mask t a) t (a.entries t)
  | array (t : Ar) (n m : Nat) : t.entry = true → IsMaskTy (.simdMaskArray t n m) t n
  | fixed (t : Ar) (n : Nat) : t.entry = true → IsMaskTy (.fixedMask t n) t n

/-- The templates of Vc are instantiated for entry types only. -/
def Ty.Instantiable : Ty → Prop
  | .vector t _ | .mask t _ | .simdArray t _ _ | .simdMaskArray t _ _ | .fixedVector t _ | .fixedMask t _ => t.entry = true
  | _ => True

end Vc.Spec.Traits
