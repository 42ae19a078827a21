import Verif.Model.AvxInt
import Verif.Model.MixedOp

/-!
`std::numeric_limits` of vector types: `/repo/Vc/limits`, `/repo/Vc/sse/limits.h`, `/repo/Vc/avx/limits.h`,
`/repo/Vc/common/simdarray.h`.

Simplifications: values are bit patterns (as natural numbers).  The constants of `std::numeric_limits<T>` for the entry types are those
of the GNU library.
-/

namespace Vc.Model

/-- The functions of `std::numeric_limits`. -/
inductive LimFn | max | min | lowest | epsilon | roundError | infinity | quietNaN | signalingNaN | denormMin
  deriving DecidableEq, Repr
def LimFn.all : List LimFn := [max, min, lowest, epsilon, roundError, infinity, quietNaN, signalingNaN, denormMin]
theorem LimFn.mem_all (f : LimFn) : f ∈ LimFn.all := by cases f <;> decide

/-- `std::numeric_limits<T>` for the entry types of vectors. -/
def baseLimit : CTy → LimFn → Nat
  | .float, .max => 0x7f7fffff
  | .float, .min => 0x00800000
  | .float, .lowest => 0xff7fffff
  | .float, .epsilon => 0x34000000
  | .float, .roundError => 0x3f000000
  | .float, .infinity => 0x7f800000
  | .float, .quietNaN => 0x7fc00000
  | .float, .signalingNaN => 0x7fa00000
  | .float, .denormMin => 1
  | .double, .max => 0x7fefffffffffffff
  | .double, .min => 0x0010000000000000
  | .double, .lowest => 0xffefffffffffffff
  | .double, .epsilon => 0x3cb0000000000000
  | .double, .roundError => 0x3fe0000000000000
  | .double, .infinity => 0x7ff0000000000000
  | .double, .quietNaN => 0x7ff8000000000000
  | .double, .signalingNaN => 0x7ff4000000000000
  | .double, .denormMin => 1
  | .int, .max => 0x7fffffff
  | .int, .min | .int, .lowest => 0x80000000
  | .uint, .max => 0xffffffff
  | .short, .max => 0x7fff
  | .short, .min | .short, .lowest => 0x8000
  | .ushort, .max => 0xffff
  | _, _ => 0

/-- `numeric_limits` of the SSE integer vectors, /repo/Vc/sse/limits.h:34-83.  All specializations have the same functions. -/
def sseLimit (sgn : Bool) (w : Nat) : LimFn → M128
  | .max => vLimitMax sgn w
  | .min | .lowest => vLimitMin sgn w
  | .epsilon | .roundError | .infinity | .quietNaN | .signalingNaN | .denormMin => 0#128

/-- `numeric_limits` of the AVX2 integer vectors, `Vc_NUM_LIM`, /repo/Vc/avx/limits.h:37-82. -/
def avxLimit (sgn : Bool) (w : Nat) : LimFn → M256
  | .max => aLimitMax sgn w
  | .min | .lowest => aLimitMin sgn w
  | .epsilon | .roundError | .infinity | .quietNaN | .signalingNaN | .denormMin => 0#256

/-- Vector types. -/
inductive LimVec
  /-- Integer vectors of SSE (in all builds but Scalar) and of AVX2. -/
  | sseInt (sgn : Bool) (w : Nat)
  | avxInt (sgn : Bool) (w : Nat)
  /-- The other native vectors: those of `float` and `double`, and all of the Scalar implementation; `best` if it is
  `Vc::Vector<T>`, the vector type that the build selects for `T`. -/
  | native (t : CTy) (best : Bool)
  /-- `SimdArray<T, N>` and `fixed_size_simd<T, N>`. -/
  | simdArray (t : CTy)
  | fixedSize (t : CTy)
  deriving DecidableEq, Repr

/-- Entry `i` of `numeric_limits<V>::f()`; `included`: the header `Vc/limits` is (no other header includes it).
/repo/Vc/limits:36-52 specializes `Vc::Vector<T>`, /repo/Vc/common/simdarray.h:2733-2773 `SimdArray` (which a class derived from it,
like `fixed_size_simd`, does not match).  All other types use the primary template, which returns a value-initialized vector. -/
def limitEntry (included : Bool) (v : LimVec) (f : LimFn) (i : Nat) : Nat :=
  match v with
  | .sseInt sgn w => (lane w (sseLimit sgn w f) i).toNat
  | .avxInt sgn w => (lane w (avxLimit sgn w f) i).toNat
  | .native t best => if included && best then baseLimit t f else 0
  | .simdArray t => baseLimit t f
  | .fixedSize _ => 0

end Vc.Model
