import Verif.Model.SseInt
import Verif.Model.Float

/-!
Comparisons, sign operations and classification of the floating-point vectors.

The SSE and the AVX versions consist of the same instructions on registers of 128 and 256 bits, with
constants from different tables.  They are modelled once, for registers of `n` bits with lanes of `w`
bits, and with the constants as parameter.
-/

namespace Vc.Model

open Vc.Spec

/-- The constants used by the floating-point operations. -/
structure FConst (n : Nat) where
  absMask : BitVec n
  signMask : BitVec n
  /-- `c_log<T>::d(1)`, "exponentMask (+inf)". -/
  expMask : BitVec n
  one : BitVec n
  frexpMask : BitVec n

/-- SSE::float_v (/repo/src/const.cpp:273,274,284,455, /repo/Vc/sse/math.h:81-82). -/
def sseFloat : FConst 128 where
  absMask := set1 32 0x7fffffff#32
  signMask := set1 32 0x80000000#32
  expMask := set1 32 0x7f800000#32
  one := set1 32 0x3f800000#32
  frexpMask := set1 32 0xbf7fffff#32

/-- SSE::double_v (/repo/src/const.cpp:288-291,428). -/
def sseDouble : FConst 128 where
  absMask := set1 64 0x7fffffffffffffff#64
  signMask := set1 64 0x8000000000000000#64
  expMask := set1 64 0x7ff0000000000000#64
  one := set1 64 0x3ff0000000000000#64
  frexpMask := set1 64 0xbfefffffffffffff#64

/-- AVX::float_v: the second elements of the two-element tables are broadcast
(/repo/Vc/avx/intrinsics.h:118-124, /repo/src/const.cpp:166-169,209, /repo/Vc/avx/math.h:237). -/
def avxFloat : FConst 256 where
  absMask := set1 32 0x7fffffff#32
  signMask := set1 32 0x80000000#32
  expMask := set1 32 0x7f800000#32
  one := set1 32 0x3f800000#32
  frexpMask := set1 32 0xbf7fffff#32

/-- AVX::double_v: the two-element tables are broadcast as one double
(/repo/Vc/avx/intrinsics.h:118-124, /repo/src/const.cpp:166,167,176,177,181). -/
def avxDouble : FConst 256 where
  absMask := set1 64 (0x7fffffff#32 ++ 0xffffffff#32)
  signMask := set1 64 (0x80000000#32 ++ 0x0#32)
  expMask := set1 64 0x7ff0000000000000#64
  one := set1 64 0x3ff0000000000000#64
  frexpMask := set1 64 0xbfefffffffffffff#64

/-- `abs` (/repo/Vc/sse/vectorhelper.h:187-189,265-267, /repo/Vc/avx/math.h:81-88). -/
def vFAbs {n : Nat} (K : FConst n) (x : BitVec n) : BitVec n := x &&& K.absMask

/-- `copysign` (/repo/Vc/sse/math.h:38-47, /repo/Vc/avx/math.h:139-149). -/
def vCopysign {n : Nat} (K : FConst n) (mag sign : BitVec n) : BitVec n :=
  (sign &&& K.signMask) ||| (mag &&& K.absMask)

/-- Unary minus (/repo/Vc/sse/detail.h:476-483, /repo/Vc/avx/detail.h:607-614). -/
def vFNegate {n : Nat} (K : FConst n) (x : BitVec n) : BitVec n := x ^^^ K.signMask

/-- `isnegative` of float_v (/repo/Vc/sse/vector.tcc:315-319, /repo/Vc/avx/vector.tcc:378-382). -/
def vIsNegativePs {n : Nat} (K : FConst n) (x : BitVec n) : BitVec n := sraiEpi 32 (K.signMask &&& x) 31

/-- `Mem::permute<X1, X1, X3, X3>` on float lanes: within every half of four lanes
(/repo/Vc/sse/shuffle.h:139-143, /repo/Vc/avx/shuffle.h:107-115). -/
def permuteX1X1X3X3 {n : Nat} (x : BitVec n) : BitVec n :=
  ofLanes 32 fun i => lane 32 x (4 * (i / 4) + sel4 (1 + 1 * 4 + 3 * 16 + 3 * 64) (i % 4))

/-- `isnegative` of double_v (/repo/Vc/sse/vector.tcc:320-324, /repo/Vc/avx/vector.tcc:383-387). -/
def vIsNegativePd {n : Nat} (K : FConst n) (x : BitVec n) : BitVec n :=
  permuteX1X1X3X3 (sraiEpi 32 (K.signMask &&& x) 31)

/-- `_mm_cmpunord_ps`, `_CMP_UNORD_Q`. -/
def cmpunord {n : Nat} (F : Fmt) (w : Nat) : BitVec n → BitVec n → BitVec n :=
  map2 w fun a b => laneMask (isNaN F a || isNaN F b)

/-- `_mm_cmpord_ps`, `_CMP_ORD_Q`. -/
def cmpord {n : Nat} (F : Fmt) (w : Nat) : BitVec n → BitVec n → BitVec n :=
  map2 w fun a b => laneMask (!(isNaN F a || isNaN F b))

/-- `isnan` (/repo/Vc/sse/vectorhelper.h:178-180,253-255, /repo/Vc/avx/math.h:128-136). -/
def vIsNaN {n : Nat} (F : Fmt) (w : Nat) (x : BitVec n) : BitVec n := cmpunord F w x x

/-- `isfinite`: compares with `0 * x` (/repo/Vc/sse/vectorhelper.h:181-183,256-258,
/repo/Vc/avx/math.h:102-110). -/
def vIsFinite {n : Nat} (F : Fmt) (w : Nat) (x : BitVec n) : BitVec n :=
  cmpord F w x (map2 w (fMul F) 0#n x)

/-- `isinf`: integer comparison of the absolute value with the pattern of infinity
(/repo/Vc/sse/vectorhelper.h:259-261, /repo/Vc/avx/math.h:113-125).  The AVX code without AVX2 compares
the two halves separately (/repo/Vc/avx/intrinsics.h:275-283); SSE::double_v uses an emulation without
SSE4.1, see `vIsInfPdSse`. -/
def vIsInf {n : Nat} (K : FConst n) (w : Nat) (x : BitVec n) : BitVec n := cmpeqEpi w (vFAbs K x) K.expMask

/-- `isinf` of SSE::double_v (/repo/Vc/sse/vectorhelper.h:184-186). -/
def vIsInfPdSse (I : Isa) (x : M128) : M128 := cmpeqEpi64 I (vFAbs sseDouble x) sseDouble.expMask

/-- `operator==` (`_mm_cmpeq_ps`, `_CMP_EQ_OQ`; /repo/Vc/sse/vector.tcc:42-43,
/repo/Vc/avx/vector.tcc:41-42). -/
def vFEq {n : Nat} (F : Fmt) (w : Nat) : BitVec n → BitVec n → BitVec n := map2 w fun a b => laneMask (fEq F a b)

/-- `operator!=` (`_mm_cmpneq_ps`, `_CMP_NEQ_UQ`; /repo/Vc/sse/vector.tcc:49-50,
/repo/Vc/avx/vector.tcc:43-44). -/
def vFNe {n : Nat} (F : Fmt) (w : Nat) : BitVec n → BitVec n → BitVec n := map2 w fun a b => laneMask (!fEq F a b)

/-- `operator<` (`_mm_cmplt_ps`, `_CMP_LT_OS`; /repo/Vc/sse/vector.tcc:74-75,
/repo/Vc/avx/vector.tcc:51-52). -/
def vFLt {n : Nat} (F : Fmt) (w : Nat) : BitVec n → BitVec n → BitVec n := map2 w fun a b => laneMask (fLt F a b)

/-- `operator<=` (`_mm_cmple_ps`, `_CMP_LE_OS`; /repo/Vc/sse/vector.tcc:99-100,
/repo/Vc/avx/vector.tcc:47-48). -/
def vFLe {n : Nat} (F : Fmt) (w : Nat) : BitVec n → BitVec n → BitVec n := map2 w fun a b => laneMask (fLe F a b)

/-- How a build compares: `sse`, `avxGcc` (comparison operators of the compiler) and `avx`
(`_mm256_cmp_ps` intrinsics; /repo/Vc/avx/intrinsics.h:160-193). -/
inductive CmpBuild where
  | sse
  | avxGcc
  | avx

/-- `operator>=`: `_mm_cmpnlt_ps` (/repo/Vc/sse/vector.tcc:92-93), the operator of the compiler or
`_CMP_NLT_US` (/repo/Vc/avx/vector.tcc:45-46, /repo/Vc/avx/intrinsics.h:166,173,180,187,195-198). -/
def vFGe (B : CmpBuild) {n : Nat} (F : Fmt) (w : Nat) : BitVec n → BitVec n → BitVec n :=
  match B with
  | .sse => map2 w fun a b => laneMask (!fLt F a b)
  | .avxGcc => map2 w fun a b => laneMask (fLe F b a)
  | .avx => map2 w fun a b => laneMask (!fLt F a b)

/-- `operator>`: `_mm_cmpgt_ps` (/repo/Vc/sse/vector.tcc:56-57), the operator of the compiler or
`_CMP_NLE_US` (/repo/Vc/avx/vector.tcc:49-50, /repo/Vc/avx/intrinsics.h:168,175,182,189). -/
def vFGt (B : CmpBuild) {n : Nat} (F : Fmt) (w : Nat) : BitVec n → BitVec n → BitVec n :=
  match B with
  | .sse => map2 w fun a b => laneMask (fLt F b a)
  | .avxGcc => map2 w fun a b => laneMask (fLt F b a)
  | .avx => map2 w fun a b => laneMask (!fLe F a b)

/-- `min`, `max` of two vectors (/repo/Vc/sse/vectorhelper.h:128-130, /repo/Vc/avx/math.h:48-51). -/
def vFMin {n : Nat} (F : Fmt) (w : Nat) : BitVec n → BitVec n → BitVec n := map2 w (fMin F)
def vFMax {n : Nat} (F : Fmt) (w : Nat) : BitVec n → BitVec n → BitVec n := map2 w (fMax F)

/-! ### Scalar vectors -/

/-- `copysign` of Scalar::float_v and double_v (/repo/Vc/scalar/math.h:36-58). -/
def sCopysign32 (mag sign : BitVec 32) : BitVec 32 := (sign &&& 0x80000000#32) ||| (mag &&& 0x7fffffff#32)
def sCopysign64 (mag sign : BitVec 64) : BitVec 64 :=
  (sign &&& 0x8000000000000000#64) ||| (mag &&& 0x7fffffffffffffff#64)

/-- `isnegative` of Scalar::float_v and double_v (/repo/Vc/scalar/vector.tcc:176-193). -/
def sIsNegative32 (x : BitVec 32) : Bool := decide (0#32 ≠ x &&& 0x80000000#32)
def sIsNegative64 (x : BitVec 64) : Bool := decide (0#64 ≠ x &&& 0x8000000000000000#64)

/-! ### Exponents -/

/-- `_mm_cvtepi32_ps`, `_mm256_cvtepi32_ps`. -/
def cvtepi32PsN {n : Nat} (x : BitVec n) : BitVec n := map1 32 (cvtI2F f32 32) x

/-- `exponent` of float_v (/repo/Vc/sse/vector.tcc:455-460; the AVX code does the integer steps on the
two halves, /repo/Vc/avx/vector.tcc:628-636). -/
def vExponentPs {n : Nat} (x : BitVec n) : BitVec n :=
  let tmp := srliEpi 32 x 23
  let tmp := subEpi 32 tmp (set1 32 0x7f#32)
  cvtepi32PsN tmp

/-- `_mm_cvtepi32_pd`: the two low int lanes. -/
def cvtepi32Pd (x : M128) : M128 := ofLanes 64 fun i => cvtI2F f64 64 (lane 32 x i)

/-- `exponent` of SSE::double_v (/repo/Vc/sse/vector.tcc:461-466). -/
def vExponentPd (x : M128) : M128 :=
  let tmp := srliEpi 64 x 52
  let tmp := subEpi 32 tmp (set1 32 0x3ff#32)
  cvtepi32Pd (shuffleEpi32 tmp 0x08)

/-- `exponent` of Scalar::float_v and double_v: arithmetic shift of the signed integer
(/repo/Vc/scalar/vector.tcc:121-134); `static_cast<float>(int)`, `static_cast<double>(long long)`, for
double the difference fits int, so the model converts from 32 bit. -/
def sExponent32 (x : BitVec 32) : BitVec 32 := cvtI2F f32 32 (x.sshiftRight 23 - 0x7f#32)
def sExponent64 (x : BitVec 64) : BitVec 64 := cvtI2F f64 64 ((x.sshiftRight 52 - 0x3ff#64).setWidth 32)

end Vc.Model
