import Verif.Model.Avx
import Verif.Model.FloatOps
import Verif.Model.SseShuffle

/-!
`frexp`, `ldexp` and `exponent` of the floating-point vectors.

The `Scalar` versions of `frexp` and `ldexp` call the C library (/repo/Vc/scalar/math.h:248-260) and are
not modelled.  Masks keep all bits of a lane equal.
-/

namespace Vc.Model

open Vc.Spec

/-! ### frexp -/

/-- The lanes `frexp` does not touch: `isnan(v) || !isfinite(v) || v == 0`
(/repo/Vc/sse/math.h:67-68,83, /repo/Vc/avx/math.h:172-173,208-209,238); `!` of a mask is
`andnot(mask, allone)` (/repo/Vc/sse/mask.h:162-169, /repo/Vc/avx/mask.h:152-159). -/
def frexpKeep {n : Nat} (F : Fmt) (w : Nat) (v : BitVec n) : BitVec n :=
  (vIsNaN F w v ||| andnot (vIsFinite F w v) (BitVec.allOnes n)) ||| vFEq F w v 0#n

/-- "exponentMaximized" with the bits of `frexpMask` (/repo/Vc/sse/math.h:63-66,80-82,
/repo/Vc/avx/math.h:168-171,202-207,235-236). -/
def frexpBits {n : Nat} (K : FConst n) (v : BitVec n) : BitVec n := (v ||| K.expMask) &&& K.frexpMask

/-- The mantissas of `frexp` with SSE: masked assignment is `HV::blend`
(/repo/Vc/sse/math.h:63-68,80-83, /repo/Vc/sse/vector.h:322-325). -/
def frexpMantSse (I : Isa) (K : FConst 128) (F : Fmt) (w : Nat) (v : M128) : M128 :=
  blendv I w (frexpBits K v) v (frexpKeep F w v)

/-- The mantissas of `frexp` with AVX: masked assignment is `_mm256_blendv_ps`, `_mm256_blendv_pd`
(/repo/Vc/avx/math.h:168-173,235-238, /repo/Vc/avx/vector.h:389-391, /repo/Vc/avx/detail.h:681-682).  The
two halves of SimdArray<double, 8> (lines 202-209) are two such vectors. -/
def frexpMantAvx (K : FConst 256) (F : Fmt) (w : Nat) (v : M256) : M256 :=
  blendvIntr w (frexpBits K v) v (frexpKeep F w v)

/-- The exponents of `frexp` of SSE::float_v (/repo/Vc/sse/math.h:76-79,84, /repo/Vc/sse/vector.tcc:229-232). -/
def frexpExpSseF (v : M128) : M128 :=
  let exponentPart := v &&& sseFloat.expMask
  andnot (vFEq f32 32 v 0#128) (subEpi 32 (srliEpi 32 exponentPart 23) (set1 32 0x7e#32))

/-- The exponents of `frexp` of SSE::double_v, two scalar integers (/repo/Vc/sse/math.h:59-62,69-71). -/
def frexpExpSseD (v : M128) : BitVec 32 × BitVec 32 :=
  let exponentPart := v &&& sseDouble.expMask
  let exponent := subEpi 32 (srliEpi 64 exponentPart 52) (set1 32 0x3fe#32)
  let exponent := andnot (vFEq f64 64 v 0#128) exponent
  (lane 32 exponent 0, lane 32 exponent 2)

/-- `simd_cast<SSE::int_m>(AVX2::double_m)` (/repo/Vc/avx/simd_cast.h:2474). -/
def castMask4 (k : M256) : M128 := packs 16 (lo128 k) (hi128 k)

/-- The exponents of `frexp` of AVX::double_v; `Mem::shuffle<X0, X2, Y0, Y2>`
(/repo/Vc/avx/math.h:160-167,174-175). -/
def frexpExpAvxD (v : M256) : Option M128 := do
  let exponentPart := v &&& avxDouble.expMask
  let lo := subEpi 32 (srliEpi 64 (lo128 exponentPart) 52) (set1 64 0x3fe#64)
  let hi := subEpi 32 (srliEpi 64 (hi128 exponentPart) 52) (set1 64 0x3fe#64)
  let exponent ← memShuffle4 0 2 8 10 lo hi
  return andnot (castMask4 (vFEq f64 64 v 0#256)) exponent

/-- `simd_cast<AVX2::int_m>(AVX2::double_m, AVX2::double_m)` (/repo/Vc/avx/simd_cast.h:2258). -/
def castMask44 (k0 k1 : M256) : Option M256 := permute4x64 0 2 1 3 (packs256 16 k0 k1)

/-- The exponents of `frexp` of SimdArray<double, 8> with AVX2 (/repo/Vc/avx/math.h:184-201,210-211). -/
def frexpExpAvx2D8 (v0 v1 : M256) : Option M256 := do
  let part0 := v0 &&& avxDouble.expMask
  let part1 := v1 &&& avxDouble.expMask
  let lo := subEpi 32 (srliEpi 64 part0 52) (set1 32 0x3fe#32)
  let hi := subEpi 32 (srliEpi 64 part1 52) (set1 32 0x3fe#32)
  let a := unpacklo256 32 lo hi
  let b := unpackhi256 32 lo hi
  let tmp := unpacklo256 32 a b
  let exponent := concat128 (unpacklo 64 (lo128 tmp) (hi128 tmp)) (unpackhi 64 (lo128 tmp) (hi128 tmp))
  let zero ← castMask44 (vFEq f64 64 v0 0#256) (vFEq f64 64 v1 0#256)
  return andnot zero exponent

/-- The exponents of `frexp` of AVX::float_v (/repo/Vc/avx/math.h:216-228,233,239): SimdArray<unsigned, 8> is one
vector with AVX2, else two SSE vectors; the mask is bitwise the same in both cases. -/
def frexpExpAvxF (avx2 : Bool) (v : M256) : M256 :=
  let exponentPart := v &&& avxFloat.expMask
  let e := avx1 avx2 (srliEpi 32 · 23) (srliEpi 32 · 23) exponentPart
  let e := avx1 avx2 (subEpi 32 · (set1 32 0x7e#32)) (subEpi 32 · (set1 32 0x7e#32)) e
  andnot (vFEq f32 32 v 0#256) e

/-! ### ldexp -/

/-- `ldexp` of SSE::float_v (/repo/Vc/sse/math.h:100-107). -/
def ldexpSseF (v e : M128) : M128 :=
  let e := andnot (vFEq f32 32 v 0#128) e
  addEpi 32 v (slliEpi 32 e 23)

/-- `ldexp` of SSE::double_v (/repo/Vc/sse/math.h:92-99); `_mm_setr_epi32(e0, 0, e1, 0)`. -/
def ldexpSseD (v : M128) (e0 e1 : BitVec 32) : M128 :=
  let e := setEpi32 0 e1 0 e0
  let e := andnot (vFEq f64 64 v 0#128) e
  addEpi 64 v (slliEpi 64 e 52)

/-- `ldexp` of AVX::double_v (/repo/Vc/avx/math.h:248-258). -/
def ldexpAvxD (avx2 : Bool) (v : M256) (e : M128) : M256 :=
  let e := andnot (castMask4 (vFEq f64 64 v 0#256)) e
  let exponentBits := concat128 (slliEpi 64 (unpacklo 32 e e) 52) (slliEpi 64 (unpackhi 32 e e) 52)
  avx2op avx2 (addEpi 64) (addEpi 64) v exponentBits

/-- `ldexp` of AVX::float_v (/repo/Vc/avx/math.h:259-276). -/
def ldexpAvxF (avx2 : Bool) (v e : M256) : M256 :=
  let e := andnot (vFEq f32 32 v 0#256) e
  let e := avx1 avx2 (slliEpi 32 · 23) (slliEpi 32 · 23) e
  concat128 (addEpi 32 (lo128 v) (lo128 e)) (addEpi 32 (hi128 v) (hi128 e))

/-! ### exponent -/

/-- `_mm256_cvtepi32_pd`. -/
def cvtepi32Pd256 (x : M128) : M256 := ofLanes 64 fun i => cvtI2F f64 64 (lane 32 x i)

/-- `exponent` of AVX::double_v (/repo/Vc/avx/vector.tcc:637-645). -/
def vExponentPdAvx (x : M256) : Option M256 := do
  let tmp0 := subEpi 32 (srliEpi 64 (lo128 x) 52) (set1 32 0x3ff#32)
  let tmp1 := subEpi 32 (srliEpi 64 (hi128 x) 52) (set1 32 0x3ff#32)
  return cvtepi32Pd256 (← memShuffle4 0 2 8 10 tmp0 tmp1)

/-- `exponent` of AVX::float_v (/repo/Vc/avx/vector.tcc:628-636). -/
def vExponentPsAvx (x : M256) : M256 :=
  let tmp0 := subEpi 32 (srliEpi 32 (lo128 x) 23) (set1 32 0x7f#32)
  let tmp1 := subEpi 32 (srliEpi 32 (hi128 x) 23) (set1 32 0x7f#32)
  cvtepi32PsN (concat128 tmp0 tmp1)

end Vc.Model
