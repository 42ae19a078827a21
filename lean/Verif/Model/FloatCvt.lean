import Verif.Model.FloatExp
import Verif.Model.FloatRound

/-!
Conversions between the floating-point and the integer vectors, and between float and double.

`zeroExtend` of the AVX code leaves the upper half of the register to the compiler
(/repo/Vc/avx/casts.h:79-87); a result of 128 bits stands for the lower half of such a register.
Not modelled: conversions from and to `Scalar` vectors, casts with an offset, `SimdArray` (C26).
-/

namespace Vc.Model

open Vc.Spec

/-! ### Instructions -/

/-- `cvtpd2ps`, `cvtps2pd`: one number in the other format.  A NaN keeps its sign and the upper bits of
the payload and becomes quiet. -/
def cvtF2F (F G : Fmt) {w : Nat} (v : Nat) (x : BitVec w) : BitVec v :=
  if isNaN F x then
    quiet G (mkFloat G v (fneg F x) (infMag G + fmag F x % 2 ^ F.m * 2 ^ G.m / 2 ^ F.m))
  else if isInf F x then mkFloat G v (fneg F x) (infMag G)
  else mkFloat G v (fneg F x) (roundMag G (magVal F (fmag F x) * 2 ^ oneExp G) (2 ^ oneExp F))

/-- `_mm_cvttps_epi32`, `_mm256_cvttps_epi32`. -/
def cvttps {n : Nat} (x : BitVec n) : BitVec n := map1 32 (cvttF2I f32) x

/-- `_mm_cvttpd_epi32`: two lanes, the upper half is zero. -/
def cvttpd (x : M128) : M128 := ofLanes 32 fun i => if i < 2 then cvttF2I f64 (lane 64 x i) else 0#32

/-- `_mm256_cvttpd_epi32`. -/
def cvttpd256 (x : M256) : M128 := ofLanes 32 fun i => cvttF2I f64 (lane 64 x i)

/-- `_mm_cvtpd_ps`: two lanes, the upper half is zero; `_mm256_cvtpd_ps`. -/
def cvtpdPs (x : M128) : M128 := ofLanes 32 fun i => if i < 2 then cvtF2F f64 f32 32 (lane 64 x i) else 0#32
def cvtpdPs256 (x : M256) : M128 := ofLanes 32 fun i => cvtF2F f64 f32 32 (lane 64 x i)

/-- `_mm_cvtps_pd`: the two low lanes; `_mm256_cvtps_pd`. -/
def cvtpsPd (x : M128) : M128 := ofLanes 64 fun i => cvtF2F f32 f64 64 (lane 32 x i)
def cvtpsPd256 (x : M128) : M256 := ofLanes 64 fun i => cvtF2F f32 f64 64 (lane 32 x i)

/-- `_mm256_shuffle_epi8`: every half separately. -/
def shuffleEpi8 (x c : M256) : M256 := ofLanes 8 fun i =>
  if (lane 8 c i).msb then 0#8 else lane 8 x (16 * (i / 16) + (lane 8 c i).toNat % 16)

/-- `_mm256_cvtepi16_epi32`, `_mm256_cvtepu16_epi32`. -/
def cvtepi16epi32Intr256 (x : M128) : M256 := ofLanes 32 fun i => (lane 16 x i).signExtend 32
def cvtepu16epi32Intr256 (x : M128) : M256 := ofLanes 32 fun i => (lane 16 x i).zeroExtend 32

/-- The patterns of 2^31 as float and double, `_mm_set1_ps(1u << 31)`, `_mm_set1_pd(0x80000000u)`. -/
def two31f : BitVec 32 := 0x4f000000#32
def two31d : BitVec 64 := 0x41e0000000000000#64

/-! ### SSE: to integers -/

/-- `convert<float, uint>` (/repo/Vc/sse/casts.h:85-92). -/
def cvtFloatUint (I : Isa) (v : M128) : M128 :=
  blendv I 32 (cvttps v)
    (cvttps (map2 32 (fSub f32) v (set1 32 two31f)) ^^^ set1 32 0x80000000#32)
    (map2 32 (fun a b => laneMask (fLe f32 b a)) v (set1 32 two31f))

/-- `_mm_cvtsi64_si128(0x8000000080000000ull)`. -/
def signs2 : M128 := setEpi32 0 0 0x80000000#32 0x80000000#32

/-- `convert<double, uint>` (/repo/Vc/sse/casts.h:93-103). -/
def cvtDoubleUint (I : Isa) (v : M128) : M128 :=
  if I.sse41 then
    cvttpd (map2 64 (fSub f64) (vRoundIntr f64 64 .down v) (set1 64 two31d)) ^^^ signs2
  else
    blendv I 8 (cvttpd v) (cvttpd (map2 64 (fSub f64) v (set1 64 two31d)) ^^^ signs2)
      (map2 64 (fun a b => laneMask (fLe f64 b a)) v (set1 64 two31d))

/-- `convert<float, short>`, `convert<double, short>` and the `simd_cast` of one vector
(/repo/Vc/sse/casts.h:129,134, /repo/Vc/sse/simd_cast.h:366-367). -/
def cvtFloatShort (v : M128) : M128 := packs 16 (cvttps v) 0#128
def cvtDoubleShort (v : M128) : M128 := packs 16 (cvttpd v) 0#128

/-- `convert<float, ushort>`, `convert<double, ushort>` (/repo/Vc/sse/casts.h:149,152); `simd_cast` of one
vector (/repo/Vc/sse/simd_cast.h:372-373) does the same steps. -/
def cvtFloatUshort (v : M128) : M128 := convertIntUshort (cvttps v)
def cvtDoubleUshort (v : M128) : M128 := convertIntUshort (cvttpd v)

/-- `simd_cast<int_v>(double_v, double_v)` (/repo/Vc/sse/simd_cast.h:376-382). -/
def cvtDoubleInt2 (avx : Bool) (x0 x1 : M128) : M128 :=
  if avx then cvttpd256 (concat128 x0 x1) else unpacklo 64 (cvttpd x0) (cvttpd x1)

/-- `AVX::convert<double, uint>` (/repo/Vc/avx/casts.h:165-170). -/
def cvtDoubleUintAvx (v : M256) : M128 :=
  cvttpd256 (map2 64 (fSub f64) (vRoundIntr f64 64 .down v) (set1 64 two31d)) ^^^ set1 32 0x80000000#32

/-- `simd_cast<uint_v>(double_v, double_v)` (/repo/Vc/sse/simd_cast.h:383-389). -/
def cvtDoubleUint2 (I : Isa) (avx : Bool) (x0 x1 : M128) : M128 :=
  if avx then cvtDoubleUintAvx (concat128 x0 x1) else unpacklo 64 (cvtDoubleUint I x0) (cvtDoubleUint I x1)

/-- `simd_cast<short_v>` and `simd_cast<ushort_v>` of two float_v and of two or four double_v
(/repo/Vc/sse/simd_cast.h:400-401,405-406,418-419). -/
def cvtFloatShort2 (x0 x1 : M128) : M128 := packs 16 (cvttps x0) (cvttps x1)
def cvtFloatUshort2 (x0 x1 : M128) : M128 := convertInt32ToInt16 (cvttps x0) (cvttps x1)
def cvtDoubleShort2 (avx : Bool) (x0 x1 : M128) : M128 := packs 16 (cvtDoubleInt2 avx x0 x1) 0#128
def cvtDoubleUshort2 (avx : Bool) (x0 x1 : M128) : M128 := convertInt32ToInt16 (cvtDoubleInt2 avx x0 x1) 0#128
def cvtDoubleShort4 (avx : Bool) (x0 x1 x2 x3 : M128) : M128 :=
  packs 16 (cvtDoubleInt2 avx x0 x1) (cvtDoubleInt2 avx x2 x3)
def cvtDoubleUshort4 (avx : Bool) (x0 x1 x2 x3 : M128) : M128 :=
  convertInt32ToInt16 (cvtDoubleInt2 avx x0 x1) (cvtDoubleInt2 avx x2 x3)

/-! ### SSE: to floating-point numbers -/

/-- `convert<int, float>`, `convert<int, double>` (/repo/Vc/sse/casts.h:110,125). -/
def cvtIntFloat (v : M128) : M128 := cvtepi32PsN v
def cvtIntDouble (v : M128) : M128 := cvtepi32Pd v

/-- `convert<uint, float>` (/repo/Vc/sse/casts.h:111-120). -/
def cvtUintFloat (I : Isa) (v : M128) : M128 :=
  blendv I 32 (cvtepi32PsN v)
    (map2 32 (fAdd f32) (cvtepi32PsN (v &&& set1 32 0x7ffffe00#32))
      (map2 32 (fAdd f32) (set1 32 two31f) (cvtepi32PsN (v &&& set1 32 0x000001ff#32))))
    (cmpltEpi 32 v 0#128)

/-- `convert<uint, double>` (/repo/Vc/sse/casts.h:126). -/
def cvtUintDouble (v : M128) : M128 :=
  map2 64 (fAdd f64) (cvtepi32Pd (v ^^^ setmin 32)) (set1 64 two31d)

/-- `convert<short, float>` .. `convert<ushort, double>` (/repo/Vc/sse/casts.h:121-122,127-128). -/
def cvtShortFloat (I : Isa) (v : M128) : M128 := cvtepi32PsN (convertShortInt I v)
def cvtUshortFloat (I : Isa) (v : M128) : M128 := cvtepi32PsN (convertUshortInt I v)
def cvtShortDouble (I : Isa) (v : M128) : M128 := cvtepi32Pd (convertShortInt I v)
def cvtUshortDouble (I : Isa) (v : M128) : M128 := cvtepi32Pd (convertUshortInt I v)

/-- `simd_cast<float_v>(double_v, double_v)` (/repo/Vc/sse/simd_cast.h:390-396). -/
def cvtDoubleFloat2 (avx : Bool) (x0 x1 : M128) : M128 :=
  if avx then cvtpdPs256 (concat128 x0 x1) else movelh (cvtpdPs x0) (cvtpdPs x1)

/-! ### AVX: to integers -/

/-- `AVX::convert<float, uint>` (/repo/Vc/avx/casts.h:157-164); the comparison depends on the compiler
(/repo/Vc/avx/intrinsics.h:160-198). -/
def cvtFloatUintAvx (avx2 : Bool) (B : CmpBuild) (v : M256) : M256 :=
  blendvIntr 32 (cvttps v)
    (avx2op avx2 (addEpi 32) (addEpi 32) (cvttps (map2 32 (fSub f32) v (set1 32 two31f))) (set1 32 0x80000000#32))
    (vFGe B f32 32 v (set1 32 two31f))

/-- `simd_cast<AVX2::uint_v>(AVX2::float_v)` (/repo/Vc/avx/simd_cast.h:1261-1268). -/
def simdCastFloatUintAvx2 (B : CmpBuild) (v : M256) : M256 :=
  blendvIntr 8 (cvttps v)
    (addEpi 32 (cvttps (map2 32 (fSub f32) v (set1 32 two31f))) (set1 32 0x80000000#32))
    (vFGe B f32 32 v (set1 32 two31f))

/-- The control bytes of `AVX::convert<int, short>` (/repo/Vc/avx/casts.h:246-250,
/repo/Vc/avx/simd_cast.h:1304-1306). -/
def shortBytes : M256 := setr 8 [0, 1, 4, 5, 8, 9, 12, 13, 128, 128, 128, 128, 128, 128, 128, 128,
  0, 1, 4, 5, 8, 9, 12, 13, 128, 128, 128, 128, 128, 128, 128, 128]

/-- `AVX::convert<int, ushort>`, `AVX::convert<uint, ushort>` (/repo/Vc/avx/casts.h:266-279). -/
def cvtIntUshortAvx (v : M256) : M128 :=
  let tmp0 := unpacklo 16 (lo128 v) (hi128 v)
  let tmp1 := unpackhi 16 (lo128 v) (hi128 v)
  let tmp2 := unpacklo 16 tmp0 tmp1
  let tmp3 := unpackhi 16 tmp0 tmp1
  unpacklo 16 tmp2 tmp3

/-- `AVX::convert<int, short>`, `AVX::convert<uint, short>` (/repo/Vc/avx/casts.h:243-260). -/
def cvtIntShortAvx (avx2 : Bool) (v : M256) : M128 :=
  if avx2 then lo128 (permute4x64Imm (shuffleEpi8 v shortBytes) 0xf8)
  else
    let tmp0 := unpacklo 16 (lo128 v) (hi128 v)
    let tmp1 := unpackhi 16 (lo128 v) (hi128 v)
    let tmp2 := unpacklo 16 tmp0 tmp1
    let tmp3 := unpackhi 16 tmp0 tmp1
    unpacklo 16 tmp2 tmp3

/-- `simd_cast<AVX2::short_v>` of two int_v or uint_v (/repo/Vc/avx/simd_cast.h:1303-1318). -/
def simdCastIntShort2 (x0 x1 : M256) : Option M256 :=
  let a := shuffleEpi8 x0 shortBytes
  let b := shuffleEpi8 x1 shortBytes
  permute4x64 0 2 1 3 (unpacklo256 64 a b)

/-- `simd_cast<AVX2::ushort_v>` of two int_v or uint_v (/repo/Vc/avx/simd_cast.h:1369-1382). -/
def simdCastIntUshort2 (x0 x1 : M256) : Option M256 :=
  let tmp0 := unpacklo256 16 x0 x1
  let tmp1 := unpackhi256 16 x0 x1
  let tmp2 := unpacklo256 16 tmp0 tmp1
  let tmp3 := unpackhi256 16 tmp0 tmp1
  permute4x64 0 2 1 3 (unpacklo256 16 tmp2 tmp3)

/-- `AVX::convert<float, short>`, `AVX::convert<double, short>` (/repo/Vc/avx/casts.h:262-263). -/
def cvtFloatShortAvx (avx2 : Bool) (v : M256) : M128 := cvtIntShortAvx avx2 (cvttps v)
def cvtDoubleShortAvx (v : M256) : M128 := convertIntShort (cvttpd256 v)

/-- `AVX::convert<float, ushort>`, `AVX::convert<double, ushort>` (/repo/Vc/avx/casts.h:280-281). -/
def cvtFloatUshortAvx (avx2 : Bool) (B : CmpBuild) (v : M256) : M128 := cvtIntUshortAvx (cvtFloatUintAvx avx2 B v)
def cvtDoubleUshortAvx (v : M256) : M128 := convertIntUshort (cvtDoubleUintAvx v)

/-- `simd_cast` of one AVX2::double_v or float_v to short_v and ushort_v (/repo/Vc/avx/simd_cast.h:1281-1285,
1344-1351). -/
def simdCastDoubleShort (x : M256) : M128 := packs 16 (cvttpd256 x) 0#128
def simdCastDoubleUshort (x : M256) : M128 := packus 16 (cvttpd256 x) 0#128
def simdCastFloatShort (x : M256) : M128 := packs 16 (lo128 (cvttps x)) (hi128 (cvttps x))
def simdCastFloatUshort (x : M256) : M128 := packus 16 (lo128 (cvttps x)) (hi128 (cvttps x))

/-- `simd_cast` of two and four AVX2::double_v and of two AVX2::float_v to short_v and ushort_v
(/repo/Vc/avx/simd_cast.h:1293-1302,1333-1339,1359-1368,1398-1404). -/
def simdCastDoubleShort2 (x0 x1 : M256) : M128 := packs 16 (cvttpd256 x0) (cvttpd256 x1)
def simdCastDoubleUshort2 (x0 x1 : M256) : M128 := packus 16 (cvttpd256 x0) (cvttpd256 x1)
def simdCastDoubleShort4 (x0 x1 x2 x3 : M256) : M256 :=
  concat128 (packs 16 (cvttpd256 x0) (cvttpd256 x1)) (packs 16 (cvttpd256 x2) (cvttpd256 x3))
def simdCastDoubleUshort4 (x0 x1 x2 x3 : M256) : M256 :=
  concat128 (packus 16 (cvttpd256 x0) (cvttpd256 x1)) (packus 16 (cvttpd256 x2) (cvttpd256 x3))
def simdCastFloatShort2 (x0 x1 : M256) : Option M256 := simdCastIntShort2 (cvttps x0) (cvttps x1)
def simdCastFloatUshort2 (x0 x1 : M256) : Option M256 := simdCastIntUshort2 (cvttps x0) (cvttps x1)

/-- `simd_cast<AVX2::int_v>`, `simd_cast<AVX2::uint_v>` and `simd_cast<AVX2::float_v>` of two AVX2::double_v
(/repo/Vc/avx/simd_cast.h:1242,1255,1276). -/
def simdCastDoubleInt2 (x0 x1 : M256) : M256 := concat128 (cvttpd256 x0) (cvttpd256 x1)
def simdCastDoubleUint2 (x0 x1 : M256) : M256 := concat128 (cvtDoubleUintAvx x0) (cvtDoubleUintAvx x1)
def simdCastDoubleFloat2 (x0 x1 : M256) : M256 := concat128 (cvtpdPs256 x0) (cvtpdPs256 x1)

/-! ### AVX: to floating-point numbers -/

/-- `AVX::convert<short, int>`, `AVX::convert<ushort, int>` (/repo/Vc/avx/casts.h:140-155). -/
def cvtShortIntAvx (avx2 : Bool) (v : M128) : M256 :=
  if avx2 then cvtepi16epi32Intr256 v
  else split1 (sraiEpi 32 · 16) (concat128 (unpacklo 16 v v) (unpackhi 16 v v))
def cvtUshortIntAvx (avx2 : Bool) (v : M128) : M256 :=
  if avx2 then cvtepu16epi32Intr256 v
  else split1 (srliEpi 32 · 16) (concat128 (unpacklo 16 v v) (unpackhi 16 v v))

/-- `AVX::convert<int, float>`, `AVX::convert<int, double>` (/repo/Vc/avx/casts.h:192,234). -/
def cvtIntFloatAvx (v : M256) : M256 := cvtepi32PsN v
def cvtIntDoubleAvx (v : M128) : M256 := cvtepi32Pd256 v

/-- `AVX::convert<uint, float>` (/repo/Vc/avx/casts.h:193-228); `cmplt_epi32` is `cmpgt_epi32` with exchanged
operands (/repo/Vc/avx/intrinsics.h:444-446). -/
def cvtUintFloatAvx (avx2 : Bool) (v : M256) : M256 :=
  blendvIntr 32 (cvtepi32PsN v)
    (map2 32 (fAdd f32) (cvtepi32PsN (v &&& set1 32 0x7ffffe00#32))
      (map2 32 (fAdd f32) (set1 32 two31f) (cvtepi32PsN (v &&& set1 32 0x000001ff#32))))
    (avx2op avx2 (cmpgtEpi 32) (cmpgtEpi 32) 0#256 v)

/-- `AVX::convert<uint, double>` (/repo/Vc/avx/casts.h:235-239). -/
def cvtUintDoubleAvx (v : M128) : M256 :=
  map2 64 (fAdd f64) (cvtepi32Pd256 (v ^^^ set1 32 0x80000000#32)) (set1 64 two31d)

/-- `simd_cast<AVX2::double_v>(SSE::uint_v)` (/repo/Vc/avx/simd_cast.h:1411). -/
def simdCastUintDouble (v : M128) : M256 :=
  map2 64 (fAdd f64) (cvtepi32Pd256 (subEpi 32 v (set1 32 0x80000000#32))) (set1 64 two31d)

/-- `AVX::convert<short, float>` .. `AVX::convert<ushort, double>` (/repo/Vc/avx/casts.h:229-230,240-241); to
double via the conversion to SSE::int_v. -/
def cvtShortFloatAvx (avx2 : Bool) (v : M128) : M256 := cvtepi32PsN (cvtShortIntAvx avx2 v)
def cvtUshortFloatAvx (avx2 : Bool) (v : M128) : M256 := cvtepi32PsN (cvtUshortIntAvx avx2 v)
def cvtShortDoubleAvx (I : Isa) (v : M128) : M256 := cvtepi32Pd256 (convertShortInt I v)
def cvtUshortDoubleAvx (I : Isa) (v : M128) : M256 := cvtepi32Pd256 (convertUshortInt I v)

end Vc.Model
