import Verif.Model.FloatCvt
import Verif.Model.AvxCast

/-!
`simd_cast` with an offset between vectors of integers and floating-point numbers: one group of entries is moved
to the front of the register, and the cast without offset follows.  SSE to SSE is `simdCastOffset`.
-/

namespace Vc.Model

/-- `simd_cast<Return, offset>(AVX2::Vector)` with an AVX2 result; `conv` is the cast without offset, `v` the width
of the source entries in bits, `size` is `Return::Size` (/repo/Vc/avx/simd_cast.h:2555-2583). -/
def avxCastOffset (u : M128) (conv : M256 → M256) (v offset size : Nat) (x : M256) : Option M256 :=
  (avxOffsetMove u v offset size x).map conv

/-- The same with an SSE result (/repo/Vc/avx/simd_cast.h:2584-2604). -/
def sseFromAvxOffset (conv : M128 → M128) (v offset size : Nat) (x : M256) : Option M128 :=
  (sseOffsetMove v offset size x).map conv

/-- `simd_cast<AVX2::double_v>` and `simd_cast<AVX2::float_v>` of AVX2 vectors with more entries: the conversion of
the lower half (/repo/Vc/avx/simd_cast.h:1224-1229,1237-1238). -/
def acShortFloat (x : M256) : M256 := cvtShortFloatAvx true (lo128 x)
def acUshortFloat (x : M256) : M256 := cvtUshortFloatAvx true (lo128 x)
def acShortDouble (I : Isa) (x : M256) : M256 := cvtShortDoubleAvx I (lo128 x)
def acUshortDouble (I : Isa) (x : M256) : M256 := cvtUshortDoubleAvx I (lo128 x)
def acIntDouble (x : M256) : M256 := cvtIntDoubleAvx (lo128 x)
def acUintDouble (x : M256) : M256 := cvtUintDoubleAvx (lo128 x)
def acFloatDouble (x : M256) : M256 := cvtpsPd256 (lo128 x)

/-- `simd_cast<AVX2::double_v, 1>` of SSE::short_v and SSE::ushort_v (/repo/Vc/avx/simd_cast.h:2619-2620); the
cast of SSE::int_v to AVX2::double_v is `_mm256_cvtepi32_pd` (/repo/Vc/avx/simd_cast.h:1410). -/
def sseShortDoubleOffset (I : Isa) (x : M128) : Option M256 :=
  (simdCastOffset (convertShortInt I) 16 1 4 x).map cvtIntDoubleAvx
def sseUshortDoubleOffset (I : Isa) (x : M128) : Option M256 :=
  (simdCastOffset (convertUshortInt I) 16 1 4 x).map cvtIntDoubleAvx

end Vc.Model
