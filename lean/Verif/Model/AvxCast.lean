import Verif.Model.FloatCvt
import Verif.Model.AvxMask

/-!
`simd_cast` between the integer vectors of AVX2 and between AVX2 and SSE (/repo/Vc/avx/simd_cast.h).

The vectors `int_v`, `uint_v`, `short_v` and `ushort_v` are given by the entry width (`v` source, `w` target)
and by their signedness (`ss` source, `ds` target).  `none`: there is no such overload.  `ext` is the upper half
left undefined by `zeroExtend` (see `Vc.Model.zeroExtend`), `u` the upper half left undefined by `avx_cast`.
-/

namespace Vc.Model

/-- 1 AVX2 vector to 1 AVX2 vector (/repo/Vc/avx/simd_cast.h:1248-1250, 1269-1271, 1286-1288, 1352-1354). -/
def aiCast (ext : Option M128) (v w : Nat) (ss ds : Bool) (x : M256) : Option M256 :=
  if v = w then some x
  else if v = 16 ∧ w = 32 then
    some (if ss then cvtepi16epi32Intr256 (lo128 x) else cvtepu16epi32Intr256 (lo128 x))
  else if v = 32 ∧ w = 16 then
    some (zeroExtend ext (if ds then cvtIntShortAvx true x else cvtIntUshortAvx x))
  else none

/-- 2 AVX2 vectors to 1 AVX2 vector: int_v / uint_v to short_v (/repo/Vc/avx/simd_cast.h:1303-1318) and to
ushort_v (1369-1382). -/
def aiCast2 (ds : Bool) (x0 x1 : M256) : Option M256 :=
  if ds then simdCastIntShort2 x0 x1 else simdCastIntUshort2 x0 x1

/-- 1 SSE vector to 1 AVX2 vector (/repo/Vc/avx/simd_cast.h:1433-1451). -/
def aiFromSse (ext : Option M128) (v w : Nat) (ss : Bool) (x : M128) : Option M256 :=
  if v = w then some (zeroExtend ext x)
  else if v = 16 ∧ w = 32 then some (if ss then cvtShortIntAvx true x else cvtUshortIntAvx true x)
  else if v = 32 ∧ w = 16 then some (zeroExtend ext (convertInt32ToInt16 x 0#128))
  else none

/-- 2 SSE vectors to 1 AVX2 vector (/repo/Vc/avx/simd_cast.h:1473-1487). -/
def aiFromSse2 (ext : Option M128) (v w : Nat) (x0 x1 : M128) : Option M256 :=
  if v = w then some (concat128 x0 x1)
  else if v = 32 ∧ w = 16 then some (zeroExtend ext (convertInt32ToInt16 x0 x1))
  else none

/-- 3 SSE vectors of int or uint to 1 AVX2 vector of short or ushort (/repo/Vc/avx/simd_cast.h:1501-1505). -/
def aiFromSse3 (ext : Option M128) (ds : Bool) (x0 x1 x2 : M128) : Option M256 :=
  aiCast2 ds (concat128 x0 x1) (zeroExtend ext x2)

/-- 4 SSE vectors of int or uint to 1 AVX2 vector of short or ushort (/repo/Vc/avx/simd_cast.h:1520-1524). -/
def aiFromSse4 (ds : Bool) (x0 x1 x2 x3 : M128) : Option M256 :=
  aiCast2 ds (concat128 x0 x1) (concat128 x2 x3)

/-- 1 AVX2 vector to 1 SSE vector (/repo/Vc/avx/simd_cast.h:1555-1558, 1576-1597).  short to ushort and back is
the identity of SSE (/repo/Vc/sse/simd_cast.h). -/
def aiToSse (I : Isa) (v w : Nat) (ss ds : Bool) (x : M256) : Option M128 :=
  if v = w then some (lo128 x)
  else if v = 16 ∧ w = 32 then
    some (if ss then convertShortInt I (lo128 x) else convertUshortInt I (lo128 x))
  else if v = 32 ∧ w = 16 then some (if ds then cvtIntShortAvx true x else cvtIntUshortAvx x)
  else none

/-- The vector whose first entries `simd_cast<Return, offset>` converts, AVX2 to AVX2; `size` is `Return::Size`,
`v` the width of the source entries.  `none`: the static assertion fails, or `offset` is 0
(/repo/Vc/avx/simd_cast.h:2554-2583). -/
def avxOffsetMove (u : M128) (v offset size : Nat) (x : M256) : Option M256 :=
  let shift := v / 8 * offset * size
  if 0 < shift ∧ shift < 32 then
    some (if shift < 16 then castTo256 u (srliSi128 (lo128 x) shift)
      else if shift = 16 then memPermute128 (some 1) none x
      else castTo256 u (srliSi128 (hi128 x) (shift - 16)))
  else none

/-- The same for AVX2 to SSE (/repo/Vc/avx/simd_cast.h:2584-2604). -/
def sseOffsetMove (v offset size : Nat) (x : M256) : Option M128 :=
  let shift := v / 8 * offset * size
  if 0 < shift ∧ shift < 32 then
    some (if shift = 16 then hi128 x else alignrEpi8 (hi128 x) (lo128 x) shift)
  else none

/-- `simd_cast<AVX2::int_v, 1>(AVX2::short_v)` and the like; `Return::Size` is `256 / w`. -/
def aiCastOffset (ext : Option M128) (u : M128) (v w : Nat) (ss ds : Bool) (offset : Nat) (x : M256) :
    Option M256 := do
  aiCast ext v w ss ds (← avxOffsetMove u v offset (256 / w) x)

/-- `simd_cast` of the SSE vectors of integers, one argument (/repo/Vc/sse/simd_cast.h:329-331, 335-337,
364-371, 398-404). -/
def sseCastInt (I : Isa) (v w : Nat) (ss : Bool) (x : M128) : Option M128 :=
  if v = w then some x
  else if v = 16 ∧ w = 32 then some (if ss then convertShortInt I x else convertUshortInt I x)
  else if v = 32 ∧ w = 16 then some (convertInt32ToInt16 x 0#128)
  else none

/-- `simd_cast<SSE::int_v, 3>(AVX2::short_v)` and the like; `Return::Size` is `128 / w`. -/
def aiToSseOffset (I : Isa) (v w : Nat) (ss : Bool) (offset : Nat) (x : M256) : Option M128 := do
  sseCastInt I v w ss (← sseOffsetMove v offset (128 / w) x)

end Vc.Model
