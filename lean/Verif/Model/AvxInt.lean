import Verif.Model.Masked
import Verif.Model.AvxMask
import Verif.Model.AvxShuffle
import Verif.Model.SseReduce
import Verif.Model.FloatOps

/-!
Integer operations, reductions, `partialSum()`, `minIndex()` and `maxIndex()` of the AVX vectors.

`avx2 = false` is the form the helper functions have without AVX2, where they work on the two halves; the
integer vectors themselves exist with AVX2.  `xop` stands for `Vc_IMPL_XOP`.
-/

namespace Vc.Model

open Vc.Spec

/-! ### Comparisons, minimum and maximum of two vectors, minus, absolute value -/

/-- `AVX::cmpeq_epi16`, `AVX::cmpeq_epi32` (/repo/Vc/avx/intrinsics.h:310-371). -/
def aCmpeq (avx2 : Bool) (w : Nat) : M256 → M256 → M256 := avx2op avx2 (cmpeqEpi w) (cmpeqEpi w)

/-- `AVX::cmpgt_epi16`, `AVX::cmpgt_epi32` (/repo/Vc/avx/intrinsics.h:310-371). -/
def aCmpgt (avx2 : Bool) (w : Nat) : M256 → M256 → M256 := avx2op avx2 (cmpgtEpi w) (cmpgtEpi w)

/-- `AVX::cmplt_epi16`, `AVX::cmplt_epi32` (/repo/Vc/avx/intrinsics.h:441-452). -/
def aCmplt (avx2 : Bool) (w : Nat) (a b : M256) : M256 := aCmpgt avx2 w b a

/-- `setmin_epi16`, `setmin_epi32` of the AVX implementation (/repo/Vc/avx/intrinsics.h:131-136). -/
def setmin256 (w : Nat) : M256 := set1 w (signBit w)

/-- `_mm_comgt_epu16`, `_mm_comgt_epu32` (XOP). -/
def comgtEpu (w : Nat) : M128 → M128 → M128 := map2 w fun a b => laneMask (decide (b.toNat < a.toNat))

/-- `_mm_comlt_epu16`, `_mm_comlt_epu32` (XOP). -/
def comltEpu (w : Nat) : M128 → M128 → M128 := map2 w fun a b => laneMask (decide (a.toNat < b.toNat))

/-- `AVX::cmpgt_epu16`, `AVX::cmpgt_epu32` (/repo/Vc/avx/intrinsics.h:457-490). -/
def aCmpgtU (avx2 xop : Bool) (w : Nat) (a b : M256) : M256 :=
  if xop then split2 (comgtEpu w) a b else aCmpgt avx2 w (a ^^^ setmin256 w) (b ^^^ setmin256 w)

/-- `AVX::cmplt_epu16`, `AVX::cmplt_epu32` (/repo/Vc/avx/intrinsics.h:457-490). -/
def aCmpltU (avx2 xop : Bool) (w : Nat) (a b : M256) : M256 :=
  if xop then split2 (comltEpu w) a b else aCmplt avx2 w (a ^^^ setmin256 w) (b ^^^ setmin256 w)

/-- `Detail::not_` (/repo/Vc/avx/detail.h:674-677). -/
def aNot (a : M256) : M256 := andnot a (BitVec.allOnes 256)

/-- `==`, `!=`, `>=`, `<=`, `>`, `<` of the integer vectors (/repo/Vc/avx/vector.tcc:55-78). -/
def aEq (avx2 : Bool) (w : Nat) (a b : M256) : M256 := aCmpeq avx2 w a b
def aNe (avx2 : Bool) (w : Nat) (a b : M256) : M256 := aNot (aCmpeq avx2 w a b)
def aLt (avx2 xop sgn : Bool) (w : Nat) (a b : M256) : M256 :=
  if sgn then aCmplt avx2 w a b else aCmpltU avx2 xop w a b
def aGt (avx2 xop sgn : Bool) (w : Nat) (a b : M256) : M256 :=
  if sgn then aCmpgt avx2 w a b else aCmpgtU avx2 xop w a b
def aGe (avx2 xop sgn : Bool) (w : Nat) (a b : M256) : M256 := aNot (aLt avx2 xop sgn w a b)
def aLe (avx2 xop sgn : Bool) (w : Nat) (a b : M256) : M256 := aNot (aGt avx2 xop sgn w a b)

/-- `min(x, y)` of the integer vectors (/repo/Vc/avx/math.h:39-42). -/
def aMin (sgn : Bool) (w : Nat) (a b : M256) : M256 := if sgn then minEpi w a b else minEpu w a b

/-- `max(x, y)` of the integer vectors (/repo/Vc/avx/math.h:43-46). -/
def aMax (sgn : Bool) (w : Nat) (a b : M256) : M256 := if sgn then maxEpi w a b else maxEpu w a b

/-- Unary minus of the integer vectors (/repo/Vc/avx/vector.tcc:486-491, /repo/Vc/avx/detail.h:615-622). -/
def aNeg (avx2 : Bool) (w : Nat) (a : M256) : M256 :=
  avx2op avx2 (signEpiIntr w) (signEpiIntr w) a (BitVec.allOnes 256)

/-- `Detail::abs` of the integer vectors (/repo/Vc/avx/detail.h:686-692). -/
def aAbs (avx2 sgn : Bool) (w : Nat) (a : M256) : M256 :=
  if sgn then avx1 avx2 (absEpiIntr w) (absEpiIntr w) a else a

/-! ### Reductions -/

/-- `Detail::add`, `Detail::mul` of one `__m128i` (/repo/Vc/sse/detail.h:629-641, 662-674). -/
def hFold (w : Nat) (op : M128 → M128 → M128) (a : M128) : BitVec w :=
  let a := op a (srliSi128 a 8)
  let a := op a (srliSi128 a 4)
  if w = 32 then lane w a 0
  else lane w (op a (srliSi128 a 2)) 0

/-- `sum()` of the integer vectors: first the halves (/repo/Vc/avx/vector.h:423,
/repo/Vc/avx/detail.h:761-764). -/
def aHSum (w : Nat) (a : M256) : BitVec w := hFold w (addEpi w) (addEpi w (lo128 a) (hi128 a))

/-- `product()` of the integer vectors (/repo/Vc/avx/vector.h:422, /repo/Vc/avx/detail.h:767-770,
/repo/Vc/sse/detail.h:547-562). -/
def aHProduct (I : Isa) (w : Nat) (a : M256) : BitVec w := hFold w (vMul I w) (vMul I w (lo128 a) (hi128 a))

/-- `min()` of the integer vectors (/repo/Vc/avx/vector.h:420, /repo/Vc/avx/detail.h:773-776,
/repo/Vc/sse/detail.h:600-608, 693-714). -/
def aHMin (I : Isa) (sgn : Bool) (w : Nat) (a : M256) : BitVec w :=
  hReduce w (vMin I sgn w) (vMin I sgn w (lo128 a) (hi128 a))

/-- `max()` of the integer vectors (/repo/Vc/avx/vector.h:421, /repo/Vc/avx/detail.h:779-782,
/repo/Vc/sse/detail.h:610-618, 738-759). -/
def aHMax (I : Isa) (sgn : Bool) (w : Nat) (a : M256) : BitVec w :=
  hReduce w (vMax I sgn w) (vMax I sgn w (lo128 a) (hi128 a))

/-- `min()`, `max()`, `sum()`, `product()` of float_v (/repo/Vc/avx/detail.h:761-782,
/repo/Vc/sse/detail.h:621-625, 653-657, 684-688, 729-733). -/
def aHReducePs (op : BitVec 32 → BitVec 32 → BitVec 32) (a : M256) : BitVec 32 :=
  hReducePs op (map2 32 op (lo128 a) (hi128 a))

/-- `min()`, `max()`, `sum()`, `product()` of double_v (/repo/Vc/avx/detail.h:761-782,
/repo/Vc/sse/detail.h:626-629, 658-661, 689-692, 734-737). -/
def aHReducePd (op : BitVec 64 → BitVec 64 → BitVec 64) (a : M256) : BitVec 64 :=
  hReducePd op (map2 64 op (lo128 a) (hi128 a))

/-- `numeric_limits<V>::max()` and `min()` of the integer vectors (/repo/Vc/avx/limits.h:78-81). -/
def aLimitMax (sgn : Bool) (w : Nat) : M256 :=
  if sgn then srliEpi w (BitVec.allOnes 256) 1 else BitVec.allOnes 256
def aLimitMin (sgn : Bool) (w : Nat) : M256 := if sgn then setmin256 w else 0#256

/-- `min(m)`, `max(m)`, `product(m)`, `sum(m)` of the integer vectors (/repo/Vc/avx/vector.tcc:601-624). -/
def aHMinMasked (I : Isa) (avx2 sgn : Bool) (w : Nat) (x m : M256) : BitVec w :=
  aHMin I sgn w (avxAssign avx2 8 (aLimitMax sgn w) x m)
def aHMaxMasked (I : Isa) (avx2 sgn : Bool) (w : Nat) (x m : M256) : BitVec w :=
  aHMax I sgn w (avxAssign avx2 8 (aLimitMin sgn w) x m)
def aHProductMasked (I : Isa) (avx2 : Bool) (w : Nat) (x m : M256) : BitVec w :=
  aHProduct I w (avxAssign avx2 8 (set1 w 1#w) x m)
def aHSumMasked (avx2 : Bool) (w : Nat) (x m : M256) : BitVec w :=
  aHSum w (avxAssign avx2 8 0#256 x m)

/-- `numeric_limits<float_v>::max()`, `min()`: as for the SSE vectors, `fLimitMax`
(/repo/Vc/limits:38-52; /repo/Vc/avx/limits.h has none for float and double). -/
def aFLimitMax (F : Fmt) (w : Nat) (included : Bool) : M256 :=
  if included then set1 w (mkFloat F w false (infMag F - 1)) else 0#256
def aFLimitMin (F : Fmt) (w : Nat) (included : Bool) : M256 :=
  if included then set1 w (mkFloat F w false (2 ^ F.m)) else 0#256

/-- `min(m)`, `max(m)` of float_v and double_v (/repo/Vc/avx/vector.tcc:601-612). -/
def aMinMaskedPs (included : Bool) (x m : M256) : BitVec 32 :=
  aHReducePs (fMin f32) (avxAssign true 32 (aFLimitMax f32 32 included) x m)
def aMaxMaskedPs (included : Bool) (x m : M256) : BitVec 32 :=
  aHReducePs (fMax f32) (avxAssign true 32 (aFLimitMin f32 32 included) x m)
def aMinMaskedPd (included : Bool) (x m : M256) : BitVec 64 :=
  aHReducePd (fMin f64) (avxAssign true 64 (aFLimitMax f64 64 included) x m)
def aMaxMaskedPd (included : Bool) (x m : M256) : BitVec 64 :=
  aHReducePd (fMax f64) (avxAssign true 64 (aFLimitMin f64 64 included) x m)

/-- `partialSum()` (/repo/Vc/avx/vector.tcc:567-580); `ext` and `u` as in `avxShifted`. -/
def aPartialSum (ext : Option M128) (u : M128) (bytes size : Nat) (add : M256 → M256 → M256) (x : M256) : M256 :=
  let tmp := x
  let tmp := if 1 < size then add tmp (avxShifted ext u bytes tmp (-1)) else tmp
  let tmp := if 2 < size then add tmp (avxShifted ext u bytes tmp (-2)) else tmp
  let tmp := if 4 < size then add tmp (avxShifted ext u bytes tmp (-4)) else tmp
  let tmp := if 8 < size then add tmp (avxShifted ext u bytes tmp (-8)) else tmp
  if 16 < size then add tmp (avxShifted ext u bytes tmp (-16)) else tmp

/-! ### Position of the minimum and maximum -/

/-- `minIndex()`, `maxIndex()` (/repo/Vc/avx/vector.tcc:497-510), with the result of `min()` or `max()`
and the comparison `==`.  The second result is `none` if `firstOne` is called for an empty mask. -/
def aIndexOf (avx2 : Bool) (w : Nat) (eq : M256 → M256 → M256) (v : M256) (m : BitVec w) : M256 × Option Nat :=
  let x : M256 := set1 w m
  (x, amFirstOne avx2 (256 / w) (eq v x))

/-- `minIndex()` and `maxIndex()` of the integer vectors. -/
def aMinIndex (I : Isa) (avx2 sgn : Bool) (w : Nat) (v : M256) : M256 × Option Nat :=
  aIndexOf avx2 w (aEq avx2 w) v (aHMin I sgn w v)
def aMaxIndex (I : Isa) (avx2 sgn : Bool) (w : Nat) (v : M256) : M256 × Option Nat :=
  aIndexOf avx2 w (aEq avx2 w) v (aHMax I sgn w v)

/-- `minIndex()` of double_v, `maxIndex()` of double_v and float_v. -/
def aMinIndexPd (avx2 : Bool) (v : M256) : M256 × Option Nat :=
  aIndexOf avx2 64 (vFEq f64 64) v (aHReducePd (fMin f64) v)
def aMaxIndexPd (avx2 : Bool) (v : M256) : M256 × Option Nat :=
  aIndexOf avx2 64 (vFEq f64 64) v (aHReducePd (fMax f64) v)
def aMaxIndexPs (avx2 : Bool) (v : M256) : M256 × Option Nat :=
  aIndexOf avx2 32 (vFEq f32 32) v (aHReducePs (fMax f32) v)

/-- `float_v::IndexesFromZero()`: the numbers 0 to 7 as `int`, converted
(/repo/Vc/avx/vector.tcc:254-258, /repo/Vc/avx/const.h:41-43). -/
def aIndexesPs : M256 := cvtepi32PsN (ofLanes 32 fun i => BitVec.ofNat 32 i)

/-- One step of `minIndex()` of float_v: values and indexes from `x` where it is less than `y`. -/
def aMinStep (p : M256 → M256) (s : M256 × M256) : M256 × M256 :=
  let y := p s.1
  let idy := p s.2
  let less := vFLt f32 32 s.1 y
  (blendvIntr 32 y s.1 less, blendvIntr 32 idy s.2 less)

/-- `Reg::permute<Dst3, Dst2, Dst1, Dst0>(__m256)` (/repo/Vc/avx/shuffle.h:280-284), without the static
assertions. -/
def regPermutePs256 (d3 d2 d1 d0 : Nat) (x : M256) : M256 := permutePs256 x (d0 + d1 * 4 + d2 * 16 + d3 * 64)

/-- `minIndex()` of float_v (/repo/Vc/avx/vector.tcc:511-566).  The index is the low 32 bits of the
register of indexes. -/
def aMinIndexPs (v : M256) : M256 × BitVec 32 :=
  let s := (v, aIndexesPs)
  let s := aMinStep (memPermute128 (some 1) (some 0)) s
  let s := aMinStep (regPermutePs256 2 3 0 1) s
  let s := aMinStep (regPermutePs256 1 0 3 2) s
  (s.1, lane 32 s.2 0)

end Vc.Model
