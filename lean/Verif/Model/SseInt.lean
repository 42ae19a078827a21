import Verif.Model.Reg

/-!
Integer operations of the SSE vectors: the comparison operators, the minimum / maximum helpers, the
sign-extension helpers, negation, absolute value and multiplication, each in the version for every
instruction set the library can be compiled for.
-/

namespace Vc.Model

/-- Which instruction set extensions the library is compiled for: the macros `Vc_IMPL_SSSE3`,
`Vc_IMPL_SSE4_1`, `Vc_IMPL_SSE4_2` and `Vc_IMPL_POPCNT` (/repo/Vc/global.h:228-381).
Not modelled: `Vc_IMPL_XOP`, `Vc_IMPL_FMA4`. -/
structure Isa where
  ssse3 : Bool
  sse41 : Bool
  sse42 : Bool
  popcnt : Bool

/-- The lane value with only the sign bit set. -/
def signBit (w : Nat) : BitVec w := BitVec.ofNat w (2 ^ (w - 1))

/-- `setmin_epi8`, `setmin_epi16`, `setmin_epi32`: the sign bit in every lane
(/repo/Vc/sse/intrinsics.h:94-96, /repo/src/const.cpp:274-276). -/
def setmin (w : Nat) : M128 := set1 w (signBit w)

/-- `cmpgt_epu8`, `cmpgt_epu16`, `cmpgt_epu32` without XOP (/repo/Vc/sse/intrinsics.h:106-130). -/
def cmpgtEpu (w : Nat) (a b : M128) : M128 := cmpgtEpi w (a ^^^ setmin w) (b ^^^ setmin w)

/-- `cmplt_epu16`, `cmplt_epu32` without XOP (/repo/Vc/sse/intrinsics.h:111-125). -/
def cmpltEpu (w : Nat) (a b : M128) : M128 := cmpltEpi w (a ^^^ setmin w) (b ^^^ setmin w)

/-- `cmpgt_epi64` (/repo/Vc/sse/intrinsics.h:131-156). -/
def cmpgtEpi64 (I : Isa) (a b : M128) : M128 :=
  if I.sse42 then cmpgtEpi 64 a b
  else
    let aa := a ^^^ srliEpi 64 (setmin 32) 32
    let bb := b ^^^ srliEpi 64 (setmin 32) 32
    let gt := cmpgtEpi 32 aa bb
    let eq := cmpeqEpi 32 aa bb
    let gt2 := shuffleEpi32 gt 0xf5
    let lo := shuffleEpi32 (srliEpi 64 eq 32 &&& gt) 0xa0
    gt2 ||| lo

/-- `cmpeq_epi64` (/repo/Vc/sse/intrinsics.h:252-255 and 348-351). -/
def cmpeqEpi64 (I : Isa) (a b : M128) : M128 :=
  if I.sse41 then cmpeqEpi 64 a b
  else
    let tmp := cmpeqEpi 32 a b
    tmp &&& shuffleEpi32 tmp (1 * 1 + 0 * 4 + 3 * 16 + 2 * 64)

/-- `blendv_epi8`, `blendv_ps` and `blendv_pd` (/repo/Vc/sse/intrinsics.h:260-271 and 361-385); `w`
is the width on which the SSE4.1 instruction looks at the mask.  The emulation selects bit by bit. -/
def blendv (I : Isa) (w : Nat) (a b c : M128) : M128 :=
  if I.sse41 then blendvIntr w a b c else andnot c a ||| (c &&& b)

/-- `max_epi8`, `max_epi32` (/repo/Vc/sse/intrinsics.h:284-291 and 524-529) and the intrinsic
`_mm_max_epi16`. -/
def vmaxEpi (I : Isa) (w : Nat) (a b : M128) : M128 :=
  if I.sse41 || w == 16 then maxEpi w a b else blendv I 8 b a (cmpgtEpi w a b)

/-- `min_epi8`, `min_epi32` (/repo/Vc/sse/intrinsics.h:308-315 and 542-547) and the intrinsic
`_mm_min_epi16`. -/
def vminEpi (I : Isa) (w : Nat) (a b : M128) : M128 :=
  if I.sse41 || w == 16 then minEpi w a b else blendv I 8 a b (cmpgtEpi w a b)

/-- `max_epu16`, `max_epu32` (/repo/Vc/sse/intrinsics.h:292-299 and 530-535) and the intrinsic
`_mm_max_epu8`. -/
def vmaxEpu (I : Isa) (w : Nat) (a b : M128) : M128 :=
  if I.sse41 || w == 8 then maxEpu w a b else blendv I 8 b a (cmpgtEpu w a b)

/-- `min_epu16`, `min_epu32` (/repo/Vc/sse/intrinsics.h:300-307 and 536-541) and the intrinsic
`_mm_min_epu8`. -/
def vminEpu (I : Isa) (w : Nat) (a b : M128) : M128 :=
  if I.sse41 || w == 8 then minEpu w a b else blendv I 8 a b (cmpgtEpu w a b)

/-- `Detail::not_` and `Mask::operator!` (/repo/Vc/sse/detail.h:521-524, /repo/Vc/sse/mask.h:150-157). -/
def vnot (a : M128) : M128 := andnot a (BitVec.allOnes 128)

/-- `operator==` of the integer vectors (/repo/Vc/sse/vector.tcc:44-47). -/
def vEq (w : Nat) (a b : M128) : M128 := cmpeqEpi w a b

/-- `operator!=` of the integer vectors (/repo/Vc/sse/vector.tcc:51-54). -/
def vNe (w : Nat) (a b : M128) : M128 := vnot (cmpeqEpi w a b)

/-- `operator>` of int_v, short_v (`sgn`), uint_v, ushort_v (/repo/Vc/sse/vector.tcc:58-73). -/
def vGt (sgn : Bool) (w : Nat) (a b : M128) : M128 := if sgn then cmpgtEpi w a b else cmpgtEpu w a b

/-- `operator<` of int_v, short_v, uint_v, ushort_v (/repo/Vc/sse/vector.tcc:77-92). -/
def vLt (sgn : Bool) (w : Nat) (a b : M128) : M128 := if sgn then cmpltEpi w a b else cmpltEpu w a b

/-- `operator>=` of the integer vectors (/repo/Vc/sse/vector.tcc:96-99). -/
def vGe (sgn : Bool) (w : Nat) (a b : M128) : M128 := vnot (vLt sgn w a b)

/-- `operator<=` of the integer vectors (/repo/Vc/sse/vector.tcc:103-106). -/
def vLe (sgn : Bool) (w : Nat) (a b : M128) : M128 := vnot (vGt sgn w a b)

/-- `Detail::min` of two vectors (/repo/Vc/sse/detail.h:600-608). -/
def vMin (I : Isa) (sgn : Bool) (w : Nat) (a b : M128) : M128 :=
  if sgn then vminEpi I w a b else vminEpu I w a b

/-- `Detail::max` of two vectors (/repo/Vc/sse/detail.h:610-618). -/
def vMax (I : Isa) (sgn : Bool) (w : Nat) (a b : M128) : M128 :=
  if sgn then vmaxEpi I w a b else vmaxEpu I w a b

/-- `Detail::mul` for int and uint (/repo/Vc/sse/detail.h:549-560) and
`VectorHelper<int>::mul` (/repo/Vc/sse/vectorhelper.h:343-359 and 407-409); for short and ushort it is
`_mm_mullo_epi16` (/repo/Vc/sse/detail.h:561-562). -/
def vMul (I : Isa) (w : Nat) (a b : M128) : M128 :=
  if I.sse41 || w == 16 then mulloEpi w a b
  else
    let aShift := srliSi128 a 4
    let ab02 := mulEpu32 a b
    let bShift := srliSi128 b 4
    let ab13 := mulEpu32 aShift bShift
    unpacklo 32 (shuffleEpi32 ab02 8) (shuffleEpi32 ab13 8)

/-- `_mm_abs_epiN` (SSSE3). -/
def absEpiIntr {n : Nat} (w : Nat) (a : BitVec n) : BitVec n := map1 w (fun x => if x.toInt < 0 then -x else x) a

/-- `abs_epi8`, `abs_epi16`, `abs_epi32` (/repo/Vc/sse/intrinsics.h:166-168 and 182-203). -/
def vAbs (I : Isa) (w : Nat) (a : M128) : M128 :=
  if I.ssse3 then absEpiIntr w a
  else
    let negative := cmpltEpi w a 0#128
    addEpi w (a ^^^ negative)
      (if w == 8 then negative &&& set1 8 1#8 else srliEpi w negative (w - 1))

/-- `_mm_sign_epiN(a, b)` (SSSE3). -/
def signEpiIntr {n : Nat} (w : Nat) (a b : BitVec n) : BitVec n :=
  map2 w (fun x y => if y.toInt < 0 then -x else if y = 0#w then 0#w else x) a b

/-- `Detail::negate` of integer vectors (/repo/Vc/sse/detail.h:484-499). -/
def vNeg (I : Isa) (w : Nat) (a : M128) : M128 :=
  if I.ssse3 then signEpiIntr w a (BitVec.allOnes 128) else subEpi w 0#128 a

/-- `_mm_cvtepuA_epiB` (SSE4.1): the low lanes of width `v` zero-extended to width `w`. -/
def cvtepuIntr (v w : Nat) (x : M128) : M128 := ofLanes w fun i => (lane v x i).zeroExtend w

/-- `_mm_cvtepiA_epiB` (SSE4.1): the low lanes of width `v` sign-extended to width `w`. -/
def cvtepiIntr (v w : Nat) (x : M128) : M128 := ofLanes w fun i => (lane v x i).signExtend w

/-- `cvtepu8_epi16` (/repo/Vc/sse/intrinsics.h:316-319 and 548-550). -/
def cvtepu8epi16 (I : Isa) (x : M128) : M128 :=
  if I.sse41 then cvtepuIntr 8 16 x else unpacklo 8 x 0#128

/-- `cvtepi8_epi16` (/repo/Vc/sse/intrinsics.h:320-323 and 551-553). -/
def cvtepi8epi16 (I : Isa) (x : M128) : M128 :=
  if I.sse41 then cvtepiIntr 8 16 x else unpacklo 8 x (cmpltEpi 8 x 0#128)

/-- `cvtepu16_epi32` (/repo/Vc/sse/intrinsics.h:324-327 and 554-556). -/
def cvtepu16epi32 (I : Isa) (x : M128) : M128 :=
  if I.sse41 then cvtepuIntr 16 32 x else unpacklo 16 x 0#128

/-- `cvtepi16_epi32` (/repo/Vc/sse/intrinsics.h:328-331 and 557-559). -/
def cvtepi16epi32 (I : Isa) (x : M128) : M128 :=
  if I.sse41 then cvtepiIntr 16 32 x else unpacklo 16 x (cmpltEpi 16 x 0#128)

/-- `cvtepu8_epi32` (/repo/Vc/sse/intrinsics.h:332-335 and 560-562). -/
def cvtepu8epi32 (I : Isa) (x : M128) : M128 :=
  if I.sse41 then cvtepuIntr 8 32 x else cvtepu16epi32 I (cvtepu8epi16 I x)

/-- `cvtepi8_epi32` (/repo/Vc/sse/intrinsics.h:336-339 and 563-567). -/
def cvtepi8epi32 (I : Isa) (x : M128) : M128 :=
  if I.sse41 then cvtepiIntr 8 32 x
  else
    let neg := cmpltEpi 8 x 0#128
    let epi16 := unpacklo 8 x neg
    unpacklo 16 epi16 (unpacklo 8 neg neg)

/-- `VectorHelper<short>::expand0` and `convert<short, int>` without SSE4.1
(/repo/Vc/sse/vectorhelper.h:454, /repo/Vc/sse/casts.h:71-77). -/
def expand0S (x : M128) : M128 := sraiEpi 32 (unpacklo 16 x x) 16

/-- `VectorHelper<short>::expand1` (/repo/Vc/sse/vectorhelper.h:455). -/
def expand1S (x : M128) : M128 := sraiEpi 32 (unpackhi 16 x x) 16

/-- `VectorHelper<ushort>::expand0` (/repo/Vc/sse/vectorhelper.h:531). -/
def expand0U (x : M128) : M128 := unpacklo 16 x 0#128

/-- `VectorHelper<ushort>::expand1` (/repo/Vc/sse/vectorhelper.h:532). -/
def expand1U (x : M128) : M128 := unpackhi 16 x 0#128

/-- `VectorHelper<short>::concat` (/repo/Vc/sse/vectorhelper.h:453). -/
def concatS (a b : M128) : M128 := packs 16 a b

/-- `VectorHelper<ushort>::concat` (/repo/Vc/sse/vectorhelper.h:519-530). -/
def concatU (I : Isa) (a b : M128) : M128 :=
  if I.sse41 then packus 16 a b
  else
    let tmp0 := unpacklo 16 a b
    let tmp1 := unpackhi 16 a b
    let tmp2 := unpacklo 16 tmp0 tmp1
    let tmp3 := unpackhi 16 tmp0 tmp1
    unpacklo 16 tmp2 tmp3

/-- `convert<int, ushort>`, `convert<uint, ushort>` (/repo/Vc/sse/casts.h:135-148). -/
def convertIntUshort (v : M128) : M128 :=
  let tmp0 := unpacklo 16 v 0#128
  let tmp1 := unpackhi 16 v 0#128
  let tmp2 := unpacklo 16 tmp0 tmp1
  let tmp3 := unpackhi 16 tmp0 tmp1
  unpacklo 16 tmp2 tmp3

/-- `convert_int32_to_int16`, used by `simd_cast` from one (`b = 0`) or two vectors of int / uint to
short / ushort (/repo/Vc/sse/simd_cast.h:316-323, 364-365, 370-371, 398-399, 403-404). -/
def convertInt32ToInt16 (a b : M128) : M128 :=
  let tmp0 := unpacklo 16 a b
  let tmp1 := unpackhi 16 a b
  let tmp2 := unpacklo 16 tmp0 tmp1
  let tmp3 := unpackhi 16 tmp0 tmp1
  unpacklo 16 tmp2 tmp3

/-- The byte shift of `simd_cast<Return, offset>(x)` for SSE vectors and masks; `w` is the entry width
of the source in bits and `size` the number of entries of `Return`
(/repo/Vc/sse/simd_cast.h:861-871 and 884-894).  `none`: the static assertion fails. -/
def castShift (w offset size : Nat) : Option Nat :=
  let shift := w / 8 * offset * size
  if 0 < shift ∧ shift < 16 then some shift else none

/-- `simd_cast<int_v, 1>(short_v)` and the like: shift, then cast without offset (`conv`). -/
def simdCastOffset (conv : M128 → M128) (w offset size : Nat) (x : M128) : Option M128 :=
  (castShift w offset size).map fun s => conv (srliSi128 x s)

/-- `convert<int, short>`, `convert<uint, short>` (/repo/Vc/sse/casts.h:130-131), used by the explicit
conversion constructor and `staticCast` (/repo/Vc/sse/vector.h:113-123, 327-332). -/
def convertIntShort (v : M128) : M128 := packs 16 v 0#128

/-- `convert<short, int>` (/repo/Vc/sse/casts.h:71-77). -/
def convertShortInt (I : Isa) (v : M128) : M128 :=
  if I.sse41 then cvtepiIntr 16 32 v else sraiEpi 32 (unpacklo 16 v v) 16

/-- `convert<ushort, int>` (/repo/Vc/sse/casts.h:78-84). -/
def convertUshortInt (I : Isa) (v : M128) : M128 :=
  if I.sse41 then cvtepuIntr 16 32 v else srliEpi 32 (unpacklo 16 v v) 16

end Vc.Model
