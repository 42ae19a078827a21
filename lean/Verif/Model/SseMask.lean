import Verif.Model.SseInt
import Verif.Model.Bits

/-!
SSE masks: `Mask<T, VectorAbi::Sse>`.

A mask is a register whose lanes of width `w` are all-ones or all-zeros; the number of lanes is
`size = 128 / w` (2 for double, 4 for float / int / uint, 8 for short / ushort; the helpers also exist
for 16 lanes).  Memory of type `bool` is a function from the position to the byte.
-/

namespace Vc.Model

/-- `_mm_popcnt_u32`. -/
def popcntU32 (n : Nat) : Nat := (List.range 32).countP fun i => n.testBit i

/-- `Detail::mask_count<Size>` (/repo/Vc/sse/mask.tcc:34-68). -/
def maskCount (I : Isa) (size : Nat) (k : M128) : Nat :=
  if size = 2 then
    let mask := movemask 64 k
    (mask &&& 1) + mask >>> 1
  else if size = 4 then
    if I.popcnt then popcntU32 (movemask 32 k)
    else
      let x := srliEpi 32 k 31
      let x := addEpi 32 x (shuffleEpi32 x (mmShuffle 0 1 2 3))
      let x := addEpi 32 x (shuffleloEpi16 x (mmShuffle 1 0 3 2))
      (lane 32 x 0).toNat
  else if size = 8 then
    if I.popcnt then popcntU32 (movemask 8 k) / 2
    else
      let x := srliEpi 16 k 15
      let x := addEpi 16 x (shuffleEpi32 x (mmShuffle 0 1 2 3))
      let x := addEpi 16 x (shuffleloEpi16 x (mmShuffle 0 1 2 3))
      let x := addEpi 16 x (shuffleloEpi16 x (mmShuffle 2 3 0 1))
      (lane 16 x 0).toNat
  else
    if I.popcnt then popcntU32 (movemask 8 k) else popcnt16 (movemask 8 k)

/-- `Detail::mask_to_int<Size>`, the function `Mask::toInt` (/repo/Vc/sse/mask.tcc:71-86). -/
def maskToInt (size : Nat) (k : M128) : Nat :=
  if size = 2 then movemask 64 k
  else if size = 4 then movemask 32 k
  else if size = 8 then movemask 8 (packs 8 k 0#128)
  else movemask 8 k

/-- `Mask::store(bool *)`: the bytes written, for `double_m` (/repo/Vc/sse/mask.tcc:179-182) and
`Detail::mask_store<Size>` (/repo/Vc/sse/mask.tcc:89-117; the version for 2 lanes is not used). -/
def maskStore (size : Nat) (k : M128) : List (BitVec 8) :=
  if size = 2 then
    let v : BitVec 16 := BitVec.ofNat 16 (movemask 8 k &&& 0x0101)
    [lane 8 v 0, lane 8 v 1]
  else if size = 4 then
    (List.range 4).map (lane 8 (packs 8 (srliEpi 16 (packs 16 k 0#128) 15) 0#128))
  else if size = 8 then
    (List.range 8).map (lane 8 (packs 8 (srliEpi 16 k 15) 0#128))
  else (List.range 16).map (lane 8 (k &&& set1 8 1#8))

/-- The entry `MaskBool(x)` of width `w` (/repo/Vc/common/maskbool.h:52-53). -/
def maskBool (w : Nat) (x : Bool) : BitVec w := if x then -1#w else 0#w

/-- `Storage::set(i, x)` (/repo/Vc/common/storage.h:178, 229, 283, 328): replace one entry. -/
def setLane {n : Nat} (w : Nat) (x : BitVec n) (i : Nat) (v : BitVec w) : BitVec n :=
  ofLanes w fun j => if j = i then v else lane w x j

/-- `Mask::load(const bool *)`: `double_m` (/repo/Vc/sse/mask.tcc:187-191), others
`Detail::mask_load<Size>` (/repo/Vc/sse/mask.tcc:120-142); `old` is the mask loaded into, a `bool` is
true if its byte is not zero. -/
def maskLoad (size : Nat) (old : M128) (mem : Nat → BitVec 8) : M128 :=
  if size = 2 then
    setLane 64 (setLane 64 old 0 (maskBool 64 (mem 0 != 0#8))) 1 (maskBool 64 (mem 1 != 0#8))
  else if size = 4 then
    let k : M128 := ofLanes 8 fun i => if i < 4 then mem i else 0#8
    let k := cmpgtEpi 16 (unpacklo 8 k k) 0#128
    unpacklo 16 k k
  else if size = 8 then
    let k : M128 := ofLanes 8 fun i => if i < 8 then mem i else 0#8
    cmpgtEpi 16 (unpacklo 8 k k) 0#128
  else cmpgtEpi 8 (ofLanes 8 mem) 0#128

/-- `Detail::is_equal<Size>`, `Mask::operator==` (/repo/Vc/sse/mask.tcc:145-175); `operator!=` uses the
negated comparison of the same numbers. -/
def maskEqual (size : Nat) (k1 k2 : M128) : Bool :=
  if size = 2 then movemask 64 k1 == movemask 64 k2
  else if size = 4 then movemask 32 k1 == movemask 32 k2
  else movemask 8 k1 == movemask 8 k2

def maskNotEqual (size : Nat) (k1 k2 : M128) : Bool :=
  if size = 2 then movemask 64 k1 != movemask 64 k2
  else if size = 4 then movemask 32 k1 != movemask 32 k2
  else movemask 8 k1 != movemask 8 k2

/-- `_mm_testz_si128(a, b)`. -/
def testz (a b : M128) : Nat := if a &&& b = 0#128 then 1 else 0

/-- `_mm_testc_si128(a, b)`. -/
def testc (a b : M128) : Nat := if ~~~a &&& b = 0#128 then 1 else 0

/-- `_mm_testnzc_si128(a, b)`, also called `_mm_test_mix_ones_zeros`. -/
def testnzc (a b : M128) : Nat := if a &&& b ≠ 0#128 ∧ ~~~a &&& b ≠ 0#128 then 1 else 0

/-- `Mask::isFull`; `ptest` is `Vc_USE_PTEST` (/repo/Vc/sse/mask.h:182-188, /repo/Vc/sse/macros.h:34). -/
def maskIsFull (ptest : Bool) (k : M128) : Bool :=
  if ptest then testc k (BitVec.allOnes 128) != 0 else movemask 8 k == 0xffff

/-- `Mask::isNotEmpty` (/repo/Vc/sse/mask.h:189-195). -/
def maskIsNotEmpty (ptest : Bool) (k : M128) : Bool :=
  if ptest then 0 == testz k k else movemask 8 k != 0

/-- `Mask::isEmpty` (/repo/Vc/sse/mask.h:196-202). -/
def maskIsEmpty (ptest : Bool) (k : M128) : Bool :=
  if ptest then 0 != testz k k else movemask 8 k == 0

/-- `Mask::isMix` (/repo/Vc/sse/mask.h:203-210). -/
def maskIsMix (ptest : Bool) (k : M128) : Bool :=
  if ptest then testnzc k (BitVec.allOnes 128) != 0
  else
    let tmp := movemask 8 k
    tmp != 0 && (tmp ^^^ 0xffff) != 0

/-- `Mask::get`, the subscript operator (/repo/Vc/sse/mask.h:223-226; short_m and ushort_m:
/repo/Vc/sse/mask.tcc:198-207). -/
def maskGet (size : Nat) (k : M128) (i : Nat) : Bool :=
  if size = 8 then (movemask 8 k &&& 1 <<< (2 * i)) != 0
  else (maskToInt size k &&& 1 <<< i) != 0

/-- `Mask::set`, assignment through the subscript operator (/repo/Vc/sse/mask.h:227-232). -/
def maskSet (w : Nat) (k : M128) (i : Nat) (v : Bool) : M128 := setLane w k i (maskBool w v)

/-- `Mask::firstOne` (/repo/Vc/sse/mask.tcc:210-221); `none`: undefined. -/
def maskFirstOne (size : Nat) (k : M128) : Option Nat := bsf (maskToInt size k)

/-- `Mask::generate` (/repo/Vc/sse/mask.tcc:224-253); the three versions differ only in the width. -/
def maskGenerate (w : Nat) (gen : Nat → Bool) : M128 :=
  ofLanes w fun i => if gen i then BitVec.allOnes w else 0#w

/-- `Mask::shifted(amount)` (/repo/Vc/sse/mask.tcc:255-293, /repo/Vc/sse/detail.h:333-348); `bytes` is
`sizeof(VectorEntryType)`.  `none`: the product overflows `int`. -/
def maskShifted (bytes : Nat) (k : M128) (amount : Int) : Option M128 :=
  let a := amount * bytes
  if -2 ^ 31 ≤ a ∧ a < 2 ^ 31 then
    some (if 0 < a ∧ a ≤ 16 then srliSi128 k a.toNat
      else if a < 0 ∧ -16 ≤ a then slliSi128 k (-a).toNat
      else if a = 0 then k
      else 0#128)
  else none

/-- `Detail::mask_cast<From, To, __m128>` (/repo/Vc/sse/detail.h:411-457).  `none`: static assertion. -/
def maskCast (src dst : Nat) (k : M128) : Option M128 :=
  if src = dst then some k
  else match src, dst with
  | 2, 4 => some (packs 8 k 0#128)
  | 2, 8 => some (packs 8 (packs 8 k 0#128) 0#128)
  | 4, 2 => some (unpacklo 32 k k)
  | 4, 8 => some (packs 8 k 0#128)
  | 8, 2 =>
    let tmp := unpacklo 16 k k
    some (unpacklo 32 tmp tmp)
  | 8, 4 => some (unpacklo 16 k k)
  | 16, 8 => some (unpacklo 8 k k)
  | 16, 4 =>
    let tmp := unpacklo 8 k k
    some (unpacklo 16 tmp tmp)
  | 16, 2 =>
    let tmp := unpacklo 8 k k
    let tmp := unpacklo 16 tmp tmp
    some (unpacklo 32 tmp tmp)
  | _, _ => none

/-- `simd_cast` of two masks to one with twice as many lanes (/repo/Vc/sse/simd_cast.h:737-744). -/
def maskCast2 (x0 x1 : M128) : M128 := packs 8 x0 x1

/-- `simd_cast` of two masks to one with four times as many lanes
(/repo/Vc/sse/simd_cast.h:745-753). -/
def maskCast2Quarter (x0 x1 : M128) : M128 := packs 8 (packs 8 x0 x1) 0#128

/-- `simd_cast` of four masks to one with four times as many lanes
(/repo/Vc/sse/simd_cast.h:755-765). -/
def maskCast4 (x0 x1 x2 x3 : M128) : M128 := packs 8 (packs 8 x0 x1) (packs 8 x2 x3)

/-- `simd_cast<M, offset>(mask)` from lanes of width `v` to lanes of width `w`: shift, then cast
(/repo/Vc/sse/simd_cast.h:884-895). -/
def maskCastOffset (v w offset : Nat) (k : M128) : Option M128 :=
  (castShift v offset (128 / w)).bind fun s => maskCast (128 / v) (128 / w) (srliSi128 k s)

end Vc.Model
