import Verif.Model.SseInt

/-!
SSE permutations: the blend emulations, the `Mem::` and `Reg::` helpers, and the vector operations that
move lanes.

A `VecPos` template argument is a number: `Xi` is `i`, `Yi` is `8 + i` (/repo/Vc/sse/shuffle.h:36-40).
`none` stands for a failed static assertion.
-/

namespace Vc.Model

/-! ### Blend -/

/-- `(c & b) | (~c & a)`, the end of the emulations (/repo/Vc/sse/intrinsics.h:461-462, 522). -/
def selectBits (c a b : M128) : M128 := andnot c a ||| (c &&& b)

/-- `blend_pd<mask>` (/repo/Vc/sse/intrinsics.h:286-289, emulation 389-404).  `none`: `abort()`. -/
def blendPd (I : Isa) (mask : Nat) (a b : M128) : Option M128 :=
  if I.sse41 then some (blendImm 64 a b mask)
  else match mask with
  | 0 => some a
  | 1 => some (shufflePd b a 2)
  | 2 => some (shufflePd a b 2)
  | 3 => some b
  | _ => none

/-- `_mm_set_epi32(e3, e2, e1, e0)`. -/
def setEpi32 (e3 e2 e1 e0 : BitVec 32) : M128 :=
  ofLanes 32 fun i => if i = 0 then e0 else if i = 1 then e1 else if i = 2 then e2 else e3

/-- `blend_ps<mask>` (/repo/Vc/sse/intrinsics.h:290-293, emulation 405-463).  `none`: `abort()`. -/
def blendPs (I : Isa) (mask : Nat) (a b : M128) : Option M128 :=
  let ones : M128 := BitVec.allOnes 128
  if I.sse41 then some (blendImm 32 a b mask)
  else match mask with
  | 0x0 => some a
  | 0x1 => some (selectBits (srliSi128 ones 12) a b)
  | 0x2 => some (selectBits (slliSi128 (srliSi128 ones 12) 4) a b)
  | 0x3 => some (selectBits (srliSi128 ones 8) a b)
  | 0x4 => some (selectBits (slliSi128 (srliSi128 ones 12) 8) a b)
  | 0x5 => some (selectBits (setEpi32 0 (-1) 0 (-1)) a b)
  | 0x6 => some (selectBits (slliSi128 (srliSi128 ones 8) 4) a b)
  | 0x7 => some (selectBits (srliSi128 ones 4) a b)
  | 0x8 => some (selectBits (slliSi128 ones 12) a b)
  | 0x9 => some (selectBits (setEpi32 (-1) 0 0 (-1)) a b)
  | 0xa => some (selectBits (setEpi32 (-1) 0 (-1) 0) a b)
  | 0xb => some (selectBits (setEpi32 (-1) 0 (-1) (-1)) a b)
  | 0xc => some (selectBits (slliSi128 ones 8) a b)
  | 0xd => some (selectBits (setEpi32 (-1) (-1) 0 (-1)) a b)
  | 0xe => some (selectBits (slliSi128 ones 4) a b)
  | 0xf => some b
  | _ => none

/-- The constant `shift` of `blend_epi16` (/repo/Vc/sse/intrinsics.h:518). -/
def blendShift : M128 := ofLanes 16 fun i => match i with
  | 0 => -0x7fff#16
  | 1 => 0x4000#16
  | 2 => 0x2000#16
  | 3 => 0x1000#16
  | 4 => 0x0800#16
  | 5 => 0x0400#16
  | 6 => 0x0200#16
  | _ => 0x0100#16

/-- `blend_epi16<mask>` (/repo/Vc/sse/intrinsics.h:294-297, emulation 464-523). -/
def blendEpi16 (I : Isa) (mask : Nat) (a b : M128) : M128 :=
  let ones : M128 := BitVec.allOnes 128
  if I.sse41 then blendImm 16 a b mask
  else match mask with
  | 0x00 => a
  | 0x01 => selectBits (srliSi128 ones 14) a b
  | 0x03 => selectBits (srliSi128 ones 12) a b
  | 0x07 => selectBits (srliSi128 ones 10) a b
  | 0x0f => unpackhi 64 (slliSi128 b 8) a
  | 0x1f => selectBits (srliSi128 ones 6) a b
  | 0x3f => selectBits (srliSi128 ones 4) a b
  | 0x7f => selectBits (srliSi128 ones 2) a b
  | 0x80 => selectBits (slliSi128 ones 14) a b
  | 0xc0 => selectBits (slliSi128 ones 12) a b
  | 0xe0 => selectBits (slliSi128 ones 10) a b
  | 0xf0 => selectBits (slliSi128 ones 8) a b
  | 0xf8 => selectBits (slliSi128 ones 6) a b
  | 0xfc => selectBits (slliSi128 ones 4) a b
  | 0xfe => selectBits (slliSi128 ones 2) a b
  | 0xff => b
  | 0xcc => unpacklo 32 (shuffleEpi32 a (mmShuffle 2 0 2 0)) (shuffleEpi32 b (mmShuffle 3 1 3 1))
  | 0x33 => unpacklo 32 (shuffleEpi32 b (mmShuffle 2 0 2 0)) (shuffleEpi32 a (mmShuffle 3 1 3 1))
  | m => selectBits (sraiEpi 16 (mulloEpi 16 (set1 16 (BitVec.ofNat 16 m)) blendShift) 15) a b

/-! ### `Mem` -/

/-- `Mem::shuffle<Dst0, Dst1, Dst2, Dst3>` of `__m128` and `__m128i` (/repo/Vc/sse/shuffle.h:44-65). -/
def memShuffle4 (d0 d1 d2 d3 : Nat) (x y : M128) : Option M128 :=
  if d0 ≤ 3 ∧ d1 ≤ 3 ∧ 8 ≤ d2 ∧ d2 ≤ 11 ∧ 8 ≤ d3 ∧ d3 ≤ 11 then
    some (shufflePs x y (d0 + d1 * 4 + (d2 - 8) * 16 + (d3 - 8) * 64))
  else none

/-- `Mem::shuffle<Dst0, Dst1>` of `__m128d` (/repo/Vc/sse/shuffle.h:52-56). -/
def memShuffle2 (d0 d1 : Nat) (x y : M128) : Option M128 :=
  if d0 ≤ 1 ∧ 8 ≤ d1 ∧ d1 ≤ 9 then some (shufflePd x y (d0 + (d1 - 8) * 2)) else none

/-- `Mem::blend<Dst0, Dst1>` of `__m128d` (/repo/Vc/sse/shuffle.h:68-72). -/
def memBlend2 (I : Isa) (d0 d1 : Nat) (x y : M128) : Option M128 :=
  if (d0 = 0 ∨ d0 = 8) ∧ (d1 = 1 ∨ d1 = 9) then blendPd I (d0 / 8 + d1 / 8 * 2) x y else none

/-- `Mem::blend<Dst0, ..., Dst3>` of `__m128` (/repo/Vc/sse/shuffle.h:75-82). -/
def memBlend4 (I : Isa) (d0 d1 d2 d3 : Nat) (x y : M128) : Option M128 :=
  if (d0 = 0 ∨ d0 = 8) ∧ (d1 = 1 ∨ d1 = 9) ∧ (d2 = 2 ∨ d2 = 10) ∧ (d3 = 3 ∨ d3 = 11) then
    blendPs I (d0 / 8 * 1 + d1 / 9 * 2 + d2 / 10 * 4 + d3 / 11 * 8) x y
  else none

/-- `Mem::blend<Dst0, ..., Dst7>` of `__m128i` (/repo/Vc/sse/shuffle.h:84-98). -/
def memBlend8 (I : Isa) (d0 d1 d2 d3 d4 d5 d6 d7 : Nat) (x y : M128) : Option M128 :=
  if (d0 = 0 ∨ d0 = 8) ∧ (d1 = 1 ∨ d1 = 9) ∧ (d2 = 2 ∨ d2 = 10) ∧ (d3 = 3 ∨ d3 = 11) ∧
      (d4 = 4 ∨ d4 = 12) ∧ (d5 = 5 ∨ d5 = 13) ∧ (d6 = 6 ∨ d6 = 14) ∧ (d7 = 7 ∨ d7 = 15) then
    some (blendEpi16 I (d0 / 8 * 1 + d1 / 9 * 2 + d2 / 10 * 4 + d3 / 11 * 8 + d4 / 12 * 16 +
      d5 / 13 * 32 + d6 / 14 * 64 + d7 / 15 * 128) x y)
  else none

/-- `Mem::permute<Dst0, ..., Dst3>` of `__m128` (/repo/Vc/sse/shuffle.h:101-105). -/
def memPermutePs (d0 d1 d2 d3 : Nat) (x : M128) : Option M128 :=
  if d0 ≤ 3 ∧ d1 ≤ 3 ∧ d2 ≤ 3 ∧ d3 ≤ 3 then
    some (shufflePs x x (d0 + d1 * 4 + d2 * 16 + d3 * 64))
  else none

/-- `Mem::permute<Dst0, Dst1>` of `__m128d` (/repo/Vc/sse/shuffle.h:107-111): the second position is
multiplied by 4 although the instruction reads bit 1. -/
def memPermutePd (d0 d1 : Nat) (x : M128) : Option M128 :=
  if d0 ≤ 1 ∧ d1 ≤ 1 then some (shufflePd x x (d0 + d1 * 4)) else none

/-- `Mem::permute<Dst0, ..., Dst3>` of `__m128i` (/repo/Vc/sse/shuffle.h:113-117). -/
def memPermuteEpi32 (d0 d1 d2 d3 : Nat) (x : M128) : Option M128 :=
  if d0 ≤ 3 ∧ d1 ≤ 3 ∧ d2 ≤ 3 ∧ d3 ≤ 3 then
    some (shuffleEpi32 x (d0 + d1 * 4 + d2 * 16 + d3 * 64))
  else none

/-- `Mem::permuteLo` (/repo/Vc/sse/shuffle.h:119-123). -/
def memPermuteLo (d0 d1 d2 d3 : Nat) (x : M128) : Option M128 :=
  if d0 ≤ 3 ∧ d1 ≤ 3 ∧ d2 ≤ 3 ∧ d3 ≤ 3 then
    some (shuffleloEpi16 x (d0 + d1 * 4 + d2 * 16 + d3 * 64))
  else none

/-- `Mem::permuteHi` (/repo/Vc/sse/shuffle.h:125-129). -/
def memPermuteHi (d0 d1 d2 d3 : Nat) (x : M128) : Option M128 :=
  if (4 ≤ d0 ∧ d0 ≤ 7) ∧ (4 ≤ d1 ∧ d1 ≤ 7) ∧ (4 ≤ d2 ∧ d2 ≤ 7) ∧ 4 ≤ d3 ∧ d3 ≤ 7 then
    some (shufflehiEpi16 x ((d0 - 4) + (d1 - 4) * 4 + (d2 - 4) * 16 + (d3 - 4) * 64))
  else none

/-- `Mem::permute<Dst0, ..., Dst7>` of `__m128i` (/repo/Vc/sse/shuffle.h:131-145). -/
def memPermute8 (d0 d1 d2 d3 d4 d5 d6 d7 : Nat) (x : M128) : Option M128 :=
  if (d0 ≤ 3 ∧ d1 ≤ 3 ∧ d2 ≤ 3 ∧ d3 ≤ 3) ∧
      (4 ≤ d4 ∧ d4 ≤ 7) ∧ (4 ≤ d5 ∧ d5 ≤ 7) ∧ (4 ≤ d6 ∧ d6 ≤ 7) ∧ 4 ≤ d7 ∧ d7 ≤ 7 then
    let x := if d0 ≠ 0 ∨ d1 ≠ 1 ∨ d2 ≠ 2 ∨ d3 ≠ 3 then
      shuffleloEpi16 x (d0 + d1 * 4 + d2 * 16 + d3 * 64) else x
    let x := if d4 ≠ 4 ∨ d5 ≠ 5 ∨ d6 ≠ 6 ∨ d7 ≠ 7 then
      shufflehiEpi16 x ((d4 - 4) + (d5 - 4) * 4 + (d6 - 4) * 16 + (d7 - 4) * 64) else x
    some x
  else none

/-! ### `Reg`: the same with the arguments in register order -/

/-- `Reg::shuffle` of `__m128` and `__m128i` (/repo/Vc/sse/shuffle.h:152-154, 169-173). -/
def regShuffle4 (d3 d2 d1 d0 : Nat) (x y : M128) : Option M128 := memShuffle4 d0 d1 d2 d3 x y

/-- `Reg::shuffle` of `__m128d` (/repo/Vc/sse/shuffle.h:157-159). -/
def regShuffle2 (d1 d0 : Nat) (x y : M128) : Option M128 := memShuffle2 d0 d1 x y

/-- `Reg::permute` of `__m128i` (/repo/Vc/sse/shuffle.h:162-166). -/
def regPermute4 (d3 d2 d1 d0 : Nat) (x : M128) : Option M128 :=
  if d0 ≤ 3 ∧ d1 ≤ 3 ∧ d2 ≤ 3 ∧ d3 ≤ 3 then
    some (shuffleEpi32 x (d0 + d1 * 4 + d2 * 16 + d3 * 64))
  else none

/-- `Reg::blend` of `__m128d` (/repo/Vc/sse/shuffle.h:176-178). -/
def regBlend2 (I : Isa) (d1 d0 : Nat) (x y : M128) : Option M128 := memBlend2 I d0 d1 x y

/-- `Reg::blend` of `__m128` (/repo/Vc/sse/shuffle.h:180-182). -/
def regBlend4 (I : Isa) (d3 d2 d1 d0 : Nat) (x y : M128) : Option M128 := memBlend4 I d0 d1 d2 d3 x y

/-! ### Vector operations that move lanes -/

/-- `alignr_epi8<s>` (/repo/Vc/sse/intrinsics.h:169-172, emulation 203-241; the 32 cases of the switch
are written as formulas in the case number). -/
def alignr (I : Isa) (s : Nat) (a b : M128) : M128 :=
  let s := s % 32
  if I.ssse3 then alignrEpi8 a b s
  else if s = 0 then b
  else if s ≤ 15 then slliSi128 a (16 - s) ||| srliSi128 b s
  else if s = 16 then a
  else srliSi128 a (s - 16)

/-- `Vector::shifted(amount)` (/repo/Vc/sse/vector.tcc:522-547, cases as formulas); `bytes` is the size
of an entry. -/
def vShifted (bytes : Nat) (x : M128) (amount : Int) : M128 :=
  if amount = 0 then x
  else if 1 ≤ amount ∧ amount ≤ 8 then srliSi128 x (amount.toNat * bytes)
  else if -8 ≤ amount ∧ amount ≤ -1 then slliSi128 x ((-amount).toNat * bytes)
  else 0#128

/-- `Vector::shifted(amount, shiftIn)` (/repo/Vc/sse/vector.tcc:548-592, cases as formulas).  `none`:
`int(size()) + amount` overflows. -/
def vShiftedIn (I : Isa) (bytes size : Nat) (x : M128) (amount : Int) (shiftIn : M128) : Option M128 :=
  if -(size : Int) ≤ amount ∧ amount = 0 then some x
  else if -(size : Int) ≤ amount ∧ -15 ≤ amount ∧ amount ≤ -1 then
    some (alignr I ((size - (-amount).toNat) * bytes) x shiftIn)
  else if -(size : Int) ≤ amount ∧ 1 ≤ amount ∧ amount ≤ 15 then
    some (alignr I (amount.toNat * bytes) shiftIn x)
  else if (size : Int) + amount < 2 ^ 31 then some (vShifted bytes shiftIn (size + amount))
  else none

/-- `Vector::rotated(amount)` (/repo/Vc/sse/vector.tcc:593-616, cases as formulas). -/
def vRotated (I : Isa) (bytes size : Nat) (x : M128) (amount : Int) : M128 :=
  let k := (amount % 2 ^ 32).toNat % size
  if k = 0 then x else if k ≤ 7 then alignr I (k * bytes) x x else 0#128

/-- `reversed` of double_v, float_v, int_v / uint_v, short_v / ushort_v
(/repo/Vc/sse/vector.tcc:701-728). -/
def reversedPd (x : M128) : Option M128 := memPermutePd 1 0 x
def reversedPs (x : M128) : Option M128 := memPermutePs 3 2 1 0 x
def reversedEpi32 (x : M128) : Option M128 := memPermuteEpi32 3 2 1 0 x
def reversedEpi16 (x : M128) : Option M128 := do
  memShuffle2 1 8 (← memPermuteHi 7 6 5 4 x) (← memPermuteLo 3 2 1 0 x)

/-- `broadcast<Index>` of float_v and double_v (/repo/Vc/sse/vector.tcc:754-763). -/
def broadcastPs (index : Nat) (x : M128) : Option M128 :=
  memPermutePs (index % 4) (index % 4) (index % 4) (index % 4) x
def broadcastPd (index : Nat) (x : M128) : Option M128 := memPermutePd (index % 2) (index % 2) x

/-- `interleaveLow`, `interleaveHigh` (/repo/Vc/sse/vector.tcc:630-643) for entries of `w` bits. -/
def vInterleaveLow (w : Nat) (x y : M128) : M128 := unpacklo w x y
def vInterleaveHigh (w : Nat) (x y : M128) : M128 := unpackhi w x y

/-- `_mm_permutevar_ps` of AVX: the two low bits of each lane select. -/
def permutevarPs (x perm : M128) : M128 :=
  ofLanes 32 fun i => lane 32 x ((lane 32 perm i).toNat % 4)

/-- `float_v::operator[](int_v)` (/repo/Vc/sse/vector.tcc:732-752): with and without AVX. -/
def permutedPs (avx : Bool) (x perm : M128) : M128 := if avx then permutevarPs x perm else x

/-- `transpose_impl` of four float_v (/repo/Vc/sse/vector.tcc:769-786). -/
def transpose44 (in0 in1 in2 in3 : M128) : List M128 :=
  let tmp0 := unpacklo 32 in0 in2
  let tmp1 := unpacklo 32 in1 in3
  let tmp2 := unpackhi 32 in0 in2
  let tmp3 := unpackhi 32 in1 in3
  [unpacklo 32 tmp0 tmp1, unpackhi 32 tmp0 tmp1, unpacklo 32 tmp2 tmp3, unpackhi 32 tmp2 tmp3]

/-- `partialSum` (/repo/Vc/sse/vector.tcc:400-414) with `add` the lane-wise addition. -/
def vPartialSum (bytes size : Nat) (add : M128 → M128 → M128) (x : M128) : M128 :=
  let tmp := x
  let tmp := if 1 < size then add tmp (vShifted bytes tmp (-1)) else tmp
  let tmp := if 2 < size then add tmp (vShifted bytes tmp (-2)) else tmp
  let tmp := if 4 < size then add tmp (vShifted bytes tmp (-4)) else tmp
  let tmp := if 8 < size then add tmp (vShifted bytes tmp (-8)) else tmp
  if 16 < size then add tmp (vShifted bytes tmp (-16)) else tmp

end Vc.Model
