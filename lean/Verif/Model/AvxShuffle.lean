import Verif.Model.AvxMask
import Verif.Model.SseShuffle

/-!
Lane movements of the AVX vectors: the `Mem::` and `Reg::` helpers of /repo/Vc/avx/shuffle.h, and the
vector operations that move lanes (/repo/Vc/avx/detail.h, /repo/Vc/avx/vector.tcc).

A `VecPos` template argument is a number as in `Model/SseShuffle.lean`.  `none` stands for a failed static
assertion.

Not modelled: `Mem::permute` of `__m256` with eight positions (/repo/Vc/avx/shuffle.h:186-244; not used, and
the branches of its `if` chain that are not taken do not compile), `Detail::blend` (/repo/Vc/avx/shuffle.h:46-67;
not used), `double_v::broadcast` (calls `Mem::permute` of `__m256d` with two positions, which does not
exist), `Detail::shifted` of 16-byte vectors.
-/

namespace Vc.Model

/-- `_mm256_permute_pd`: bit `i` of the immediate selects within the half of lane `i`. -/
def permutePd256 (x : M256) (imm : Nat) : M256 :=
  ofLanes 64 fun i => lane 64 x (i / 2 * 2 + imm / 2 ^ i % 2)

/-- `_mm256_permute_ps`: the same selection in both halves. -/
def permutePs256 (x : M256) (imm : Nat) : M256 :=
  ofLanes 32 fun i => lane 32 x (i / 4 * 4 + sel4 imm (i % 4))

/-- `_mm256_shuffle_pd`: even lanes from `x`, odd lanes from `y`. -/
def shufflePd256 (x y : M256) (imm : Nat) : M256 :=
  ofLanes 64 fun i =>
    if i % 2 = 0 then lane 64 x (i / 2 * 2 + imm / 2 ^ i % 2) else lane 64 y (i / 2 * 2 + imm / 2 ^ i % 2)

/-- `_mm256_shufflelo_epi16`, `_mm256_shufflehi_epi16`: in both halves. -/
def shufflelo256 (x : M256) (imm : Nat) : M256 := split1 (fun x => shuffleloEpi16 x imm) x
def shufflehi256 (x : M256) (imm : Nat) : M256 := split1 (fun x => shufflehiEpi16 x imm) x

/-! ### `Mem` and `Reg` -/

/-- `Mem::permuteLo<Dst0, ..., Dst3>` of `__m256i` (/repo/Vc/avx/shuffle.h:73-77). -/
def memPermuteLo256 (d0 d1 d2 d3 : Nat) (x : M256) : Option M256 :=
  if d0 ≤ 3 ∧ d1 ≤ 3 ∧ d2 ≤ 3 ∧ d3 ≤ 3 then some (shufflelo256 x (d0 + d1 * 4 + d2 * 16 + d3 * 64)) else none

/-- `Mem::permuteHi<Dst0, ..., Dst3>` of `__m256i` (/repo/Vc/avx/shuffle.h:79-83). -/
def memPermuteHi256 (d0 d1 d2 d3 : Nat) (x : M256) : Option M256 :=
  if (4 ≤ d0 ∧ 4 ≤ d1 ∧ 4 ≤ d2 ∧ 4 ≤ d3) ∧ (d0 ≤ 7 ∧ d1 ≤ 7 ∧ d2 ≤ 7 ∧ d3 ≤ 7) then
    some (shufflehi256 x ((d0 - 4) + (d1 - 4) * 4 + (d2 - 4) * 16 + (d3 - 4) * 64))
  else none

/-- `Mem::permute<Dst0, ..., Dst3>` of `__m256d` (/repo/Vc/avx/shuffle.h:130-134), with the arguments in
the opposite order `Reg::permute` (/repo/Vc/avx/shuffle.h:281-285). -/
def memPermutePd256 (d0 d1 d2 d3 : Nat) (x : M256) : Option M256 :=
  if d0 ≤ 1 ∧ d1 ≤ 1 ∧ 2 ≤ d2 ∧ d2 ≤ 3 ∧ 2 ≤ d3 ∧ d3 ≤ 3 then
    some (permutePd256 x (d0 + d1 * 2 + (d2 - 2) * 4 + (d3 - 2) * 8))
  else none

/-- `Mem::permute<Dst0, ..., Dst3>` of `__m256` and `__m256i` (/repo/Vc/avx/shuffle.h:135-142), with the
arguments in the opposite order `Reg::permute` (/repo/Vc/avx/shuffle.h:286-290). -/
def memPermutePs256 (d0 d1 d2 d3 : Nat) (x : M256) : Option M256 :=
  if d0 ≤ 3 ∧ d1 ≤ 3 ∧ d2 ≤ 3 ∧ d3 ≤ 3 then some (permutePs256 x (d0 + d1 * 4 + d2 * 16 + d3 * 64)) else none

/-- `Mem::shuffle<Dst0, ..., Dst3>` of `__m256d` (/repo/Vc/avx/shuffle.h:150-154), with the arguments in
the opposite order `Reg::shuffle` (/repo/Vc/avx/shuffle.h:301-305). -/
def memShufflePd256 (d0 d1 d2 d3 : Nat) (x y : M256) : Option M256 :=
  if d0 ≤ 1 ∧ 8 ≤ d1 ∧ d1 ≤ 9 ∧ 2 ≤ d2 ∧ d2 ≤ 3 ∧ 10 ≤ d3 ∧ d3 ≤ 11 then
    some (shufflePd256 x y (d0 + (d1 - 8) * 2 + (d2 - 2) * 4 + (d3 - 10) * 8))
  else none

/-- `Mem::shuffle<Dst0, ..., Dst3>` of `__m256` (/repo/Vc/avx/shuffle.h:155-159), with the arguments in
the opposite order `Reg::shuffle` (/repo/Vc/avx/shuffle.h:306-310). -/
def memShufflePs256 (d0 d1 d2 d3 : Nat) (x y : M256) : Option M256 :=
  if d0 ≤ 3 ∧ d1 ≤ 3 ∧ 8 ≤ d2 ∧ d2 ≤ 11 ∧ 8 ≤ d3 ∧ d3 ≤ 11 then
    some (shufflePs256 x y (d0 + d1 * 4 + (d2 - 8) * 16 + (d3 - 8) * 64))
  else none

/-! ### Vector operations -/

/-- `Vector::shifted(amount)` (/repo/Vc/avx/vector.tcc:721-724, `Detail::shifted`
/repo/Vc/avx/detail.h:947-1029, cases as formulas); `bytes` is the size of an entry, `ext` and `u` as in
`shiftedBytes`. -/
def avxShifted (ext : Option M128) (u : M128) (bytes : Nat) (x : M256) (amount : Int) : M256 :=
  let small (m : Int) : Prop := -m ≤ amount ∧ amount ≤ m
  if amount = 0 then x
  else if small 3 ∨ bytes ≤ 4 ∧ small 7 ∨ bytes ≤ 2 ∧ small 15 ∨ bytes = 1 ∧ small 31 then
    shiftedBytes ext u (amount * bytes) x
  else 0#256

/-- The compile-time cases 1, 2, 3 of `shifted(amount, shiftIn)` (/repo/Vc/avx/vector.tcc:749-785):
`n` bytes. -/
def avxShiftConst (avx2 : Bool) (n : Nat) (a b : M256) : M256 :=
  if avx2 then alignr256 n (permute2f128 a b 0x21) a
  else concat128 (alignrEpi8 (hi128 a) (lo128 a) n) (alignrEpi8 (lo128 b) (hi128 a) n)

/-- `Vector::shifted(amount, shiftIn)` (/repo/Vc/avx/vector.tcc:738-795).  `const`: the compiler is GCC or
clang and `amount` a compile-time constant.  `ext`, `u` and `ext'`, `u'` belong to the two calls of
`shifted(int)`.  `amount - Size` is computed in `size_t` and converted to `int`, which gives the difference
(`Size` is at most 16 and `amount` positive); `Size + amount` likewise. -/
def avxShiftedIn (const avx2 : Bool) (ext ext' : Option M128) (u u' : M128) (bytes size : Nat) (x : M256)
    (amount : Int) (shiftIn : M256) : Option M256 :=
  if const = true ∧ amount * 2 = size then memShuffle128 1 8 x shiftIn
  else if const = true ∧ amount * 2 = -size then memShuffle128 1 8 shiftIn x
  else if const = true ∧ (amount = 1 ∨ amount = 2 ∨ amount = 3 ∧ 6 < size) then
    some (avxShiftConst avx2 (amount.toNat * bytes) x shiftIn)
  else some (avxShifted ext u bytes x amount |||
    (if 0 < amount then avxShifted ext' u' bytes shiftIn (amount - size)
     else avxShifted ext' u' bytes shiftIn (size + amount)))

/-- `Vector::rotated(amount)` (/repo/Vc/avx/vector.tcc:796-799, `Detail::rotated`
/repo/Vc/avx/detail.h:1059-1171, cases as formulas); `size = 16` exists with AVX2. -/
def avxRotated (bytes size : Nat) (x : M256) (amount : Int) : Option M256 :=
  let lo := lo128 x
  let hi := hi128 x
  let k := (amount % 2 ^ 32).toNat % size
  if k = 0 then some x
  else if size = 16 ∧ k = 4 then permute4x64 1 2 3 0 x
  else if size = 16 ∧ k = 12 then permute4x64 3 0 1 2 x
  else if k < size / 2 then some (concat128 (alignrEpi8 hi lo (k * bytes)) (alignrEpi8 lo hi (k * bytes)))
  else if k = size / 2 then some (memPermute128 (some 1) (some 0) x)
  else some (concat128 (alignrEpi8 lo hi ((k - size / 2) * bytes)) (alignrEpi8 hi lo ((k - size / 2) * bytes)))

/-- `interleaveLow`, `interleaveHigh` (/repo/Vc/avx/vector.tcc:808-860) for entries of `w` bits. -/
def avxInterleaveLow (w : Nat) (x y : M256) : Option M256 :=
  memShuffle128 0 8 (unpacklo256 w x y) (unpackhi256 w x y)
def avxInterleaveHigh (w : Nat) (x y : M256) : Option M256 :=
  memShuffle128 1 9 (unpacklo256 w x y) (unpackhi256 w x y)

/-- `reversed()` of double_v; float_v, int_v and uint_v; short_v and ushort_v
(/repo/Vc/avx/vector.tcc:862-901, 924-928). -/
def avxReversedPd (x : M256) : Option M256 := do
  return memPermute128 (some 1) (some 0) (← memPermutePd256 1 0 3 2 x)
def avxReversedPs (x : M256) : Option M256 := do
  return memPermute128 (some 1) (some 0) (← memPermutePs256 3 2 1 0 x)
def avxReversedEpi16 (x : M256) : Option M256 := do
  return memPermute128 (some 1) (some 0)
    (← memShufflePd256 1 8 3 10 (← memPermuteHi256 7 6 5 4 x) (← memPermuteLo256 3 2 1 0 x))

/-- `float_v::operator[](IndexType)` (/repo/Vc/avx/vector.tcc:902-921): the argument is not used. -/
def avxPermutedPs (x : M256) (_perm : M256) : M256 := x

/-- `float_v::broadcast<Index>()` (/repo/Vc/avx/vector.tcc:931-936). -/
def avxBroadcastPs (index : Nat) (x : M256) : Option M256 :=
  let inner := index % 4
  let outer := index % 8 / 4
  memPermutePs256 inner inner inner inner (memPermute128 (some outer) (some outer) x)

end Vc.Model
