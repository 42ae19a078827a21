/-
Model of the x86 vector registers and of the SSE intrinsics the library calls.

The registers are bit vectors; every intrinsic is defined from the lane-wise description in the
Intel instruction set reference.  These definitions are part of the trusted base (they describe the
processor, not code of /repo); the /repo code that is built from them is modelled in
`Verif/Model/Sse*.lean`.  All of the intrinsics used here operate on bit patterns, so the casts
between `__m128`, `__m128d` and `__m128i` (/repo/Vc/sse/casts.h:42-52) are the identity.
-/

namespace Vc.Model

/-- The number whose bit `k` is `f k`, for `k < n`. -/
def natOfBits (f : Nat → Bool) : Nat → Nat
  | 0 => 0
  | n + 1 => natOfBits f n + (if f n then 2 ^ n else 0)

/-- The register whose bit `k` is `f k`. -/
def ofBits {n : Nat} (f : Nat → Bool) : BitVec n := BitVec.ofNat n (natOfBits f n)

/-- A 128 bit register (`__m128`, `__m128d`, `__m128i`). -/
abbrev M128 := BitVec 128

/-- A 256 bit register (`__m256`, `__m256d`, `__m256i`). -/
abbrev M256 := BitVec 256

/-- Lane `i` of a register divided into lanes of `w` bits; lane 0 is the least significant one. -/
def lane {n : Nat} (w : Nat) (x : BitVec n) (i : Nat) : BitVec w := x.extractLsb' (w * i) w

/-- The register whose lane `i` is `f i`. -/
def ofLanes {n : Nat} (w : Nat) (f : Nat → BitVec w) : BitVec n :=
  ofBits fun k => (f (k / w)).getLsbD (k % w)

/-- A one-operand intrinsic that works lane by lane. -/
def map1 {n : Nat} (w : Nat) (g : BitVec w → BitVec w) (x : BitVec n) : BitVec n :=
  ofLanes w fun i => g (lane w x i)

/-- A two-operand intrinsic that works lane by lane. -/
def map2 {n : Nat} (w : Nat) (g : BitVec w → BitVec w → BitVec w) (x y : BitVec n) : BitVec n :=
  ofLanes w fun i => g (lane w x i) (lane w y i)

/-- The value a comparison writes to a lane: all bits set or all bits clear. -/
def laneMask {w : Nat} (b : Bool) : BitVec w := if b then BitVec.allOnes w else 0#w

/-- `_mm_set1_epiN`. -/
def set1 {n : Nat} (w : Nat) (v : BitVec w) : BitVec n := ofLanes w fun _ => v

/-- `_mm_add_epiN`. -/
def addEpi {n : Nat} (w : Nat) : BitVec n → BitVec n → BitVec n := map2 w (· + ·)

/-- `_mm_sub_epiN`. -/
def subEpi {n : Nat} (w : Nat) : BitVec n → BitVec n → BitVec n := map2 w (· - ·)

/-- `_mm_mullo_epi16`, `_mm_mullo_epi32`: the low half of the product. -/
def mulloEpi {n : Nat} (w : Nat) : BitVec n → BitVec n → BitVec n := map2 w (· * ·)

/-- `_mm_cmpeq_epiN`. -/
def cmpeqEpi {n : Nat} (w : Nat) : BitVec n → BitVec n → BitVec n :=
  map2 w fun a b => laneMask (decide (a = b))

/-- `_mm_cmpgt_epiN`: signed comparison. -/
def cmpgtEpi {n : Nat} (w : Nat) : BitVec n → BitVec n → BitVec n :=
  map2 w fun a b => laneMask (decide (b.toInt < a.toInt))

/-- `_mm_cmplt_epiN`: signed comparison. -/
def cmpltEpi {n : Nat} (w : Nat) : BitVec n → BitVec n → BitVec n :=
  map2 w fun a b => laneMask (decide (a.toInt < b.toInt))

/-- `_mm_min_epiN`, signed. -/
def minEpi {n : Nat} (w : Nat) : BitVec n → BitVec n → BitVec n :=
  map2 w fun a b => if a.toInt < b.toInt then a else b

/-- `_mm_max_epiN`, signed. -/
def maxEpi {n : Nat} (w : Nat) : BitVec n → BitVec n → BitVec n :=
  map2 w fun a b => if b.toInt < a.toInt then a else b

/-- `_mm_min_epuN`, unsigned. -/
def minEpu {n : Nat} (w : Nat) : BitVec n → BitVec n → BitVec n :=
  map2 w fun a b => if a.toNat < b.toNat then a else b

/-- `_mm_max_epuN`, unsigned. -/
def maxEpu {n : Nat} (w : Nat) : BitVec n → BitVec n → BitVec n :=
  map2 w fun a b => if b.toNat < a.toNat then a else b

/-- `_mm_srli_epiN`: logical right shift of every lane; counts `≥ w` give zero. -/
def srliEpi {n : Nat} (w : Nat) (x : BitVec n) (c : Nat) : BitVec n := map1 w (· >>> c) x

/-- `_mm_slli_epiN`: left shift of every lane; counts `≥ w` give zero. -/
def slliEpi {n : Nat} (w : Nat) (x : BitVec n) (c : Nat) : BitVec n := map1 w (· <<< c) x

/-- `_mm_srai_epiN`: arithmetic right shift of every lane; counts `≥ w` give the sign. -/
def sraiEpi {n : Nat} (w : Nat) (x : BitVec n) (c : Nat) : BitVec n := map1 w (·.sshiftRight c) x

/-- `_mm_mul_epu32`: lane 64 number `i` is the full product of the lanes 32 number `2*i`. -/
def mulEpu32 {n : Nat} (x y : BitVec n) : BitVec n :=
  ofLanes 64 fun i => (lane 32 x (2 * i)).zeroExtend 64 * (lane 32 y (2 * i)).zeroExtend 64

/-- `_mm_srli_si128`: shift right by `k` bytes, zeros come in. -/
def srliSi128 (x : M128) (k : Nat) : M128 := x >>> (8 * k)

/-- `_mm_slli_si128`: shift left by `k` bytes, zeros come in. -/
def slliSi128 (x : M128) (k : Nat) : M128 := x <<< (8 * k)

/-- `_mm_alignr_epi8(a, b, k)` (SSSE3): `a` and `b` concatenated (`a` above `b`), shifted right by
`k` bytes, low half. -/
def alignrEpi8 (a b : M128) (k : Nat) : M128 := ((a ++ b) >>> (8 * k)).setWidth 128

/-- `_mm_unpacklo_epiN`: the low halves interleaved, starting with `x`. -/
def unpacklo (w : Nat) (x y : M128) : M128 :=
  ofLanes w fun i => if i % 2 = 0 then lane w x (i / 2) else lane w y (i / 2)

/-- `_mm_unpackhi_epiN`: the high halves interleaved, starting with `x`. -/
def unpackhi (w : Nat) (x y : M128) : M128 :=
  ofLanes w fun i =>
    if i % 2 = 0 then lane w x (64 / w + i / 2) else lane w y (64 / w + i / 2)

/-- The two bit field number `i` of a shuffle immediate. -/
def sel4 (imm i : Nat) : Nat := imm / 4 ^ i % 4

/-- `_MM_SHUFFLE(d, c, b, a)`. -/
def mmShuffle (d c b a : Nat) : Nat := d * 64 + c * 16 + b * 4 + a

/-- `_mm_shuffle_epi32`. -/
def shuffleEpi32 (x : M128) (imm : Nat) : M128 := ofLanes 32 fun i => lane 32 x (sel4 imm i)

/-- `_mm_shufflelo_epi16`: permutes the four low lanes. -/
def shuffleloEpi16 (x : M128) (imm : Nat) : M128 :=
  ofLanes 16 fun i => if i < 4 then lane 16 x (sel4 imm i) else lane 16 x i

/-- `_mm_shufflehi_epi16`: permutes the four high lanes. -/
def shufflehiEpi16 (x : M128) (imm : Nat) : M128 :=
  ofLanes 16 fun i => if i < 4 then lane 16 x i else lane 16 x (4 + sel4 imm (i - 4))

/-- `_mm_shuffle_ps`: two lanes of `x`, then two lanes of `y`. -/
def shufflePs (x y : M128) (imm : Nat) : M128 :=
  ofLanes 32 fun i => if i < 2 then lane 32 x (sel4 imm i) else lane 32 y (sel4 imm i)

/-- `_mm_shuffle_pd`: one lane of `x`, then one lane of `y`; only the two low bits of the immediate
are used. -/
def shufflePd (x y : M128) (imm : Nat) : M128 :=
  ofLanes 64 fun i => if i = 0 then lane 64 x (imm % 2) else lane 64 y (imm / 2 % 2)

/-- `_mm_movelh_ps`: the low half of `x`, then the low half of `y`. -/
def movelh (x y : M128) : M128 := ofLanes 64 fun i => if i = 0 then lane 64 x 0 else lane 64 y 0

/-- `_mm_movehl_ps`: the high half of `y`, then the high half of `x`. -/
def movehl (x y : M128) : M128 := ofLanes 64 fun i => if i = 0 then lane 64 y 1 else lane 64 x 1

/-- Saturation of a signed value of `w` bits to a signed value of `v` bits. -/
def satSigned {w : Nat} (v : Nat) (a : BitVec w) : BitVec v :=
  if a.toInt < -(2 : Int) ^ (v - 1) then BitVec.ofInt v (-(2 : Int) ^ (v - 1))
  else if (2 : Int) ^ (v - 1) - 1 < a.toInt then BitVec.ofInt v ((2 : Int) ^ (v - 1) - 1)
  else BitVec.ofInt v a.toInt

/-- Saturation of a signed value of `w` bits to an unsigned value of `v` bits. -/
def satUnsigned {w : Nat} (v : Nat) (a : BitVec w) : BitVec v :=
  if a.toInt < 0 then 0#v
  else if (2 : Int) ^ v - 1 < a.toInt then BitVec.allOnes v
  else BitVec.ofInt v a.toInt

/-- `_mm_packs_epi32` (`v = 16`), `_mm_packs_epi16` (`v = 8`): signed saturation of the lanes of `x`
followed by those of `y`. -/
def packs (v : Nat) (x y : M128) : M128 :=
  ofLanes v fun i =>
    if i < 64 / v then satSigned v (lane (2 * v) x i)
    else satSigned v (lane (2 * v) y (i - 64 / v))

/-- `_mm_packus_epi32` (`v = 16`, SSE4.1), `_mm_packus_epi16` (`v = 8`): unsigned saturation. -/
def packus (v : Nat) (x y : M128) : M128 :=
  ofLanes v fun i =>
    if i < 64 / v then satUnsigned v (lane (2 * v) x i)
    else satUnsigned v (lane (2 * v) y (i - 64 / v))

/-- `_mm_movemask_epi8` (`w = 8`), `_mm_movemask_ps` (`w = 32`), `_mm_movemask_pd` (`w = 64`): the
number made of the top bits of the lanes. -/
def movemask {n : Nat} (w : Nat) (x : BitVec n) : Nat := natOfBits (fun i => (lane w x i).msb) (n / w)

/-- `_mm_blendv_epi8` (`w = 8`), `_mm_blendv_ps` (`w = 32`), `_mm_blendv_pd` (`w = 64`) of SSE4.1: the
top bit of the mask lane selects `y`. -/
def blendvIntr {n : Nat} (w : Nat) (x y m : BitVec n) : BitVec n :=
  ofLanes w fun i => if (lane w m i).msb then lane w y i else lane w x i

/-- `_mm_blend_epi16` (`w = 16`), `_mm_blend_ps` (`w = 32`), `_mm_blend_pd` (`w = 64`) of SSE4.1: bit
`i` of the immediate selects `y`. -/
def blendImm {n : Nat} (w : Nat) (x y : BitVec n) (imm : Nat) : BitVec n :=
  ofLanes w fun i => if imm.testBit i then lane w y i else lane w x i

/-- `_mm_andnot_si128(x, y)` is `~x & y`. -/
def andnot {n : Nat} (x y : BitVec n) : BitVec n := ~~~x &&& y

end Vc.Model
