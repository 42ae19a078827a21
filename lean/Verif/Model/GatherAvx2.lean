import Verif.Model.Masked
import Verif.Model.AvxMask
import Verif.Model.FloatCvt

/-!
Gathers with the AVX2 gather instructions (/repo/Vc/sse/vector.h:153-222, /repo/Vc/avx/vector.h:196-283,
/repo/Vc/sse/intrinsics.h:621-654, /repo/Vc/avx/intrinsics.h:588-621).

Memory is a function from byte addresses to bytes; a byte that must not be read is `none`, and so is the outcome
of reading it.  Addresses are integers, there is no wrap around at `2 ^ 64`.  The instructions take the scale as
an immediate operand, which has to be 1, 2, 4 or 8; the compiler rejects other ones, here they are multiplied
like any other number.  `idx i` is the number entry `i` of the index vector stands for.
-/

namespace Vc.Model

open Vc.Spec

/-- Memory, byte by byte. -/
abbrev ByteMem := Int → Option (BitVec 8)

/-- A load of `k` bytes, little endian. -/
def loadLE (m : ByteMem) (a : Int) : Nat → Option Nat
  | 0 => some 0
  | k + 1 => do
    let b ← m a
    let r ← loadLE m (a + 1) k
    some (b.toNat + 256 * r)

/-- `_mm_i32gather_ps`, `_mm_i32gather_pd`, `_mm_i32gather_epi32`, `_mm256_i32gather_…`: `n` bits of result
in lanes of `w` bits, indexes in a register of `l` bits. -/
def i32gather {l n : Nat} (w scale : Nat) (m : ByteMem) (a : Int) (idx : BitVec l) : Option (BitVec n) :=
  generate w fun i => (loadLE m (a + (lane 32 idx i).toInt * scale) (w / 8)).map (BitVec.ofNat w)

/-- `_mm_mask_i32gather_ps`, …: lanes with the highest bit of the mask clear are taken from `src`, nothing is
read for them. -/
def maskI32gather {l n : Nat} (w scale : Nat) (src k : BitVec n) (m : ByteMem) (a : Int) (idx : BitVec l) :
    Option (BitVec n) :=
  generate w fun i =>
    if (lane w k i).msb then (loadLE m (a + (lane 32 idx i).toInt * scale) (w / 8)).map (BitVec.ofNat w)
    else some (lane w src i)

/-- `simd_cast<int_v>` of the index vector: every entry modulo `2 ^ 32` (C26, C52). -/
def toIntV (l : Nat) (idx : Nat → Int) : BitVec l := ofLanes 32 fun i => BitVec.ofInt 32 (idx i)

/-- `conditional_t<Size == 4, SSE::int_v, AVX2::int_v>` in AVX vectors, `SSE::int_v` in SSE vectors. -/
def idxBits (n w : Nat) : Nat := if n = 256 ∧ ¬ n / w = 4 then 256 else 128

/-- `gatherImplementation` without conversion, entries of `w = 32` or `w = 64` bits
(/repo/Vc/sse/vector.h:159-166, /repo/Vc/avx/vector.h:204-213). -/
def gatherNative {n : Nat} (w Scale : Nat) (m : ByteMem) (a : Int) (idx : Nat → Int) : Option (BitVec n) :=
  i32gather w (w / 8 * Scale) m a (toIntV (idxBits n w) idx)

/-- The masked overload (/repo/Vc/sse/vector.h:168-177, /repo/Vc/avx/vector.h:215-225). -/
def gatherNativeMasked {n : Nat} (w Scale : Nat) (x k : BitVec n) (m : ByteMem) (a : Int) (idx : Nat → Int) :
    Option (BitVec n) :=
  maskI32gather w (w / 8 * Scale) x k m a (toIntV (idxBits n w) idx)

/-- After gathering from 8-bit types (`mt = 1`): sign extension for signed (`ms`) ones, zero extension for
unsigned ones, in lanes of 16 bits (/repo/Vc/sse/vector.h:192-198, /repo/Vc/avx/vector.h:244-251). -/
def fixByte {n : Nat} (mt : Nat) (ms : Bool) (v : BitVec n) : BitVec n :=
  if mt = 1 then
    if ms then sraiEpi 16 (slliEpi 16 v 8) 8 else v &&& set1 16 0xff#16
  else v

/-- `simd_cast<SSE::short_v>(AVX2::int_v)`, `simd_cast<SSE::ushort_v>(AVX2::int_v)`
(/repo/Vc/avx/simd_cast.h:1577-1578). -/
def narrow16 (sgn : Bool) (x : M256) : M128 := if sgn then cvtIntShortAvx true x else cvtIntUshortAvx x

/-- `simd_cast<AVX2::short_v>(int_v, int_v)`, `simd_cast<AVX2::ushort_v>(int_v, int_v)`
(/repo/Vc/avx/simd_cast.h:1302-1309, 1368-1374). -/
def narrow16x2 (sgn : Bool) (x0 x1 : M256) : Option M256 :=
  if sgn then simdCastIntShort2 x0 x1 else simdCastIntUshort2 x0 x1

/-- `gatherImplementation` of SSE::short_v (`sgn`) and SSE::ushort_v from integers of `mt = 1` or `mt = 2` bytes
(/repo/Vc/sse/vector.h:182-199). -/
def gather16Sse (sgn : Bool) (mt : Nat) (ms : Bool) (Scale : Nat) (m : ByteMem) (a : Int) (idx : Nat → Int) :
    Option M128 := do
  let g ← i32gather 32 (mt * Scale) m a (toIntV 256 idx)
  return fixByte mt ms (narrow16 sgn g)

/-- The masked overload (/repo/Vc/sse/vector.h:203-222).  `ext`, `u`: see `zeroExtend`, `castTo256`. -/
def gather16SseMasked (I : Isa) (ext : Option M128) (u : M128) (sgn : Bool) (mt : Nat) (ms : Bool) (Scale : Nat)
    (x k : M128) (m : ByteMem) (a : Int) (idx : Nat → Int) : Option M128 := do
  let k' ← amFromSse ext u false 16 32 k
  let g ← maskI32gather 32 (mt * Scale) 0#256 k' m a (toIntV 256 idx)
  return sseAssign I 8 x (fixByte mt ms (narrow16 sgn g)) k

/-- `gatherImplementation` of AVX2::short_v and AVX2::ushort_v (/repo/Vc/avx/vector.h:230-252). -/
def gather16Avx (sgn : Bool) (mt : Nat) (ms : Bool) (Scale : Nat) (m : ByteMem) (a : Int) (idx : Nat → Int) :
    Option M256 := do
  let g0 ← i32gather 32 (mt * Scale) m a (toIntV 256 idx)
  let g1 ← i32gather 32 (mt * Scale) m a (toIntV 256 fun i => idx (8 + i))
  let v ← narrow16x2 sgn g0 g1
  return fixByte mt ms v

/-- The masked overload (/repo/Vc/avx/vector.h:255-283). -/
def gather16AvxMasked (ext : Option M128) (sgn : Bool) (mt : Nat) (ms : Bool) (Scale : Nat)
    (x k : M256) (m : ByteMem) (a : Int) (idx : Nat → Int) : Option M256 := do
  let k0 ← amCast ext 16 8 k
  let k1 ← amCastOffset 16 8 1 k
  let g0 ← maskI32gather 32 (mt * Scale) 0#256 k0 m a (toIntV 256 idx)
  let g1 ← maskI32gather 32 (mt * Scale) 0#256 k1 m a (toIntV 256 fun i => idx (8 + i))
  let v ← narrow16x2 sgn g0 g1
  return avxAssign true 8 x (fixByte mt ms v) k

end Vc.Model
