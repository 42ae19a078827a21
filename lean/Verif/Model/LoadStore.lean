import Verif.Model.GatherAvx2
import Verif.Model.AvxInt
import Verif.Spec.LoadStore

/-!
Loads and stores of native vectors (/repo/Vc/sse/detail.h:40-330, /repo/Vc/avx/detail.h:36-448,
/repo/Vc/sse/vectorhelper.h:46-108, /repo/Vc/avx/vectorhelper.h:42-83, /repo/Vc/avx/intrinsics.h:489-582,
/repo/Vc/sse/intrinsics.h:577-612).

Memory is byte addressed as in `Verif.Model.GatherAvx2`.  A load or store of memory that must not be accessed, and
one that requires an alignment the address does not have, has the outcome `none`.  Prefetches
(`handleLoadPrefetches`, `handleStorePrefetches`) have no effect on values and are left out.
-/

namespace Vc.Model

open Vc.Spec

/-- The flags a load or store depends on (/repo/Vc/common/loadstoreflags.h:95-98). -/
structure LFlags where
  unaligned : Bool
  streaming : Bool
  deriving DecidableEq, Repr

/-! ### Load instructions -/

/-- `_mm_loadu_…`, `_mm256_loadu_…`. -/
def loadu (n : Nat) (m : ByteMem) (a : Int) : Option (BitVec n) := (loadLE m a (n / 8)).map (BitVec.ofNat n)

/-- `_mm_load_…`, `_mm256_load_…`, `_mm_stream_load_si128`: the address must be a multiple of the size. -/
def loada (n : Nat) (m : ByteMem) (a : Int) : Option (BitVec n) :=
  if a % ((n / 8 : Nat) : Int) = 0 then loadu n m a else none

/-- `_mm_loadl_epi64`, `_mm_loadl_pi(_mm_setzero_ps(), …)` (`k = 8`) and
`_mm_cvtsi32_si128(*aliasing_cast<int>(mem))` (`k = 4`): `k` bytes, the rest of the register is zero, no alignment
is required. -/
def loadLow (k : Nat) (m : ByteMem) (a : Int) : Option M128 := (loadLE m a k).map (BitVec.ofNat 128)

/-- `load16` and `VectorHelper<__m128>::load`, … (/repo/Vc/sse/detail.h:75-113, /repo/Vc/sse/vectorhelper.h:50-52,
73-75,96-98); streaming and aligned: `_mm_stream_load` (/repo/Vc/sse/intrinsics.h:577-612). -/
def load16 (fl : LFlags) (m : ByteMem) (a : Int) : Option M128 :=
  if fl.unaligned then loadu 128 m a else loada 128 m a

/-- `AvxIntrinsics::stream_load` (/repo/Vc/avx/intrinsics.h:520-550). -/
def streamLoad256 (m : ByteMem) (a : Int) : Option M256 := do
  let lo ← loada 128 m a
  let hi ← loada 128 m (a + 16)
  return concat128 lo hi

/-- `load32` and the loads without conversion (/repo/Vc/avx/detail.h:38-293). -/
def load32 (fl : LFlags) (m : ByteMem) (a : Int) : Option M256 :=
  if fl.unaligned then loadu 256 m a else if fl.streaming then streamLoad256 m a else loada 256 m a

/-! ### SSE -/

/-- Loads into SSE::short_v (`LoadTag<__m128i, short>`) and SSE::ushort_v
(/repo/Vc/sse/detail.h:186-217); `none` also stands for an overload that does not exist. -/
def sseLoadShort (I : Isa) (fl : LFlags) (m : ByteMem) (a : Int) : ETy → Option M128
  | .short | .ushort => load16 fl m a
  | .uchar => (loadLow 8 m a).map (cvtepu8epi16 I)
  | .schar => (loadLow 8 m a).map (cvtepi8epi16 I)
  | _ => none

/-- Loads into SSE::int_v and SSE::uint_v (/repo/Vc/sse/detail.h:219-258). -/
def sseLoadInt (I : Isa) (fl : LFlags) (m : ByteMem) (a : Int) : ETy → Option M128
  | .int | .uint => load16 fl m a
  | .ushort => (loadLow 8 m a).map (cvtepu16epi32 I)
  | .short => (loadLow 8 m a).map (cvtepi16epi32 I)
  | .uchar => (loadLow 4 m a).map (cvtepu8epi32 I)
  | .schar => (loadLow 4 m a).map (cvtepi8epi32 I)
  | _ => none

/-- Loads into SSE::double_v (/repo/Vc/sse/detail.h:260-303).  The overloads for `uchar` and `schar` call
`SSE::convert<uchar, double>` and `SSE::convert<char, double>`, which do not exist (/repo/Vc/sse/casts.h:56-148). -/
def sseLoadDouble (I : Isa) (fl : LFlags) (m : ByteMem) (a : Int) : ETy → Option M128
  | .double => load16 fl m a
  | .float => (loadLow 8 m a).map cvtpsPd
  | .uint => (loadLow 8 m a).map cvtUintDouble
  | .int => (loadLow 8 m a).map cvtIntDouble
  | .ushort => (loadLow 4 m a).map (cvtUshortDouble I)
  | .short => (loadLow 4 m a).map (cvtShortDouble I)
  | _ => none

/-- Load into SSE::float_v from double (/repo/Vc/sse/detail.h:305-320). -/
def sseLoadFloatDouble (avx : Bool) (fl : LFlags) (m : ByteMem) (a : Int) : Option M128 :=
  if avx then (load32 fl m a).map cvtpdPs256
  else do
    let x0 ← load16 fl m a
    let x1 ← load16 fl m (a + 16)
    return movelh (cvtpdPs x0) (cvtpdPs x1)

/-- Loads into SSE::float_v (/repo/Vc/sse/detail.h:305-331). -/
def sseLoadFloat (I : Isa) (avx : Bool) (fl : LFlags) (m : ByteMem) (a : Int) : ETy → Option M128
  | .float => load16 fl m a
  | .double => sseLoadFloatDouble avx fl m a
  | .uint => (load16 fl m a).map (cvtUintFloat I)
  | t => (sseLoadInt I fl m a t).map cvtepi32PsN

/-- `SSE::Vector<Dst>(const Src *, flags)`. -/
def sseLoad (I : Isa) (avx : Bool) (fl : LFlags) (m : ByteMem) (a : Int) (dst src : ETy) : Option M128 :=
  match dst with
  | .double => sseLoadDouble I fl m a src
  | .float => sseLoadFloat I avx fl m a src
  | .int | .uint => sseLoadInt I fl m a src
  | .short | .ushort => sseLoadShort I fl m a src
  | _ => none

/-! ### AVX -/

/-- `Vc_AVX_TO_SSE_1_128(cvtepi8_epi16, 8)`, … (/repo/Vc/avx/intrinsics.h:253-254,271-277,362-373): entries of `v`
bits extended to `w` bits, with AVX2 at once, else half by half, the second half after a shift by `sh` bytes. -/
def avxExtend (avx2 sgn : Bool) (v w sh : Nat) (x : M128) : M256 :=
  if avx2 then ofLanes w fun i => if sgn then (lane v x i).signExtend w else (lane v x i).zeroExtend w
  else if sgn then concat128 (cvtepiIntr v w x) (cvtepiIntr v w (srliSi128 x sh))
  else concat128 (cvtepuIntr v w x) (cvtepuIntr v w (srliSi128 x sh))

/-- Loads into AVX2::short_v and AVX2::ushort_v (/repo/Vc/avx/detail.h:295-318). -/
def avxLoadShort (avx2 : Bool) (fl : LFlags) (m : ByteMem) (a : Int) : ETy → Option M256
  | .short | .ushort => load32 fl m a
  | .uchar => (load16 fl m a).map (avxExtend avx2 false 8 16 8)
  | .schar => (load16 fl m a).map (avxExtend avx2 true 8 16 8)
  | _ => none

/-- Loads into AVX2::int_v and AVX2::uint_v (/repo/Vc/avx/detail.h:320-357). -/
def avxLoadInt (avx2 : Bool) (fl : LFlags) (m : ByteMem) (a : Int) : ETy → Option M256
  | .int | .uint => load32 fl m a
  | .ushort => (load16 fl m a).map (avxExtend avx2 false 16 32 8)
  | .short => (load16 fl m a).map (avxExtend avx2 true 16 32 8)
  | .uchar => (loadLow 8 m a).map (avxExtend avx2 false 8 32 4)
  | .schar => (loadLow 8 m a).map (avxExtend avx2 true 8 32 4)
  | _ => none

/-- Loads into AVX::double_v (/repo/Vc/avx/detail.h:359-394); the last four overloads load 16 bytes and convert
them as four ints. -/
def avxLoadDouble (fl : LFlags) (m : ByteMem) (a : Int) : ETy → Option M256
  | .double => load32 fl m a
  | .float => (load16 fl m a).map cvtpsPd256
  | .uint => (load16 fl m a).map cvtUintDoubleAvx
  | .int => (load16 fl m a).map cvtIntDoubleAvx
  | .ushort | .short | .uchar | .schar => (load16 fl m a).map cvtIntDoubleAvx

/-- Load into AVX::float_v from double (/repo/Vc/avx/detail.h:396-401). -/
def avxLoadFloatDouble (fl : LFlags) (m : ByteMem) (a : Int) : Option M256 := do
  let x0 ← load32 fl m a
  let x1 ← load32 fl m (a + 32)
  return concat128 (cvtpdPs256 x0) (cvtpdPs256 x1)

/-- The conversion in the load of AVX::float_v from unsigned int (/repo/Vc/avx/detail.h:402-411). -/
def avxUintFloat (avx2 : Bool) (v : M256) : M256 :=
  blendvIntr 32 (cvtepi32PsN v)
    (map2 32 (fAdd f32) (cvtepi32PsN (avx2op avx2 (subEpi 32) (subEpi 32) v (set1 32 0x80000000#32))) (set1 32 two31f))
    (avx2op avx2 (cmpgtEpi 32) (cmpgtEpi 32) 0#256 v)

/-- Loads into AVX::float_v (/repo/Vc/avx/detail.h:396-448). -/
def avxLoadFloat (avx2 : Bool) (fl : LFlags) (m : ByteMem) (a : Int) : ETy → Option M256
  | .float => load32 fl m a
  | .double => avxLoadFloatDouble fl m a
  | .uint => (load32 fl m a).map (avxUintFloat avx2)
  | .int => (load32 fl m a).map cvtIntFloatAvx
  | .ushort => (load16 fl m a).map (cvtUshortFloatAvx avx2)
  | .short => (load16 fl m a).map (cvtShortFloatAvx avx2)
  | t => (avxLoadInt avx2 fl m a t).map cvtepi32PsN

/-- `AVX2::Vector<Dst>(const Src *, flags)`. -/
def avxLoad (avx2 : Bool) (fl : LFlags) (m : ByteMem) (a : Int) (dst src : ETy) : Option M256 :=
  match dst with
  | .double => avxLoadDouble fl m a src
  | .float => avxLoadFloat avx2 fl m a src
  | .int | .uint => avxLoadInt avx2 fl m a src
  | .short | .ushort => avxLoadShort avx2 fl m a src
  | _ => none

/-! ### Store instructions -/

/-- Writes byte `b j` to address `a + j` for every `j < k` with `en j`. -/
def storeBytes (m : ByteMem) (a : Int) (k : Nat) (en : Nat → Bool) (b : Nat → BitVec 8) : Option ByteMem :=
  if (List.range k).all fun j => !en j || (m (a + j)).isSome then
    some fun x => if a ≤ x ∧ x < a + k ∧ en (x - a).toNat = true then some (b (x - a).toNat) else m x
  else none

/-- `_mm_storeu_…`, `_mm256_storeu_…`. -/
def storeu {n : Nat} (m : ByteMem) (a : Int) (x : BitVec n) : Option ByteMem :=
  storeBytes m a (n / 8) (fun _ => true) (lane 8 x)

/-- `_mm_store_…`, `_mm_stream_…`, `_mm256_store_…`, `_mm256_stream_…`. -/
def storea {n : Nat} (m : ByteMem) (a : Int) (x : BitVec n) : Option ByteMem :=
  if a % ((n / 8 : Nat) : Int) = 0 then storeu m a x else none

/-- `_mm_maskmoveu_si128`: the bytes whose mask byte has the highest bit set. -/
def maskmoveu (x k : M128) (m : ByteMem) (a : Int) : Option ByteMem :=
  storeBytes m a 16 (fun j => (lane 8 k j).msb) (lane 8 x)

/-- `_mm256_maskstore_ps`, `_mm256_maskstore_pd`, `_mm256_maskstore_epi32`: the lanes of `w` bits whose mask lane
has the highest bit set. -/
def maskstoreIntr (w : Nat) (m : ByteMem) (a : Int) (k x : M256) : Option ByteMem :=
  storeBytes m a 32 (fun j => (lane w k (j / (w / 8))).msb) (lane 8 x)

/-! ### Stores -/

/-- `SSE::Vector<T>::store(U *, flags)` (/repo/Vc/sse/vectorhelper.h:54-57,77-80,100-103,
/repo/Vc/sse/vector.tcc:258-264).  For the vectors of integers `U` is any arithmetic type
(/repo/Vc/common/storeinterface.h:38-42), and the register is written as it is. -/
def sseStore (fl : LFlags) (m : ByteMem) (a : Int) (x : M128) : Option ByteMem :=
  if fl.unaligned then
    if fl.streaming then maskmoveu x (BitVec.allOnes 128) m a else storeu m a x
  else storea m a x

/-- `SSE::Vector<T>::store(U *, mask, flags)` (/repo/Vc/sse/vectorhelper.h:60,83,106,
/repo/Vc/sse/vector.tcc:266-272). -/
def sseStoreMasked (m : ByteMem) (a : Int) (x k : M128) : Option ByteMem := maskmoveu x k m a

/-- `AvxIntrinsics::stream_store` (/repo/Vc/avx/intrinsics.h:552-582). -/
def streamStore256 (m : ByteMem) (a : Int) (x k : M256) : Option ByteMem := do
  let m1 ← maskmoveu (lo128 x) (lo128 k) m a
  maskmoveu (hi128 x) (hi128 k) m1 (a + 16)

/-- `_mm256_maskstore` (/repo/Vc/avx/intrinsics.h:489-513) for entries of `w` bits. -/
def maskstore256 (w : Nat) (m : ByteMem) (a : Int) (k x : M256) : Option ByteMem :=
  if w = 16 then do
    let m1 ← maskmoveu (lo128 x) (lo128 k) m a
    maskmoveu (hi128 x) (hi128 k) m1 (a + 2 * 8)
  else maskstoreIntr w m a k x

/-- `AVX2::Vector<T>::store(U *, flags)` (/repo/Vc/avx/vectorhelper.h:47-50,61-64,75-78,
/repo/Vc/avx/vector.tcc:314-322). -/
def avxStore (fl : LFlags) (m : ByteMem) (a : Int) (x : M256) : Option ByteMem :=
  if fl.unaligned then
    if fl.streaming then streamStore256 m a x (BitVec.allOnes 256) else storeu m a x
  else storea m a x

/-- `AVX2::Vector<T>::store(T *, mask, flags)` (/repo/Vc/avx/vectorhelper.h:52-53,66-67,80-81,
/repo/Vc/avx/vector.tcc:324-333). -/
def avxStoreMasked (w : Nat) (fl : LFlags) (m : ByteMem) (a : Int) (x k : M256) : Option ByteMem :=
  if fl.streaming then streamStore256 m a x k else maskstore256 w m a k x

end Vc.Model
