import Verif.Model.FloatCvt
import Verif.Model.Interleave
import Verif.Model.SseShuffle

/-!
`Vc::deinterleave(&a, &b, memory, align)` (/repo/Vc/common/deinterleave.h:76-87) for the combinations of
vector type and memory type its documentation lists.

Memory as in `Model/Interleave.lean`: entries of `w` bits, an access outside of the objects makes the result
`none`.  The alignment flags select between load instructions that read the same bytes; they are not modelled.
Results are the registers of `a` and `b`.

`Detail::deinterleave` with three vectors (/repo/Vc/avx/deinterleave.tcc:33-106, 275-287) cannot be called
through a public function and is not modelled.
-/

namespace Vc.Model
open Vc.Spec

/-- `v.load(m, align)`, `Detail::load32(m, align)` without conversion: one register full of entries. -/
def loadReg {w : Nat} (n : Nat) (m : ILMem w) (a : Int) : Option (BitVec n) :=
  if ∀ j, j < n / w → (m (a + Int.ofNat j)).isSome then
    some (ofLanes w fun j => (m (a + Int.ofNat j)).getD 0)
  else none

/-- `a.load(m, align); b.load(m + V::Size, align);`. -/
def loadTwo {w : Nat} (n : Nat) (m : ILMem w) (a : Int) : Option (BitVec n × BitVec n) := do
  let x ← loadReg n m a
  let y ← loadReg n m (a + Int.ofNat (n / w))
  return (x, y)

/-! ### Scalar -/

/-- /repo/Vc/scalar/helperimpl.h:36-42; the conversion of the assignment is left to the caller. -/
def deintScalar {w : Nat} (m : ILMem w) (a : Int) : Option (BitVec w × BitVec w) := do
  let x ← m (a + 0)
  let y ← m (a + 1)
  return (x, y)

/-! ### SSE -/

/-- float_v, int_v, uint_v (/repo/Vc/sse/deinterleave.tcc:33-39, 60-74). -/
def deint32 (a b : M128) : M128 × M128 :=
  let tmp0 := unpacklo 32 a b
  let tmp1 := unpackhi 32 a b
  (unpacklo 32 tmp0 tmp1, unpackhi 32 tmp0 tmp1)

/-- double_v (/repo/Vc/sse/deinterleave.tcc:53-58). -/
def deint64 (a b : M128) : M128 × M128 :=
  let tmp := unpacklo 64 a b
  let b := unpackhi 64 a b
  (tmp, b)

/-- short_v, ushort_v (/repo/Vc/sse/deinterleave.tcc:76-94). -/
def deint16 (a b : M128) : M128 × M128 :=
  let tmp0 := unpacklo 16 a b
  let tmp1 := unpackhi 16 a b
  let tmp2 := unpacklo 16 tmp0 tmp1
  let tmp3 := unpackhi 16 tmp0 tmp1
  (unpacklo 16 tmp2 tmp3, unpackhi 16 tmp2 tmp3)

/-- int_v from short (/repo/Vc/sse/deinterleave.tcc:96-100). -/
def deintIntShort (tmp : M128) : M128 × M128 := (sraiEpi 32 (slliEpi 32 tmp 16) 16, sraiEpi 32 tmp 16)

/-- uint_v from unsigned short (/repo/Vc/sse/deinterleave.tcc:102-106). -/
def deintUintUshort (tmp : M128) : M128 × M128 := (srliEpi 32 (slliEpi 32 tmp 16) 16, srliEpi 32 tmp 16)

/-- float_v from short (/repo/Vc/sse/deinterleave.tcc:41-45). -/
def deintFloatShort (tmp : M128) : M128 × M128 :=
  (cvtepi32PsN (sraiEpi 32 (slliEpi 32 tmp 16) 16), cvtepi32PsN (sraiEpi 32 tmp 16))

/-- float_v from unsigned short (/repo/Vc/sse/deinterleave.tcc:47-51). -/
def deintFloatUshort (tmp : M128) : M128 × M128 :=
  (cvtepi32PsN (srliEpi 32 (slliEpi 32 tmp 16) 16), cvtepi32PsN (srliEpi 32 tmp 16))

/-- The functions that load (/repo/Vc/sse/deinterleave.tcc:114-188): of two registers, of one register. -/
def sseDeint {w : Nat} (f : M128 → M128 → M128 × M128) (m : ILMem w) (a : Int) : Option (M128 × M128) := do
  let (x, y) ← loadTwo 128 m a
  return f x y
def sseDeintCvt (f : M128 → M128 × M128) (m : ILMem 16) (a : Int) : Option (M128 × M128) := do
  let tmp ← loadReg 128 m a
  return f tmp

/-! ### AVX -/

/-- `Reg::permute128<H, L>(x, y)` (/repo/Vc/avx/shuffle.h:254-275). -/
def regPermute128 (h l : Nat) (x y : M256) : Option M256 :=
  if l ≤ 9 ∧ h ≤ 9 then
    some (permute2f128 x y ((if l < 8 then l else l - 8 + 2) + (if h < 8 then h else h - 8 + 2) * 16))
  else none

/-- float_v (/repo/Vc/avx/deinterleave.tcc:108-120). -/
def deint32Avx (a b : M256) : Option (M256 × M256) := do
  let tmp0 ← regPermute128 8 0 a b
  let tmp1 ← regPermute128 9 1 a b
  let tmp2 := unpacklo256 32 tmp0 tmp1
  let tmp3 := unpackhi256 32 tmp0 tmp1
  return (unpacklo256 32 tmp2 tmp3, unpackhi256 32 tmp2 tmp3)

/-- int_v, uint_v (/repo/Vc/avx/deinterleave.tcc:198-212, 229-243). -/
def deint32iAvx (a b : M256) : Option (M256 × M256) := do
  let tmp0 ← memShuffle128 0 8 a b
  let tmp1 ← memShuffle128 1 9 a b
  let tmp2 := unpacklo256 32 tmp0 tmp1
  let tmp3 := unpackhi256 32 tmp0 tmp1
  return (unpacklo256 32 tmp2 tmp3, unpackhi256 32 tmp2 tmp3)

/-- double_v (/repo/Vc/avx/deinterleave.tcc:183-195). -/
def deint64Avx (a b : M256) : Option (M256 × M256) := do
  let tmp0 ← memShuffle128 0 8 a b
  let tmp1 ← memShuffle128 1 9 a b
  return (unpacklo256 64 tmp0 tmp1, unpackhi256 64 tmp0 tmp1)

/-- short_v, ushort_v (/repo/Vc/avx/deinterleave.tcc:122-145). -/
def deint16Avx (a b : M256) : Option (M256 × M256) := do
  let v0 ← memShuffle128 0 8 a b
  let v1 ← memShuffle128 1 9 a b
  let v2 := unpacklo256 16 v0 v1
  let v3 := unpackhi256 16 v0 v1
  let v0 := unpacklo256 16 v2 v3
  let v1 := unpackhi256 16 v2 v3
  return (unpacklo256 16 v0 v1, unpackhi256 16 v0 v1)

/-- int_v from short (/repo/Vc/avx/deinterleave.tcc:215-226). -/
def deintIntShortAvx (tmp : M256) : M256 × M256 :=
  (concat128 (sraiEpi 32 (slliEpi 32 (lo128 tmp) 16) 16) (sraiEpi 32 (slliEpi 32 (hi128 tmp) 16) 16),
    concat128 (sraiEpi 32 (lo128 tmp) 16) (sraiEpi 32 (hi128 tmp) 16))

/-- uint_v from unsigned short (/repo/Vc/avx/deinterleave.tcc:246-257). -/
def deintUintUshortAvx (tmp : M256) : M256 × M256 :=
  (concat128 (sraiEpi 32 (slliEpi 32 (lo128 tmp) 16) 16) (sraiEpi 32 (slliEpi 32 (hi128 tmp) 16) 16),
    concat128 (sraiEpi 32 (lo128 tmp) 16) (sraiEpi 32 (hi128 tmp) 16))

/-- float_v from short (/repo/Vc/avx/deinterleave.tcc:159-168). -/
def deintFloatShortAvx (tmp : M256) : M256 × M256 :=
  (cvtepi32PsN (concat128 (sraiEpi 32 (slliEpi 32 (lo128 tmp) 16) 16) (sraiEpi 32 (slliEpi 32 (hi128 tmp) 16) 16)),
    cvtepi32PsN (concat128 (sraiEpi 32 (lo128 tmp) 16) (sraiEpi 32 (hi128 tmp) 16)))

/-- float_v from unsigned short (/repo/Vc/avx/deinterleave.tcc:171-180). -/
def deintFloatUshortAvx (tmp : M256) : M256 × M256 :=
  (cvtepi32PsN (concat128 (blendImm 16 (lo128 tmp) 0#128 0xaa) (blendImm 16 (hi128 tmp) 0#128 0xaa)),
    cvtepi32PsN (concat128 (srliEpi 32 (lo128 tmp) 16) (srliEpi 32 (hi128 tmp) 16)))

/-- The functions that load (/repo/Vc/avx/deinterleave.tcc:149-273). -/
def avxDeint {w : Nat} (f : M256 → M256 → Option (M256 × M256)) (m : ILMem w) (a : Int) : Option (M256 × M256) := do
  let (x, y) ← loadTwo 256 m a
  f x y
def avxDeintCvt (f : M256 → M256 × M256) (m : ILMem 16) (a : Int) : Option (M256 × M256) := do
  let tmp ← loadReg 256 m a
  return f tmp

end Vc.Model
