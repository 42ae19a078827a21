import Verif.Model.GatherAvx2
import Verif.Model.Subscript

/-!
# Gathers without gather instructions (/repo/Vc/sse/vector.tcc:326-347, /repo/Vc/avx/vector.tcc:388-430,
/repo/Vc/common/set.h)

`d.v() = _mm_setr_ps(Vc_M(0), ..., Vc_M(3))` with `Vc_M(i)` being
`static_cast<value_type>(args.address[Scale * args.indexes[i]])`. The conversion from the type of the memory, of `mt`
bytes, is an arbitrary function `conv`.
-/

namespace Vc.Model
open Vc.Spec

/-- `unsigned int tmp = x1; tmp = (tmp << 16) | x0;` (/repo/Vc/common/set.h:51-54, 64-67, 76-79). -/
def pair16 (x1 x0 : BitVec 16) : BitVec 32 := (x1.setWidth 32 <<< 16) ||| x0.setWidth 32

/-- `movd`: the other bits of the register are cleared. -/
def movd (x : BitVec 32) : M128 := x.setWidth 128

/-- `pinsrd $i`. -/
def pinsrd (i : Nat) (v : BitVec 32) (r : M128) : M128 := ofLanes 32 fun j => if j = i then v else lane 32 r j

/-- `Vc::set(x0, ..., x7)` (/repo/Vc/common/set.h:35-81), with assembler instructions (with or without VEX coding) or with
`_mm_setr_epi32`. -/
def set16 (asm : Bool) (x : Nat → BitVec 16) : M128 :=
  let tmp0 := pair16 (x 1) (x 0)
  let tmp1 := pair16 (x 3) (x 2)
  let tmp2 := pair16 (x 5) (x 4)
  let tmp3 := pair16 (x 7) (x 6)
  if asm then
    let r0 := movd tmp0
    let r0 := pinsrd 1 tmp1 r0
    let r1 := movd tmp2
    let r1 := pinsrd 1 tmp3 r1
    unpacklo 64 r0 r1
  else setr 32 [tmp0, tmp1, tmp2, tmp3]

/-- `Scale * args.indexes[i]`, where `Scale` is an `int`: indexes of less than 32 bits are promoted to `int`, in `unsigned`
the product is modulo a power of two; `none`: signed overflow (undefined behaviour). -/
def scaledIndex (Scale : Nat) (sgn : Bool) {b : Nat} (x : BitVec b) : Option Int :=
  let v := (Scale : Int) * indexValue sgn x
  let B := max b 32
  if b < 32 ∨ sgn then
    if -2 ^ (B - 1) ≤ v ∧ v < 2 ^ (B - 1) then some v else none
  else some (v % 2 ^ B)

/-- `Vc_M(i)`. -/
def gatherEntry (w mt : Nat) (conv : BitVec (8 * mt) → BitVec w) (Scale : Nat) (sgn : Bool) {b : Nat} (m : ByteMem) (a : Int)
    (x : BitVec b) : Option (BitVec w) := do
  let k ← scaledIndex Scale sgn x
  let e ← loadLE m (a + k * (mt : Int)) mt
  return conv (BitVec.ofNat (8 * mt) e)

/-- `gatherImplementation(args)`: 16-bit entries of SSE with `Vc::set`, others with `_mm_setr_...` or `_mm256_setr_...`. -/
def gatherSet {n : Nat} (asm : Bool) (w mt : Nat) (conv : BitVec (8 * mt) → BitVec w) (Scale : Nat) (sgn : Bool) {b : Nat}
    (m : ByteMem) (a : Int) (idx : Nat → BitVec b) : Option (BitVec n) := do
  let es ← (List.range (n / w)).mapM fun i => gatherEntry w mt conv Scale sgn m a (idx i)
  if n = 128 ∧ w = 16 then
    return (set16 asm fun i => (es.getD i 0).setWidth 16).setWidth n
  else
    return setr w es

end Vc.Model
