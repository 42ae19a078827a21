import Verif.Model.SseInt
import Verif.Model.Float

/-!
Division and remainder of the SSE integer vectors.
-/

namespace Vc.Model

open Vc.Spec

/-- `_mm_cvtepi32_ps`. -/
def cvtepi32Ps (x : M128) : M128 := map1 32 (cvtI2F f32 32) x

/-- `_mm_cvttps_epi32`. -/
def cvttpsEpi32 (x : M128) : M128 := map1 32 (cvttF2I f32) x

/-- `_mm_div_ps`. -/
def divPs (x y : M128) : M128 := map2 32 (fDiv f32) x y

/-- `operator/` of short_v (`sgn`) and ushort_v (/repo/Vc/sse/vector.tcc:145-157). -/
def vDiv16 (I : Isa) (sgn : Bool) (a b : M128) : M128 :=
  let expand0 := if sgn then expand0S else expand0U
  let expand1 := if sgn then expand1S else expand1U
  let lo := cvtepi32Ps (expand0 a)
  let hi := cvtepi32Ps (expand1 a)
  let lo := divPs lo (cvtepi32Ps (expand0 b))
  let hi := divPs hi (cvtepi32Ps (expand1 b))
  if sgn then concatS (cvttpsEpi32 lo) (cvttpsEpi32 hi) else concatU I (cvttpsEpi32 lo) (cvttpsEpi32 hi)

/-- The division of two `int` or `unsigned int`; `none` for a zero divisor and for
`INT_MIN / -1`. -/
def divInt (sgn : Bool) (a b : BitVec 32) : Option (BitVec 32) :=
  if b = 0#32 then none
  else if sgn then
    (if a.toInt = -2 ^ 31 ∧ b.toInt = -1 then none else some (BitVec.ofInt 32 (a.toInt.tdiv b.toInt)))
  else some (BitVec.ofNat 32 (a.toNat / b.toNat))

/-- `operator/` of int_v and uint_v (/repo/Vc/sse/vector.tcc:138-144); `generate` calls the function
for the lanes 0 .. 3 (/repo/Vc/sse/vector.tcc:654-661). -/
def vDiv32 (sgn : Bool) (a b : M128) : Option M128 := do
  let r0 ← divInt sgn (lane 32 a 0) (lane 32 b 0)
  let r1 ← divInt sgn (lane 32 a 1) (lane 32 b 1)
  let r2 ← divInt sgn (lane 32 a 2) (lane 32 b 2)
  let r3 ← divInt sgn (lane 32 a 3) (lane 32 b 3)
  pure (ofLanes 32 fun i => if i = 0 then r0 else if i = 1 then r1 else if i = 2 then r2 else r3)

/-- `operator%` of short_v and ushort_v: `a - a / b * b` (/repo/Vc/sse/vector.tcc:158-163). -/
def vMod16 (I : Isa) (sgn : Bool) (a b : M128) : M128 := subEpi 16 a (vMul I 16 (vDiv16 I sgn a b) b)

/-- `operator%` of int_v and uint_v (/repo/Vc/sse/vector.tcc:158-163). -/
def vMod32 (I : Isa) (sgn : Bool) (a b : M128) : Option M128 := do
  let q ← vDiv32 sgn a b
  pure (subEpi 32 a (vMul I 32 q b))

end Vc.Model
