import Verif.Model.SseInt
import Verif.Model.Avx

/-!
The shift operators of the native integer vectors, entry types of 16 and 32 bits.
-/

namespace Vc.Model

/-- `_mm_cvtsi32_si128`. -/
def cvtsi32 (s : Int) : M128 := (BitVec.ofInt 32 s).zeroExtend 128

/-- The count operand of `_mm_sll_epiN`, `_mm_srl_epiN`, `_mm_sra_epiN`: the low 64 bits.  `_mm_slli_epiN`
and so on with a count that is not a constant are compiled to the same instructions. -/
def countReg (c : M128) : Nat := (c.setWidth 64).toNat

/-- `HT::shiftLeft` and `HT::shiftRight` of SSE (/repo/Vc/sse/vectorhelper.h:318-323, 431-436, 461-466,
562-567), which `operator<<(int)` and `operator>>(int)` return (/repo/Vc/sse/vector.tcc:298-311). -/
def sseShl (w : Nat) (x : M128) (s : Int) : M128 := slliEpi w x (countReg (cvtsi32 s))
def sseShr (sgn : Bool) (w : Nat) (x : M128) (s : Int) : M128 :=
  if sgn then sraiEpi w x (countReg (cvtsi32 s)) else srliEpi w x (countReg (cvtsi32 s))

/-- `Vc_AVX_TO_SSE_256_128`: a 256 bit operation, or a 128 bit operation on the two halves
(/repo/Vc/avx/intrinsics.h:241-245, 287-294). -/
def avxHalves (avx2 : Bool) (f256 : M256 → M256) (f128 : M128 → M128) (x : M256) : M256 :=
  if avx2 then f256 x else concat128 (f128 (lo128 x)) (f128 (hi128 x))

/-- `Detail::shiftLeft`, `Detail::shiftRight` (/repo/Vc/avx/detail.h:896-899, 911-914), the results of
`operator<<(int)` and `operator>>(int)` (/repo/Vc/avx/vector.tcc:362-375). -/
def avxShl (avx2 : Bool) (w : Nat) (x : M256) (s : Int) : M256 :=
  avxHalves avx2 (fun a => slliEpi w a (countReg (cvtsi32 s))) (fun a => slliEpi w a (countReg (cvtsi32 s))) x
def avxShr (avx2 sgn : Bool) (w : Nat) (x : M256) (s : Int) : M256 :=
  if sgn then
    avxHalves avx2 (fun a => sraiEpi w a (countReg (cvtsi32 s))) (fun a => sraiEpi w a (countReg (cvtsi32 s))) x
  else avxHalves avx2 (fun a => srliEpi w a (countReg (cvtsi32 s))) (fun a => srliEpi w a (countReg (cvtsi32 s))) x

/-! ### C++ shifts of single entries -/

/-- Integral promotion of an entry; 32 bit entries keep their type. -/
def promote (sgn : Bool) {w : Nat} (a : BitVec w) : BitVec 32 := if sgn then a.signExtend 32 else a.zeroExtend 32

/-- The value of a shift count; undefined (`none`) unless it is between 0 and 31. -/
def shiftCount (sgn : Bool) {w : Nat} (b : BitVec w) : Option Nat :=
  let c : Int := if sgn then b.toInt else b.toNat
  if 0 ≤ c ∧ c < 32 then some c.toNat else none

/-- `T(a << b)`.  A left shift of a negative number or past the sign bit is taken as two's complement,
which the standard says from C++20 on and compilers did before. -/
def cShl (sgn : Bool) {w : Nat} (a b : BitVec w) : Option (BitVec w) :=
  (shiftCount sgn b).map fun c => (promote sgn a <<< c).setWidth w

/-- `T(a >> b)`: logical for `unsigned int` only, the narrower types are promoted to `int`. -/
def cShr (sgn : Bool) {w : Nat} (a b : BitVec w) : Option (BitVec w) :=
  (shiftCount sgn b).map fun c =>
    (if w = 32 ∧ sgn = false then promote sgn a >>> c else (promote sgn a).sshiftRight c).setWidth w

/-- `Vector::generate`: undefined if one of the calls is. -/
def generateOpt {n : Nat} (w : Nat) (f : Nat → Option (BitVec w)) : Option (BitVec n) :=
  if ∀ i < n / w, (f i).isSome then some (ofLanes w fun i => (f i).getD 0#w) else none

/-! ### Shifts by a vector -/

/-- Which of the definitions of the shift operators is compiled (/repo/Vc/sse/vector.tcc:282-296). -/
inductive ShiftIsa where
  | xop | avx2 | none
  deriving DecidableEq

/-- `_mm_sha_epiN` (`arith`), `_mm_shl_epiN`: the count is the low byte of the lane, signed; negative
counts shift right.  The result for counts of `w` and more bits is left open, `u`. -/
def xopShift (arith : Bool) (w : Nat) (u x s : M128) : M128 :=
  ofLanes w fun i =>
    let c := ((lane w s i).setWidth 8).toInt
    let a := lane w x i
    if 0 ≤ c ∧ c < w then a <<< c.toNat
    else if -(w : Int) < c ∧ c < 0 then (if arith then a.sshiftRight (-c).toNat else a >>> (-c).toNat)
    else lane w u i

/-- `_mm_sllv_epi32`, `_mm_srlv_epi32`, `_mm_srav_epi32` and the 256 bit forms. -/
def sllvEpi {n : Nat} (w : Nat) : BitVec n → BitVec n → BitVec n := map2 w fun a c => a <<< c.toNat
def srlvEpi {n : Nat} (w : Nat) : BitVec n → BitVec n → BitVec n := map2 w fun a c => a >>> c.toNat
def sravEpi {n : Nat} (w : Nat) : BitVec n → BitVec n → BitVec n := map2 w fun a c => a.sshiftRight c.toNat

/-- `operator<<(AsArg)` of SSE (/repo/Vc/sse/vector.h:306, /repo/Vc/sse/vector.tcc:283-286, 292-293). -/
def sseShlVec (v : ShiftIsa) (sgn : Bool) (w : Nat) (u x s : M128) : Option M128 :=
  match v with
  | .xop => some (xopShift sgn w u x s)
  | .avx2 => if w = 32 then some (sllvEpi w x s) else generateOpt w fun i => cShl sgn (lane w x i) (lane w s i)
  | .none => generateOpt w fun i => cShl sgn (lane w x i) (lane w s i)

/-- `operator>>(AsArg)` of SSE (/repo/Vc/sse/vector.h:307, /repo/Vc/sse/vector.tcc:287-290, 294-295). -/
def sseShrVec (I : Isa) (v : ShiftIsa) (sgn : Bool) (w : Nat) (u x s : M128) : Option M128 :=
  match v with
  | .xop => sseShlVec .xop sgn w u x (vNeg I w s)
  | .avx2 =>
    if w = 32 then some (if sgn then sravEpi w x s else srlvEpi w x s)
    else generateOpt w fun i => cShr sgn (lane w x i) (lane w s i)
  | .none => generateOpt w fun i => cShr sgn (lane w x i) (lane w s i)

/-- `operator<<(AsArg)` and `operator>>(AsArg)` of AVX.  There are specialisations for AVX2 only
(/repo/Vc/avx/vector.tcc:337-345); otherwise the definition in the class is used, which has a return type
but no return statement (/repo/Vc/avx/vector.h:367-376): undefined behaviour. -/
def avxShlVec (avx2 sgn : Bool) (w : Nat) (x s : M256) : Option M256 :=
  if avx2 then
    if w = 32 then some (sllvEpi w x s) else generateOpt w fun i => cShl sgn (lane w x i) (lane w s i)
  else none
def avxShrVec (avx2 sgn : Bool) (w : Nat) (x s : M256) : Option M256 :=
  if avx2 then
    if w = 32 then some (if sgn then sravEpi w x s else srlvEpi w x s)
    else generateOpt w fun i => cShr sgn (lane w x i) (lane w s i)
  else none

/-- The compound assignments: `*this = *this << shift` and the like (/repo/Vc/sse/vector.h:308-309,
/repo/Vc/avx/vector.tcc:346-359), `d.v() = HT::shiftRight(d.v(), shift); return *this`
(/repo/Vc/sse/vector.tcc:298-308, /repo/Vc/avx/vector.tcc:362-372).  The new value of the vector and the
returned reference's value. -/
def shiftAssign {n : Nat} (r : Option (BitVec n)) : Option (BitVec n × BitVec n) := r.map fun v => (v, v)

end Vc.Model
