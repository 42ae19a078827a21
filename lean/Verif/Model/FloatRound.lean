import Verif.Model.FloatOps

/-!
`trunc`, `floor`, `ceil` and `round`.
-/

namespace Vc.Model

open Vc.Spec

/-- `trunc`, `floor`, `ceil`, `round` with SSE4.1 and AVX: one instruction
(/repo/Vc/sse/math.h:110-117, /repo/Vc/sse/vectorhelper.h:211,293, /repo/Vc/avx/math.h:278-305,
/repo/Vc/avx/vectorhelper.h:170,245). -/
def vRoundIntr {n : Nat} (F : Fmt) (w : Nat) (mode : RMode) (x : BitVec n) : BitVec n := map1 w (fRound F mode) x

/-- `trunc` of SSE::float_v without SSE4.1 (/repo/Vc/sse/math.h:119-128). -/
def truncPsEmul (x : M128) : M128 :=
  let truncated := cvtepi32PsN (map1 32 (cvttF2I f32) x)
  let noFractionalValues := cmpltEpi 32 (x &&& set1 32 0x7f800000#32) (set1 32 0x4b000000#32)
  andnot noFractionalValues x ||| (noFractionalValues &&& truncated)

/-- `trunc` of SSE::double_v without SSE4.1 (/repo/Vc/sse/math.h:130-145). -/
def truncPdEmul (x : M128) : M128 :=
  let absX := vFAbs sseDouble x
  let minNoFractionalBits : M128 := set1 64 0x4330000000000000#64
  let truncated := map2 64 (fSub f64) (map2 64 (fAdd f64) absX minNoFractionalBits) minNoFractionalBits
  let truncated := map2 64 (fSub f64) truncated
    (vFLt f64 64 absX truncated &&& set1 64 0x3ff0000000000000#64)
  (set1 64 0x8000000000000000#64 &&& x) ||| truncated

/-- `v(mask) -= 1`, `v(mask) += 1` (/repo/Vc/common/writemaskedvector.h:82-96,
/repo/Vc/sse/vector.h:322-325), without SSE4.1. -/
def maskedOp (I : Isa) (w : Nat) (y z mask : M128) : M128 := blendv I w y z mask

/-- `floor` without SSE4.1, with the `trunc` of the type (/repo/Vc/sse/math.h:147-152); `one` is the
pattern of 1. -/
def floorEmul (I : Isa) (F : Fmt) (w : Nat) (one : BitVec w) (trunc : M128 → M128) (x : M128) : M128 :=
  let y := trunc x
  maskedOp I w y (map2 w (fSub F) y (set1 w one)) (vnot (vFEq F w y x) &&& vFLt F w x 0#128)

/-- `ceil` without SSE4.1 (/repo/Vc/sse/math.h:154-159). -/
def ceilEmul (I : Isa) (F : Fmt) (w : Nat) (one : BitVec w) (trunc : M128 → M128) (x : M128) : M128 :=
  let y := trunc x
  maskedOp I w y (map2 w (fAdd F) y (set1 w one)) (vnot (vFEq F w y x ||| vFLt F w x 0#128))

/-- `trunc`, `floor`, `ceil` of SSE::float_v. -/
def vTruncPs (I : Isa) (x : M128) : M128 := if I.sse41 then vRoundIntr f32 32 .zero x else truncPsEmul x
def vFloorPs (I : Isa) (x : M128) : M128 :=
  if I.sse41 then vRoundIntr f32 32 .down x else floorEmul I f32 32 0x3f800000#32 truncPsEmul x
def vCeilPs (I : Isa) (x : M128) : M128 :=
  if I.sse41 then vRoundIntr f32 32 .up x else ceilEmul I f32 32 0x3f800000#32 truncPsEmul x

/-- `trunc`, `floor`, `ceil` of SSE::double_v. -/
def vTruncPd (I : Isa) (x : M128) : M128 := if I.sse41 then vRoundIntr f64 64 .zero x else truncPdEmul x
def vFloorPd (I : Isa) (x : M128) : M128 :=
  if I.sse41 then vRoundIntr f64 64 .down x else floorEmul I f64 64 0x3ff0000000000000#64 truncPdEmul x
def vCeilPd (I : Isa) (x : M128) : M128 :=
  if I.sse41 then vRoundIntr f64 64 .up x else ceilEmul I f64 64 0x3ff0000000000000#64 truncPdEmul x

/-- `_mm_cvtpd_epi32`: two lanes, the upper half is zero. -/
def cvtpdEpi32 (x : M128) : M128 := ofLanes 32 fun i => if i < 2 then cvtF2I f64 (lane 64 x i) else 0#32

/-- `round` of SSE::float_v and double_v (/repo/Vc/sse/vectorhelper.h:209-216,291-298). -/
def vRoundPs (I : Isa) (x : M128) : M128 :=
  if I.sse41 then vRoundIntr f32 32 .nearest x else cvtepi32PsN (map1 32 (cvtF2I f32) x)
def vRoundPd (I : Isa) (x : M128) : M128 :=
  if I.sse41 then vRoundIntr f64 64 .nearest x else cvtepi32Pd (cvtpdEpi32 x)

/-- `_realIsEvenHalf` (/repo/Vc/scalar/math.h:189-194); `half` and `two` are the patterns of 0.5 and 2. -/
def realIsEvenHalf (F : Fmt) {w : Nat} (half two x : BitVec w) : Bool :=
  let f := fMul F (fRound F .down (fMul F x half)) two
  fEq F (fSub F x f) half

/-- `round` of Scalar::float_v and double_v (/repo/Vc/scalar/math.h:196-204). -/
def sRound (F : Fmt) {w : Nat} (half one two x : BitVec w) : BitVec w :=
  fSub F (fRound F .down (fAdd F x half)) (if realIsEvenHalf F half two x then one else 0#w)
def sRound32 : BitVec 32 → BitVec 32 := sRound f32 0x3f000000#32 0x3f800000#32 0x40000000#32
def sRound64 : BitVec 64 → BitVec 64 :=
  sRound f64 0x3fe0000000000000#64 0x3ff0000000000000#64 0x4000000000000000#64

end Vc.Model
