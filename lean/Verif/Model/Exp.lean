import Verif.Model.FloatExp
import Verif.Model.FloatRound
import Verif.Model.FloatCvt

/-!
`exp` of the floating-point vectors.

The `Scalar` version calls the C library and is not modelled.  Every `+`, `-`, `*`, `/` of the code is one
correctly rounded operation: a compiler that contracts `a * b + c` into one fused operation computes something
else (without `-ffp-contract=off` GCC does so where FMA instructions are enabled).

The SSE and AVX versions consist of the same operations; what differs is a parameter: how `>` compares (`B`), `floor`,
`ldexp`, the conversion to int and the masked assignment `blend`.
-/

namespace Vc.Model

open Vc.Spec

/-- The operators of the vectors (/repo/Vc/sse/vector.tcc:125-145, /repo/Vc/avx/vector.tcc:99-118):
one instruction each. -/
def vFAdd {n : Nat} (F : Fmt) (w : Nat) : BitVec n → BitVec n → BitVec n := map2 w (fAdd F)
def vFSub {n : Nat} (F : Fmt) (w : Nat) : BitVec n → BitVec n → BitVec n := map2 w (fSub F)
def vFMul {n : Nat} (F : Fmt) (w : Nat) : BitVec n → BitVec n → BitVec n := map2 w (fMul F)
def vFDiv {n : Nat} (F : Fmt) (w : Nat) : BitVec n → BitVec n → BitVec n := map2 w (fDiv F)

/-- The thresholds of the float version (/repo/Vc/common/exponential.h:47-48). -/
def maxlogf : BitVec 32 := 0x42b17217#32  -- 88.722831726074219f
def minlogf : BitVec 32 := 0xc2b00f33#32  -- -88.029685974121094f

/-- The argument of `ldexp` from the reduced argument (/repo/Vc/common/exponential.h:74-81). -/
def expPolyF {n : Nat} (x : BitVec n) : BitVec n :=
  let c (b : BitVec 32) : BitVec n := set1 32 b
  let z := vFAdd f32 32 (vFMul f32 32 (c 0x39506967#32) x) (c 0x3ab743ce#32) -- 1.9875691500E-4f, 1.3981999507E-3f
  let z := vFAdd f32 32 (vFMul f32 32 z x) (c 0x3c088908#32)                 -- 8.3334519073E-3f
  let z := vFAdd f32 32 (vFMul f32 32 z x) (c 0x3d2aa9c1#32)                 -- 4.1665795894E-2f
  let z := vFAdd f32 32 (vFMul f32 32 z x) (c 0x3e2aaaaa#32)                 -- 1.6666665459E-1f
  let z := vFAdd f32 32 (vFMul f32 32 z x) (c 0x3f000000#32)                 -- 5.0000001201E-1f
  let z := vFMul f32 32 z (vFMul f32 32 x x)
  let z := vFAdd f32 32 z x
  vFAdd f32 32 z (c 0x3f800000#32)

/-- The argument of `floor` (/repo/Vc/common/exponential.h:68). -/
def expArgF {n : Nat} (x : BitVec n) : BitVec n :=
  vFAdd f32 32 (vFMul f32 32 (set1 32 0x3fb8aa3b#32) x) (set1 32 0x3f000000#32)

/-- The reduced argument (/repo/Vc/common/exponential.h:70-71). -/
def expRedF {n : Nat} (x z : BitVec n) : BitVec n :=
  let x := vFSub f32 32 x (vFMul f32 32 z (set1 32 0x3f318000#32))
  vFSub f32 32 x (vFMul f32 32 z (set1 32 0xb95e8083#32))

/-- `exp` of float_v (/repo/Vc/common/exponential.h:51-89); the constants are c_log<float>::data
(/repo/src/const.cpp:226-230,476-480). -/
def vExpF {n : Nat} (B : CmpBuild) (floor : BitVec n → BitVec n) (ldexp : BitVec n → BitVec n → BitVec n)
    (blend : BitVec n → BitVec n → BitVec n → BitVec n) (x : BitVec n) : BitVec n :=
  let overflow := vFGt B f32 32 x (set1 32 maxlogf)
  let underflow := vFLt f32 32 x (set1 32 minlogf)
  let z := floor (expArgF x)
  let e := map1 32 (cvttF2I f32) z
  let x := ldexp (expPolyF (expRedF x z)) e
  let x := blend x (set1 32 0x7f800000#32) overflow
  andnot underflow x

def expSseF (I : Isa) (x : M128) : M128 := vExpF .sse (vFloorPs I) ldexpSseF (blendv I 32) x
def expAvxF (B : CmpBuild) (avx2 : Bool) (x : M256) : M256 :=
  vExpF B (vRoundIntr f32 32 .down) (ldexpAvxF avx2) (blendvIntr 32) x

/-- The thresholds of the double version (/repo/Vc/common/math.h:64-65,104-105). -/
def maxlog : BitVec 64 := 0x4086232bdd7abcd2#64
def minlog : BitVec 64 := 0xc086232bdd7abcd2#64

/-- The argument of `ldexp` from the reduced argument (/repo/Vc/common/math.h:73-87,113-127). -/
def expRatD {n : Nat} (x : BitVec n) : BitVec n :=
  let c (b : BitVec 64) : BitVec n := set1 64 b
  let x2 := vFMul f64 64 x x
  let p := vFAdd f64 64 (vFMul f64 64 (c 0x3f2089cdd5e44be8#64) x2) (c 0x3f9f06d10cca2c7e#64)
  let p := vFAdd f64 64 (vFMul f64 64 p x2) (c 0x3ff0000000000000#64)
  let px := vFMul f64 64 x p
  let q := vFAdd f64 64 (vFMul f64 64 (c 0x3ec92eb6bc365fa0#64) x2) (c 0x3f64ae39b508b6c0#64)
  let q := vFAdd f64 64 (vFMul f64 64 q x2) (c 0x3fcd17099887e074#64)
  let q := vFAdd f64 64 (vFMul f64 64 q x2) (c 0x4000000000000000#64)
  let x := vFDiv f64 64 px (vFSub f64 64 q px)
  vFAdd f64 64 (c 0x3ff0000000000000#64) (vFMul f64 64 (c 0x4000000000000000#64) x)

/-- The argument of `floor` (/repo/Vc/common/math.h:67,107). -/
def expArgD {n : Nat} (x : BitVec n) : BitVec n :=
  vFAdd f64 64 (vFMul f64 64 (set1 64 0x3ff71547652b82fe#64) x) (set1 64 0x3fe0000000000000#64)

/-- The reduced argument (/repo/Vc/common/math.h:70-71,110-111). -/
def expRedD {n : Nat} (x z : BitVec n) : BitVec n :=
  let x := vFSub f64 64 x (vFMul f64 64 z (set1 64 0x3fe6300000000000#64))
  vFSub f64 64 x (vFMul f64 64 z (set1 64 0xbf2bd0105c610ca8#64))

/-- `exp` of double_v (/repo/Vc/common/math.h:57-95,99-135); the constants are c_log<double>::data
(/repo/src/const.cpp:199-203,446-450). -/
def vExpD {n : Nat} (B : CmpBuild) (floor : BitVec n → BitVec n) (cvtt : BitVec n → M128)
    (ldexp : BitVec n → M128 → BitVec n)
    (blend : BitVec n → BitVec n → BitVec n → BitVec n) (x : BitVec n) : BitVec n :=
  let overflow := vFGt B f64 64 x (set1 64 maxlog)
  let underflow := vFLt f64 64 x (set1 64 minlog)
  let px := floor (expArgD x)
  let e := cvtt px
  let x := ldexp (expRatD (expRedD x px)) e
  let x := blend x (set1 64 0x7ff0000000000000#64) overflow
  andnot underflow x

def expSseD (I : Isa) (x : M128) : M128 :=
  vExpD .sse (vFloorPd I) cvttpd (fun v e => ldexpSseD v (lane 32 e 0) (lane 32 e 1)) (blendv I 64) x
def expAvxD (B : CmpBuild) (avx2 : Bool) (x : M256) : M256 :=
  vExpD B (vRoundIntr f64 64 .down) cvttpd256 (ldexpAvxD avx2) (blendvIntr 64) x

end Vc.Model
