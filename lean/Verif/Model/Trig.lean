import Verif.Model.SseMask
import Verif.Model.Log
import Verif.Model.AvxMask

/-!
`sin`, `cos` and `sincos` of the floating-point vectors.

The `Scalar` versions call the C library and are not modelled, nor is the version that calls libmvec
(`Vc_HAVE_LIBMVEC`).  As in `Exp`, every operator is one correctly rounded operation.
-/

namespace Vc.Model

open Vc.Spec

/-! ### The series -/

section
variable {α : Type}

/-- `cosSeries` of float (/repo/src/trigonometric.cpp:55-66). -/
def cosSeriesF (A : Arith 32 α) (x : α) : α :=
  let x2 := A.mul x x
  let y := horner A x2 (A.c 0x37d00000#32) [0xbab60800#32, 0x3d2aaaab#32]
  A.add (A.sub (A.mul y (A.mul x2 x2)) (A.mul (A.c 0x3f000000#32) x2)) (A.c 0x3f800000#32)

/-- `cosSeries` of double (/repo/src/trigonometric.cpp:68-81). -/
def cosSeriesD (A : Arith 64 α) (x : α) : α :=
  let x2 := A.mul x x
  let y := horner A x2 (A.c 0x3d2ac00000000000#64) [0xbda9394000000000#64, 0x3e21eed8c0000000#64, 0xbe927e4fb7400000#64,
    0x3efa01a01a018000#64, 0xbf56c16c16c16c00#64, 0x3fa5555555555554#64]
  A.add (A.mul (A.sub (A.mul y x2) (A.c 0x3fe0000000000000#64)) x2) (A.c 0x3ff0000000000000#64)

/-- `sinSeries` of float (/repo/src/trigonometric.cpp:83-92). -/
def sinSeriesF (A : Arith 32 α) (x : α) : α :=
  let x2 := A.mul x x
  let y := horner A x2 (A.c 0xb94e6000#32) [0x3c088880#32, 0xbe2aaaab#32]
  A.add (A.mul y (A.mul x2 x)) x

/-- `sinSeries` of double (/repo/src/trigonometric.cpp:94-109). -/
def sinSeriesD (A : Arith 64 α) (x : α) : α :=
  let x2 := A.mul x x
  let y := horner A x2 (A.c 0xbd6acf0000000000#64) [0x3de6124400000000#64, 0xbe5ae64567000000#64, 0x3ec71de3a5540000#64,
    0xbf2a01a01a01a000#64, 0x3f81111111111110#64, 0xbfc5555555555555#64]
  A.add (A.mul y (A.mul x2 x)) x

/-! ### Folding the argument -/

/-- Two steps of Cody and Waite for float (/repo/src/trigonometric.cpp:149-150). -/
def foldStepsF (A : Arith 32 α) (x y : α) : α :=
  let x := A.sub x (A.mul y (A.c 0x3fc90fe0#32))
  A.sub x (A.mul y (A.c 0xb52bbbd3#32))

/-- Three steps for double (/repo/src/trigonometric.cpp:213-215,218-220). -/
def foldStepsD (A : Arith 64 α) (c1 c2 c3 : BitVec 64) (x y : α) : α :=
  let x := A.sub x (A.mul y (A.c c1))
  let x := A.sub x (A.mul y (A.c c2))
  A.sub x (A.mul y (A.c c3))

/-- The sum for the largest arguments (/repo/src/trigonometric.cpp:222-253): `yHi` are the upper bits of `y`. -/
def foldSumD (A : Arith 64 α) (min max : α → α → α) (x y yHi : α) : α :=
  let yLo := A.sub y yHi
  let p1 := A.c 0x3ff921fb50000000#64
  let p2 := A.c 0x3e5110b460000000#64
  let p3 := A.c 0x3c91a62630000000#64
  let p4 := A.c 0x3ae8a2e03707344a#64
  let x := A.sub x (A.mul yHi p1)
  let x := A.sub x (max (A.mul yHi p2) (A.mul yLo p1))
  let x := A.sub x (min (A.mul yHi p2) (A.mul yLo p1))
  let x := A.sub x (max (A.mul yHi p3) (A.mul yLo p2))
  let x := A.sub x (min (A.mul yHi p3) (A.mul yLo p2))
  let x := A.sub x (max (A.mul y p4) (A.mul yLo p3))
  A.sub x (min (A.mul y p4) (A.mul yLo p3))
end

/-- What differs between the instruction sets: the constants of `abs`, `all_of` and `any_of`, `round`, the quadrant
`simd_cast<V>(simd_cast<IV>(y) & 3)` and the masked assignment. -/
structure TrigEnv (n : Nat) where
  K : FConst n
  full : BitVec n → Bool
  any : BitVec n → Bool
  round : BitVec n → BitVec n
  quad : BitVec n → BitVec n
  blend : BitVec n → BitVec n → BitVec n → BitVec n

/-- `pi_over_4` (/repo/src/trigonometric.cpp:203). -/
def pi4D : BitVec 64 := 0x3fe921fb54442d18#64
/-- `C::_pi_4()` of float (/repo/src/const.cpp:112,361). -/
def pi4F : BitVec 32 := 0x3f490fdb#32

/-- `foldInput` of double (/repo/src/trigonometric.cpp:194-256): the folded argument and the quadrant.  The compiler
rounds `1025 * pi_over_4`. -/
def vFoldD {n : Nat} (E : TrigEnv n) (x : BitVec n) : BitVec n × BitVec n :=
  let A := vArith f64 64 n
  let x := vFAbs E.K x
  if E.full (vFLt f64 64 x (A.c pi4D)) then (x, A.c 0#64)
  else
    let y := E.round (A.div x (A.c 0x3ff921fb54442d18#64))
    let q := E.quad y
    if E.full (vFLt f64 64 x (A.c (fMul f64 0x4090040000000000#64 pi4D))) then
      (foldStepsD A 0x3ff921fb54443000#64 0xbd473dcb3b39a000#64 0x3a945c06e0e68948#64 x y, q)
    else if E.full (vFLe f64 64 y (A.c 0x41d0000000000000#64)) then
      (foldStepsD A 0x3ff921fb40000000#64 0x3e74442d00000000#64 0x3cf8469898cc5170#64 x y, q)
    else (foldSumD A (vFMin f64 64) (vFMax f64 64) x y (y &&& A.c (BitVec.allOnes 64 <<< 26)), q)

/-- The last case of `foldInput` of float, for one entry (/repo/src/trigonometric.cpp:152-159): the vectors of double are
`SimdArray`s, whose operations treat every entry separately (C15, C26).  `round` is that of double. -/
def foldWideF (round : BitVec 64 → BitVec 64) (v : BitVec 32) : BitVec 32 × BitVec 32 :=
  let xd := cvtF2F f32 f64 64 v
  let y := round (fMul f64 xd 0x3fe45f306dc9c883#64)
  (cvtF2F f64 f32 32 (fSub f64 xd (fMul f64 y 0x3ff921fb54442d18#64)), cvtI2F f32 32 (cvttF2I f64 y &&& 3#32))

/-- `foldInput` of float (/repo/src/trigonometric.cpp:134-162). -/
def vFoldF {n : Nat} (E : TrigEnv n) (roundD : BitVec 64 → BitVec 64) (x : BitVec n) : BitVec n × BitVec n :=
  let A := vArith f32 32 n
  let x := vFAbs E.K x
  if E.full (vFLt f32 32 x (A.c pi4F)) then (x, A.c 0#32)
  else if E.full (vFLt f32 32 x (A.mul (A.c 0x42040000#32) (A.c pi4F))) then
    let y := E.round (A.mul x (A.c 0x3f22f983#32))
    (foldStepsF A x y, E.quad y)
  else (map1 32 (fun v => (foldWideF roundD v).1) x, map1 32 (fun v => (foldWideF roundD v).2) x)

/-! ### The functions -/

section
variable {n : Nat} (E : TrigEnv n) (F : Fmt) (w : Nat)

/-- `f.quadrant == 0 || f.quadrant == 2` (/repo/src/trigonometric.cpp:294). -/
def trigEven (two : BitVec w) (q : BitVec n) : BitVec n := vFEq F w q (set1 w 0#w) ||| vFEq F w q (set1 w two)

/-- The sine from the folded argument `s`, `c`: the values of the two series
(/repo/src/trigonometric.cpp:290-294,309-313,366-371,391-396). -/
def trigSin (sign one two : BitVec w) (x q s c : BitVec n) : BitVec n :=
  ((x ^^^ vFSub F w (set1 w one) q) &&& set1 w sign) ^^^ E.blend c s (trigEven F w two q)

/-- The cosine (/repo/src/trigonometric.cpp:328-332,346-350,367-372,392-397). -/
def trigCos (sign half two twoHalf : BitVec w) (q s c : BitVec n) : BitVec n :=
  ((vFSub F w (set1 w half) q &&& vFSub F w q (set1 w twoHalf)) &&& set1 w sign) ^^^ E.blend s c (trigEven F w two q)
end

/-- `sincos` of double; `sin` and `cos` do the same steps for their result
(/repo/src/trigonometric.cpp:278-295,316-333,353-373). -/
def vSincosD {n : Nat} (E : TrigEnv n) (x : BitVec n) : BitVec n × BitVec n :=
  let A := vArith f64 64 n
  let f := vFoldD E x
  let s := sinSeriesD A f.1
  let c := cosSeriesD A f.1
  (trigSin E f64 64 0x8000000000000000#64 0x3ff0000000000000#64 0x4000000000000000#64 x f.2 s c,
    trigCos E f64 64 0x8000000000000000#64 0x3fe0000000000000#64 0x4000000000000000#64 0x4004000000000000#64 f.2 s c)

/-- `sin` of double (/repo/src/trigonometric.cpp:278-295). -/
def vSinD {n : Nat} (E : TrigEnv n) (x : BitVec n) : BitVec n :=
  let A := vArith f64 64 n
  let f := vFoldD E x
  let s := sinSeriesD A f.1
  let c := cosSeriesD A f.1
  trigSin E f64 64 0x8000000000000000#64 0x3ff0000000000000#64 0x4000000000000000#64 x f.2 s c

/-- `cos` of double (/repo/src/trigonometric.cpp:316-333). -/
def vCosD {n : Nat} (E : TrigEnv n) (x : BitVec n) : BitVec n :=
  let A := vArith f64 64 n
  let f := vFoldD E x
  let s := sinSeriesD A f.1
  let c := cosSeriesD A f.1
  trigCos E f64 64 0x8000000000000000#64 0x3fe0000000000000#64 0x4000000000000000#64 0x4004000000000000#64 f.2 s c

/-- What the float versions need in addition: how `>=` compares, the casts to double (`lo`, `hi`) and back, `round` of
double, and the double version. -/
structure TrigEnvF (n : Nat) extends TrigEnv n where
  B : CmpBuild
  D : TrigEnv n
  roundD : BitVec 64 → BitVec 64
  lo : BitVec n → BitVec n
  hi : BitVec n → BitVec n
  join : BitVec n → BitVec n → BitVec n

section
variable {n : Nat} (E : TrigEnvF n)

/-- `any_of(abs(x) >= limit)` (/repo/src/trigonometric.cpp:303,341,382). -/
def trigLarge (limit : BitVec 32) (x : BitVec n) : Bool := E.any (vFGe E.B f32 32 (vFAbs E.K x) (set1 32 limit))

def limitSin : BitVec 32 := 0x4900c590#32   -- 527449
def limitCos : BitVec 32 := 0x48c014c0#32   -- 393382

/-- `sin` of float without the case of large arguments (/repo/src/trigonometric.cpp:308-313,390-396). -/
def vSinSmallF (x : BitVec n) : BitVec n :=
  let A := vArith f32 32 n
  let f := vFoldF E.toTrigEnv E.roundD x
  let s := sinSeriesF A f.1
  let c := cosSeriesF A f.1
  trigSin E.toTrigEnv f32 32 0x80000000#32 0x3f800000#32 0x40000000#32 x f.2 s c

/-- `cos` of float without the case of large arguments (/repo/src/trigonometric.cpp:345-350,390-397). -/
def vCosSmallF (x : BitVec n) : BitVec n :=
  let A := vArith f32 32 n
  let f := vFoldF E.toTrigEnv E.roundD x
  let s := sinSeriesF A f.1
  let c := cosSeriesF A f.1
  trigCos E.toTrigEnv f32 32 0x80000000#32 0x3f000000#32 0x40000000#32 0x40200000#32 f.2 s c

/-- `sin` of float (/repo/src/trigonometric.cpp:297-314). -/
def vSinF (x : BitVec n) : BitVec n :=
  if trigLarge E limitSin x then E.join (vSinD E.D (E.lo x)) (vSinD E.D (E.hi x)) else vSinSmallF E x

/-- `cos` of float (/repo/src/trigonometric.cpp:335-351). -/
def vCosF (x : BitVec n) : BitVec n :=
  if trigLarge E limitCos x then E.join (vCosD E.D (E.lo x)) (vCosD E.D (E.hi x)) else vCosSmallF E x

/-- `sincos` of float (/repo/src/trigonometric.cpp:375-398). -/
def vSincosF (x : BitVec n) : BitVec n × BitVec n :=
  if trigLarge E limitCos x then
    let r0 := vSincosD E.D (E.lo x)
    let r1 := vSincosD E.D (E.hi x)
    (E.join r0.1 r1.1, E.join r0.2 r1.2)
  else (vSinSmallF E x, vCosSmallF E x)
end

/-! ### Instruction sets -/

/-- `round` of one double (`vRoundPd`). -/
def roundDSse (I : Isa) (v : BitVec 64) : BitVec 64 := if I.sse41 then fRound f64 .nearest v else cvtI2F f64 64 (cvtF2I f64 v)

/-- SSE::double_v; the integers are an SSE::int_v. -/
def trigSseD (I : Isa) : TrigEnv 128 :=
  ⟨sseDouble, maskIsFull I.sse41, maskIsNotEmpty I.sse41, vRoundPd I, fun y => cvtepi32Pd (cvttpd y &&& set1 32 3#32), blendv I 64⟩

/-- SSE::float_v; the casts to double are /repo/Vc/sse/simd_cast.h:839-872, the one to float is `cvtDoubleFloat2`. -/
def trigSseF (I : Isa) : TrigEnvF 128 where
  K := sseFloat
  full := maskIsFull I.sse41
  any := maskIsNotEmpty I.sse41
  round := vRoundPs I
  quad y := cvtepi32PsN (cvttps y &&& set1 32 3#32)
  blend := blendv I 32
  B := .sse
  D := trigSseD I
  roundD := roundDSse I
  lo := cvtpsPd
  hi x := cvtpsPd (srliSi128 x 8)
  join := cvtDoubleFloat2 false

/-- AVX::double_v; the integers are an SSE::int_v or the lower half of an AVX2::int_v. -/
def trigAvxD : TrigEnv 256 :=
  ⟨avxDouble, amIsFull 64, amIsNotEmpty 64, vRoundIntr f64 64 .nearest,
    fun y => cvtepi32Pd256 (cvttpd256 y &&& set1 32 3#32), blendvIntr 64⟩

/-- AVX::float_v; the casts are /repo/Vc/avx/simd_cast.h:1224,2529-2574 and `simdCastDoubleFloat2`; without AVX2 the
integers are two SSE::int_v. -/
def trigAvxF (B : CmpBuild) : TrigEnvF 256 where
  K := avxFloat
  full := amIsFull 32
  any := amIsNotEmpty 32
  round := vRoundIntr f32 32 .nearest
  quad y := cvtepi32PsN (cvttps y &&& set1 32 3#32)
  blend := blendvIntr 32
  B := B
  D := trigAvxD
  roundD := fRound f64 .nearest
  lo x := cvtpsPd256 (lo128 x)
  hi x := cvtpsPd256 (lo128 (memPermute128 (some 1) none x))
  join := simdCastDoubleFloat2

end Vc.Model
