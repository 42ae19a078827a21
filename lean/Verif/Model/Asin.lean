import Verif.Model.Arc

/-!
`sqrt` and `asin` of the floating-point vectors.

The `Scalar` versions call the C library and are not modelled.  As in `Arc`, every operator is one correctly rounded
operation, and the code is written in an arithmetic that is that of a vector or of one number.
-/

namespace Vc.Model

open Vc.Spec

/-- `sqrtps`, `sqrtpd` of one number, from the instruction set reference (trusted).  The root of `v` units is the root of
`v * 2 ^ oneExp` units; between two integers it is as good as half way, because the numbers of the format are far apart at
this size (`fSqrt_nearest` in `Verif/Lemma/Sqrt.lean`). -/
def fSqrt (F : Fmt) {w : Nat} (a : BitVec w) : BitVec w :=
  if isNaN F a then quiet F a
  else if fval F a = 0 then a
  else if fneg F a then defaultNaN F w
  else if isInf F a then a
  else
    let n := (fval F a).natAbs * 2 ^ oneExp F
    let s := Nat.sqrt n
    mkFloat F w false (roundMag F (2 * s + if s * s = n then 0 else 1) 2)

/-- `sqrt` (/repo/Vc/sse/vectorhelper.h:171,252, /repo/Vc/avx/vectorhelper.h:135,209, /repo/Vc/sse/math.h,
/repo/Vc/avx/math.h:53-58): one instruction. -/
def vSqrt (F : Fmt) (w : Nat) {n : Nat} (x : BitVec n) : BitVec n := map1 w (fSqrt F) x

section
variable {α μ : Type}

/-- `asin` of float (/repo/src/trigonometric.cpp:401-432, /repo/src/const.cpp:122,139,142-146). -/
def asinF (O : ArcOps 32 α μ) (sqrt : α → α) (v : α) : α :=
  let negative := O.lt v (O.c 0#32)
  let a := O.abs v
  let outOfRange := O.gt a (O.c 0x3f800000#32)
  let small := O.lt a (O.c 0x38d1b717#32)
  let gt05 := O.gt a (O.c 0x3f000000#32)
  let x := a
  let z := O.mul a a
  let z := O.set z gt05 (O.mul (O.sub (O.c 0x3f800000#32) a) (O.c 0x3f000000#32))
  let x := O.set x gt05 (sqrt z)
  let p := horner O.toArith z (O.c 0x3d2cb352#32) [0x3cc617e3#32, 0x3d3a3ec7#32, 0x3d9980f6#32, 0x3e2aaae4#32]
  let z := O.add (O.mul (O.mul p z) x) x
  let z := O.set z gt05 (O.sub (O.c 0x3fc90fdb#32) (O.add z z))
  let z := O.set z small a
  let z := O.set z negative (O.neg z)
  O.setQnan z outOfRange

/-- `asin` of double (/repo/src/trigonometric.cpp:433-472, /repo/src/const.cpp:53,81-107). -/
def asinD (O : ArcOps 64 α μ) (sqrt : α → α) (v : α) : α :=
  let negative := O.lt v (O.c 0#64)
  let a := O.abs v
  let outOfRange := O.gt a (O.c 0x3ff0000000000000#64)
  let small := O.lt a (O.c 0x3e45798ee2308c3a#64)
  let large := O.gt a (O.c 0x3fe4000000000000#64)
  let zz := O.sub (O.c 0x3ff0000000000000#64) a
  let r := horner O.toArith zz (O.c 0x3f684fc3988e9f08#64)
    [0xbfe2079259f9290f#64, 0x401bdff5baf33e6a#64, 0xc03991aaac01ab68#64, 0x403c896240f3081d#64]
  let s := horner O.toArith zz (O.add zz (O.c 0xc035f2a2b6bf5d8c#64))
    [0x40626219af6a7f42#64, 0xc077fe08959063ee#64, 0x40756709b0b644be#64]
  let sqrtzz := sqrt (O.add zz zz)
  let z := O.sub (O.c 0x3fe921fb54442d18#64) sqrtzz
  let z := O.sub z (O.sub (O.mul sqrtzz (O.div (O.mul zz r) s)) (O.c 0x3c91a62633145c07#64))
  let z := O.add z (O.c 0x3fe921fb54442d18#64)
  let a2 := O.mul a a
  let p := horner O.toArith a2 (O.c 0x3f716b9b0bd48ad3#64)
    [0xbfe34341333e5c16#64, 0x4015c74b178a2dd9#64, 0xc0304331de27907b#64, 0x40339007da779259#64, 0xc020656c06ceafd5#64]
  let q := horner O.toArith a2 (O.add a2 (O.c 0xc02d7b590b5e0eab#64))
    [0x40519fc025fe9054#64, 0xc06265bb6d3576d7#64, 0x4061705684ffbf9d#64, 0xc04898220a3607ac#64]
  let z := O.set z (O.notM large) (O.add (O.mul a (O.div (O.mul a2 p) q)) a)
  let z := O.set z negative (O.neg z)
  let z := O.set z small v
  O.setQnan z outOfRange
end

end Vc.Model
