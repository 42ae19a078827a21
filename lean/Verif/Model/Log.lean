import Verif.Model.Exp

/-!
`log`, `log10` and `log2` of the floating-point vectors.

The `Scalar` versions call the C library and are not modelled, nor are the variants selected with `Vc_LOG_ILP` and
`Vc_LOG_ILP2`.  As in `Exp`, every operator is one correctly rounded operation.
-/

namespace Vc.Model

open Vc.Spec

/-- The arithmetic the series are written in: that of a vector, or of one number. -/
structure Arith (w : Nat) (α : Type) where
  add : α → α → α
  sub : α → α → α
  mul : α → α → α
  div : α → α → α
  c : BitVec w → α

/-- Vectors. -/
def vArith (F : Fmt) (w n : Nat) : Arith w (BitVec n) := ⟨vFAdd F w, vFSub F w, vFMul F w, vFDiv F w, set1 w⟩

inductive LogBase where
  | e | ten | two

/-- The constants both precisions have (/repo/src/const.cpp:179-231,426-489). -/
structure LogConst (w : Nat) where
  expMask : BitVec w
  negInf : BitVec w
  min : BitVec w
  invSqrt2 : BitVec w
  ln2Large : BitVec w
  ln2Small : BitVec w
  half : BitVec w
  log10e : BitVec w
  log2e : BitVec w
  one : BitVec w
  p54 : BitVec w   -- 2 ^ 54
  c54 : BitVec w   -- 54

def logConstF : LogConst 32 :=
  ⟨0x7f800000#32, 0xff800000#32, 0x00800000#32, 0x3f3504f3#32, 0x3f318000#32, 0xb95e8083#32, 0x3f000000#32, 0x3ede5bd9#32,
    0x3fb8aa3b#32, 0x3f800000#32, 0x5a800000#32, 0x42580000#32⟩

def logConstD : LogConst 64 :=
  ⟨0x7ff0000000000000#64, 0xfff0000000000000#64, 0x0010000000000000#64, 0x3fe6a09e667f3bcd#64, 0x3fe6300000000000#64,
    0xbf2bd0105c610ca8#64, 0x3fe0000000000000#64, 0x3fdbcb7b1526e50e#64, 0x3ff71547652b82fe#64, 0x3ff0000000000000#64,
    0x4350000000000000#64, 0x404b000000000000#64⟩

section
variable {α : Type} {w : Nat} (A : Arith w α)

/-- `y = y * x + P(i)` for one coefficient after the other. -/
def horner (x y : α) (cs : List (BitVec w)) : α := cs.foldl (fun y p => A.add (A.mul y x) (A.c p)) y

/-- The end of the series (/repo/Vc/common/logarithm.h:138-164,184-210). -/
def logEnd (K : LogConst w) (base : LogBase) (x x2 y e : α) : α :=
  match base with
  | .e =>
    let y := A.add y (A.mul e (A.c K.ln2Small))
    let y := A.sub y (A.mul x2 (A.c K.half))
    let x := A.add x y
    A.add x (A.mul e (A.c K.ln2Large))
  | .ten =>
    let y := A.add y (A.mul e (A.c K.ln2Small))
    let y := A.sub y (A.mul x2 (A.c K.half))
    let x := A.add x y
    let x := A.add x (A.mul e (A.c K.ln2Large))
    A.mul x (A.c K.log10e)
  | .two =>
    let x' := x
    let x := A.mul x (A.c K.log2e)
    let y := A.mul y (A.c K.log2e)
    let y := A.sub y (A.mul (A.mul x' x) (A.c K.half))
    let x := A.add x y
    A.add x e
end

/-- `log_series` of float (/repo/Vc/common/logarithm.h:72-88,133-165): the coefficients are P[0] to P[8]. -/
def logSeriesF {α : Type} (A : Arith 32 α) (base : LogBase) (x e : α) : α :=
  let x2 := A.mul x x
  let y := horner A x (A.c 0x3d9021bb#32) [0xbdebd1b8#32, 0x3def251a#32, 0xbdfe5d4f#32, 0x3e11e9bf#32, 0xbe2aae50#32,
    0x3e4cceac#32, 0xbe7ffffc#32, 0x3eaaaaaa#32]
  let y := A.mul y (A.mul x x2)
  logEnd A logConstF base x x2 y e

/-- `log_series` of double (/repo/Vc/common/logarithm.h:167-211): the loop updates two variables that do not depend on
each other. -/
def logSeriesD {α : Type} (A : Arith 64 α) (base : LogBase) (x e : α) : α :=
  let x2 := A.mul x x
  let y := horner A x (A.c 0x3f1ab4c293c31bb0#64) [0x3fdfd6f53f5652f2#64, 0x4012d2baed926911#64, 0x402cff72c63eeb2e#64,
    0x4031efd6924bc84d#64]
  let y2 := horner A x (A.add (A.c 0x40269320ae97ef8e#64) x) [0x40469d2c4e19c033#64, 0x4054bf33a326bdbd#64,
    0x4051c9e2eb5eae21#64, 0x4037200a9e1f25b2#64]
  let y2 := A.div x y2
  let y := A.add (A.mul y x) (A.c 0x401ed5637d7edcf8#64)
  let y := A.mul (A.mul x2 y) y2
  logEnd A logConstD base x x2 y e

/-- The lanes that are scaled: `x <= min` (/repo/Vc/common/logarithm.h:223). -/
def logDenormal {n : Nat} (F : Fmt) (w : Nat) (K : LogConst w) (x : BitVec n) : BitVec n := vFLe F w x (set1 w K.min)

/-- `x(denormal) *= 2 ^ 54` (/repo/Vc/common/logarithm.h:225, /repo/Vc/common/writemaskedvector.h:82-97). -/
def logScaled {n : Nat} (F : Fmt) (w : Nat) (K : LogConst w) (blend : BitVec n → BitVec n → BitVec n → BitVec n)
    (x : BitVec n) : BitVec n :=
  blend x (vFMul F w x (set1 w K.p54)) (logDenormal F w K x)

/-- The mantissa with exponent -1 (/repo/Vc/common/logarithm.h:229-231). -/
def logMant {n : Nat} {w : Nat} (K : LogConst w) (x1 : BitVec n) : BitVec n := andnot (set1 w K.expMask) x1 ||| set1 w K.half

/-- `LogImpl<Base>::calc` (/repo/Vc/common/logarithm.h:213-253): `x1` is the scaled argument and `e1` what `exponent`
makes of it. -/
def vLog {n : Nat} (F : Fmt) (w : Nat) (K : LogConst w) (blend : BitVec n → BitVec n → BitVec n → BitVec n)
    (series : BitVec n → BitVec n → BitVec n) (x x1 e1 : BitVec n) : BitVec n :=
  let invalid := vFLt F w x 0#n
  let infinity := vFEq F w x 0#n
  let e := blend e1 (vFSub F w e1 (set1 w K.c54)) (logDenormal F w K x)
  let m := logMant K x1
  let small := vFLt F w m (set1 w K.invSqrt2)
  let m := blend m (vFAdd F w m m) small
  let m := vFSub F w m (set1 w K.one)
  let e := blend e (vFAdd F w e (set1 w K.one)) (~~~small)
  let r := series m e
  let r := r ||| invalid
  blend r (set1 w K.negInf) infinity

def logSseF (I : Isa) (base : LogBase) (x : M128) : M128 :=
  let x1 := logScaled f32 32 logConstF (blendv I 32) x
  vLog f32 32 logConstF (blendv I 32) (logSeriesF (vArith f32 32 128) base) x x1 (vExponentPs x1)

def logSseD (I : Isa) (base : LogBase) (x : M128) : M128 :=
  let x1 := logScaled f64 64 logConstD (blendv I 64) x
  vLog f64 64 logConstD (blendv I 64) (logSeriesD (vArith f64 64 128) base) x x1 (vExponentPd x1)

def logAvxF (base : LogBase) (x : M256) : M256 :=
  let x1 := logScaled f32 32 logConstF (blendvIntr 32) x
  vLog f32 32 logConstF (blendvIntr 32) (logSeriesF (vArith f32 32 256) base) x x1 (vExponentPsAvx x1)

def logAvxD (base : LogBase) (x : M256) : Option M256 := do
  let x1 := logScaled f64 64 logConstD (blendvIntr 64) x
  return vLog f64 64 logConstD (blendvIntr 64) (logSeriesD (vArith f64 64 256) base) x x1 (← vExponentPdAvx x1)

end Vc.Model
