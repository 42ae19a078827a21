import Verif.Model.Reg
import Verif.Spec.Float

/-!
Floating-point instructions of the processor, from the Intel instruction set reference and IEEE-754,
for the default control word: round to nearest even, denormals not flushed, exceptions masked.  Like
`Verif/Model/Reg.lean` this describes the processor, not code of /repo, and is part of the trusted base.

A positive real number is given as a fraction `num / den` in units of the smallest positive number
of the format (`Verif/Spec/Float.lean`).
-/

namespace Vc.Model

open Vc.Spec

/-- `num / den` rounded to the nearest integer, ties to even. -/
def rne (num den : Nat) : Nat :=
  let q := num / den
  let r := num % den
  if 2 * r < den then q else if den < 2 * r then q + 1 else q + q % 2

/-- The unsigned pattern nearest to `num / den` units: `2 ^ k` is the distance of the floating-point
numbers around it. -/
def roundMag (F : Fmt) (num den : Nat) : Nat :=
  let k := Nat.log2 (num / den) - F.m
  min (k * 2 ^ F.m + rne num (den * 2 ^ k)) (infMag F)

/-- The bit pattern with the given sign. -/
def mkFloat (F : Fmt) (w : Nat) (neg : Bool) (mag : Nat) : BitVec w :=
  BitVec.ofNat w (mag + if neg then 2 ^ (F.e + F.m) else 0)

/-- The number `n` units rounded to the format; `negZero` is the sign of a zero result. -/
def roundInt (F : Fmt) (w : Nat) (n : Int) (negZero : Bool) : BitVec w :=
  mkFloat F w (if n = 0 then negZero else decide (n < 0)) (roundMag F n.natAbs 1)

/-- The NaN an invalid operation returns. -/
def defaultNaN (F : Fmt) (w : Nat) : BitVec w := mkFloat F w true (infMag F + 2 ^ (F.m - 1))

/-- A NaN operand made quiet. -/
def quiet (F : Fmt) {w : Nat} (x : BitVec w) : BitVec w := x ||| BitVec.ofNat w (2 ^ (F.m - 1))

/-- Comparison `a < b` (`_CMP_LT_OS`): false if an operand is NaN. -/
def fLt (F : Fmt) {w : Nat} (a b : BitVec w) : Bool :=
  !isNaN F a && !isNaN F b && decide (fval F a < fval F b)

/-- Comparison `a ≤ b` (`_CMP_LE_OS`): false if an operand is NaN. -/
def fLe (F : Fmt) {w : Nat} (a b : BitVec w) : Bool :=
  !isNaN F a && !isNaN F b && decide (fval F a ≤ fval F b)

/-- Comparison `a = b` (`_CMP_EQ_OQ`): false if an operand is NaN. -/
def fEq (F : Fmt) {w : Nat} (a b : BitVec w) : Bool :=
  !isNaN F a && !isNaN F b && decide (fval F a = fval F b)

/-- `minps`, `minpd`: the second operand unless the first one is less. -/
def fMin (F : Fmt) {w : Nat} (a b : BitVec w) : BitVec w := if fLt F a b then a else b

/-- `maxps`, `maxpd`: the second operand unless the first one is greater. -/
def fMax (F : Fmt) {w : Nat} (a b : BitVec w) : BitVec w := if fLt F b a then a else b

/-- `addps`, `addpd`. -/
def fAdd (F : Fmt) {w : Nat} (a b : BitVec w) : BitVec w :=
  if isNaN F a then quiet F a
  else if isNaN F b then quiet F b
  else if isInf F a then (if isInf F b && (fneg F a != fneg F b) then defaultNaN F w else a)
  else if isInf F b then b
  else roundInt F w (fval F a + fval F b) (fneg F a && fneg F b)

/-- `subps`, `subpd`. -/
def fSub (F : Fmt) {w : Nat} (a b : BitVec w) : BitVec w :=
  if isNaN F a then quiet F a
  else if isNaN F b then quiet F b
  else if isInf F a then (if isInf F b && (fneg F a == fneg F b) then defaultNaN F w else a)
  else if isInf F b then mkFloat F w (!fneg F b) (infMag F)
  else roundInt F w (fval F a - fval F b) (fneg F a && !fneg F b)

/-- `mulps`, `mulpd`. -/
def fMul (F : Fmt) {w : Nat} (a b : BitVec w) : BitVec w :=
  let s := fneg F a != fneg F b
  if isNaN F a then quiet F a
  else if isNaN F b then quiet F b
  else if isInf F a || isInf F b then
    (if fval F a = 0 ∨ fval F b = 0 then defaultNaN F w else mkFloat F w s (infMag F))
  else mkFloat F w s (roundMag F ((fval F a).natAbs * (fval F b).natAbs) (2 ^ oneExp F))

/-- `divps`, `divpd`. -/
def fDiv (F : Fmt) {w : Nat} (a b : BitVec w) : BitVec w :=
  let s := fneg F a != fneg F b
  if isNaN F a then quiet F a
  else if isNaN F b then quiet F b
  else if isInf F a then (if isInf F b then defaultNaN F w else mkFloat F w s (infMag F))
  else if isInf F b then mkFloat F w s 0
  else if fval F b = 0 then (if fval F a = 0 then defaultNaN F w else mkFloat F w s (infMag F))
  else mkFloat F w s (roundMag F ((fval F a).natAbs * 2 ^ oneExp F) (fval F b).natAbs)

/-- `cvtdq2ps`, `cvtdq2pd`: a signed integer of 32 bits as floating-point number. -/
def cvtI2F (F : Fmt) (w : Nat) (a : BitVec 32) : BitVec w :=
  roundInt F w (a.toInt * 2 ^ oneExp F) false

/-- The result of a float to integer conversion: the "integer indefinite" if it does not fit. -/
def intOrIndefinite (n : Int) : BitVec 32 :=
  if -2 ^ 31 ≤ n ∧ n < 2 ^ 31 then BitVec.ofInt 32 n else BitVec.ofNat 32 (2 ^ 31)

/-- `cvttps2dq`, `cvttpd2dq`: conversion with truncation. -/
def cvttF2I (F : Fmt) {w : Nat} (x : BitVec w) : BitVec 32 :=
  if isFinite F x then intOrIndefinite ((fval F x).tdiv (2 ^ oneExp F)) else BitVec.ofNat 32 (2 ^ 31)

/-- `cvtps2dq`, `cvtpd2dq`: conversion with rounding to nearest. -/
def cvtF2I (F : Fmt) {w : Nat} (x : BitVec w) : BitVec 32 :=
  if isFinite F x then
    intOrIndefinite ((if fval F x < 0 then -1 else 1) * rne (fval F x).natAbs (2 ^ oneExp F))
  else BitVec.ofNat 32 (2 ^ 31)

/-- Rounding modes of `roundps`, `roundpd`. -/
inductive RMode where
  | nearest
  | down
  | up
  | zero

/-- `roundps`, `roundpd` (SSE4.1, AVX) and the functions of the C library: rounding to an integer, the
sign is kept. -/
def fRound (F : Fmt) (mode : RMode) {w : Nat} (x : BitVec w) : BitVec w :=
  if isNaN F x then quiet F x
  else if isInf F x then x
  else
    let v := (fval F x).natAbs
    let d := 2 ^ oneExp F
    let q := match mode with
      | .nearest => rne v d
      | .zero => v / d
      | .down => if fneg F x then (v + d - 1) / d else v / d
      | .up => if fneg F x then v / d else (v + d - 1) / d
    mkFloat F w (fneg F x) (roundMag F (q * d) 1)

end Vc.Model
