/-!
IEEE-754 binary floating-point formats: the number a bit pattern stands for.

To stay within the integers, numbers are measured in units of the smallest positive number of the
format (`2 ^ -149` for single, `2 ^ -1074` for double precision); the number `1.0` is `one F` such units.
Infinities are treated as the next number a format without the exponent limit would have.
-/

namespace Vc.Spec

/-- A binary floating-point format with `e` exponent bits and `m` mantissa bits. -/
structure Fmt where
  e : Nat
  m : Nat

/-- Single precision. -/
def f32 : Fmt := ⟨8, 23⟩

/-- Double precision. -/
def f64 : Fmt := ⟨11, 52⟩

/-- The sign bit. -/
def fneg (F : Fmt) {w : Nat} (x : BitVec w) : Bool := x.toNat.testBit (F.e + F.m)

/-- The bit pattern without its sign. -/
def fmag (F : Fmt) {w : Nat} (x : BitVec w) : Nat := x.toNat % 2 ^ (F.e + F.m)

/-- The number a pattern without sign stands for: exponent field `0` means `mantissa`, exponent field
`c ≥ 1` means `(2 ^ m + mantissa) * 2 ^ (c - 1)`. -/
def magVal (F : Fmt) (k : Nat) : Nat :=
  if k / 2 ^ F.m = 0 then k else (2 ^ F.m + k % 2 ^ F.m) * 2 ^ (k / 2 ^ F.m - 1)

/-- The number a bit pattern stands for. -/
def fval (F : Fmt) {w : Nat} (x : BitVec w) : Int :=
  if fneg F x then -(magVal F (fmag F x) : Int) else magVal F (fmag F x)

/-- The pattern of infinity: exponent field all ones, mantissa zero. -/
def infMag (F : Fmt) : Nat := (2 ^ F.e - 1) * 2 ^ F.m

/-- Not a number: exponent field all ones, mantissa not zero. -/
def isNaN (F : Fmt) {w : Nat} (x : BitVec w) : Bool := decide (infMag F < fmag F x)

/-- Positive or negative infinity. -/
def isInf (F : Fmt) {w : Nat} (x : BitVec w) : Bool := decide (fmag F x = infMag F)

/-- Neither infinite nor NaN. -/
def isFinite (F : Fmt) {w : Nat} (x : BitVec w) : Bool := decide (fmag F x < infMag F)

/-- The exponent bias. -/
def bias (F : Fmt) : Nat := 2 ^ (F.e - 1) - 1

/-- The number `1.0` in units of the smallest positive number is `2 ^ oneExp`. -/
def oneExp (F : Fmt) : Nat := bias F + F.m - 1

/-- The number, if the pattern stands for one; infinities compare like numbers beyond all others. -/
def fnum (F : Fmt) {w : Nat} (x : BitVec w) : Option Int := if isNaN F x then none else some (fval F x)

/-- `a < b` for IEEE-754 comparisons: never holds if there is a NaN. -/
def numLt (F : Fmt) {w : Nat} (a b : BitVec w) : Bool :=
  match fnum F a, fnum F b with
  | some p, some q => decide (p < q)
  | _, _ => false

/-- `a ≤ b`, never with a NaN. -/
def numLe (F : Fmt) {w : Nat} (a b : BitVec w) : Bool :=
  match fnum F a, fnum F b with
  | some p, some q => decide (p ≤ q)
  | _, _ => false

/-- `a = b`, never with a NaN. -/
def numEq (F : Fmt) {w : Nat} (a b : BitVec w) : Bool :=
  match fnum F a, fnum F b with
  | some p, some q => decide (p = q)
  | _, _ => false

/-- A finite number, at least 0 and less than 1. -/
def InUnit (F : Fmt) {w : Nat} (x : BitVec w) : Prop :=
  isFinite F x = true ∧ 0 ≤ fval F x ∧ fval F x < 2 ^ oneExp F

end Vc.Spec
