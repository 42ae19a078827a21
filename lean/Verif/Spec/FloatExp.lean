import Verif.Spec.Float

/-!
`frexp` and `ldexp` of the C library, and the exponent of a number.
-/

namespace Vc.Spec

/-- A finite number with exponent field at least 1. -/
def isNormal (F : Fmt) {w : Nat} (x : BitVec w) : Bool :=
  decide (2 ^ F.m ≤ fmag F x) && decide (fmag F x < infMag F)

/-- A number between zero and the smallest normal number. -/
def isDenormal (F : Fmt) {w : Nat} (x : BitVec w) : Bool :=
  decide (0 < fmag F x) && decide (fmag F x < 2 ^ F.m)

/-- `y = x * 2 ^ e` for finite numbers (both sides are multiplied with the power that makes them
integers). -/
def IsScaled (F : Fmt) {w : Nat} (x : BitVec w) (e : Int) (y : BitVec w) : Prop :=
  fneg F y = fneg F x ∧ fval F y * 2 ^ (-e).toNat = fval F x * 2 ^ e.toNat

/-- The result of `frexp(x, &e)`: `r` is in `[1/2, 1)` and `x = r * 2 ^ e`; zeros, infinities and NaNs
are returned, for zeros with exponent 0. -/
structure IsFrexp (F : Fmt) {w : Nat} (x r : BitVec w) (e : Int) : Prop where
  zero : fmag F x = 0 → r = x ∧ e = 0
  special : isFinite F x = false → r = x
  range : isFinite F x = true → fmag F x ≠ 0 →
    isFinite F r = true ∧ 2 ^ (oneExp F - 1) ≤ (fval F r).natAbs ∧ (fval F r).natAbs < 2 ^ oneExp F
  value : isFinite F x = true → fmag F x ≠ 0 → IsScaled F r e x

/-- `e` is the largest integer with `2 ^ e ≤ x`. -/
def IsLog2 (F : Fmt) {w : Nat} (x : BitVec w) (e : Int) : Prop :=
  2 ^ oneExp F * 2 ^ e.toNat ≤ fval F x * 2 ^ (-e).toNat ∧
    fval F x * 2 ^ (-e).toNat < 2 * (2 ^ oneExp F * 2 ^ e.toNat)

end Vc.Spec
