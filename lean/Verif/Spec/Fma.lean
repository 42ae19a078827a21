import Verif.Spec.FloatCvt

/-!
Fused multiply-add: `a * b + c`, rounded once.
-/

namespace Vc.Spec

/-- The exact value of `a * b + c` for finite operands, in units of the smallest number squared; `2 ^ oneExp` of
these are one smallest number. -/
def fmaExact (F : Fmt) {w : Nat} (a b c : BitVec w) : Int := fval F a * fval F b + fval F c * 2 ^ oneExp F

/-- `r` is `a * b + c` without rounding between the multiplication and the addition. -/
def FusedMulAdd (F : Fmt) {w : Nat} (a b c r : BitVec w) : Prop := NearestTo F (fmaExact F a b c) (2 ^ oneExp F) r

/-- No finite number of the format lies between `num / den` and `r`. -/
def Faithful (F : Fmt) (num : Int) (den : Nat) {w : Nat} (r : BitVec w) : Prop :=
  isNaN F r = false ∧ ∀ y : BitVec w, isFinite F y = true →
    (fval F y * den ≤ num → fval F y ≤ fval F r) ∧ (num ≤ fval F y * den → fval F r ≤ fval F y)

/-- Two different numbers of the format with no number between them. -/
def Adjacent (F : Fmt) {w : Nat} (x y : BitVec w) : Prop :=
  isNaN F x = false ∧ isNaN F y = false ∧ fval F x < fval F y ∧
    ∀ u : BitVec w, isNaN F u = false → ¬(fval F x < fval F u ∧ fval F u < fval F y)

/-- IEEE-754 for operands that are not finite. -/
def FmaSpecial (F : Fmt) {w : Nat} (a b c r : BitVec w) : Prop :=
  (isNaN F a = true ∨ isNaN F b = true ∨ isNaN F c = true → isNaN F r = true) ∧
  (isInf F a = true ∧ fval F b = 0 ∨ fval F a = 0 ∧ isInf F b = true → isNaN F r = true) ∧
  (isNaN F a = false → isNaN F b = false → fval F a ≠ 0 → fval F b ≠ 0 → isInf F a = true ∨ isInf F b = true →
    (isFinite F c = true → isInf F r = true ∧ fneg F r = (fneg F a != fneg F b)) ∧
    (isInf F c = true → if fneg F c = (fneg F a != fneg F b) then isInf F r = true ∧ fneg F r = fneg F c
      else isNaN F r = true)) ∧
  (isFinite F a = true → isFinite F b = true → isInf F c = true → isInf F r = true ∧ fneg F r = fneg F c)

/-- Let `t` be the exact sum rounded to double precision (one smallest float is `2 ^ 925` smallest doubles).  If
rounding to `t` was exact, or `t` does not lie precisely in the middle of two neighbouring floats, then `r` is the
fused result. -/
def FusedUnlessMidway (a b c r : BitVec 32) : Prop :=
  ∃ t : BitVec 64, NearestTo f64 (fmaExact f32 a b c * 2 ^ 776) 1 t ∧
    (fval f64 t = fmaExact f32 a b c * 2 ^ 776 ∨
      (∀ x z : BitVec 32, Adjacent f32 x z → 2 * fval f64 t ≠ (fval f32 x + fval f32 z) * 2 ^ 925) →
      FusedMulAdd f32 a b c r)

end Vc.Spec
