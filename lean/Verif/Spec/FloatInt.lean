import Verif.Spec.Float

/-!
The integers next to a number `v / d`, `d > 0`.
-/

namespace Vc.Spec

/-- `n` is `v / d` without its fractional part. -/
def IsTrunc (v d n : Int) : Prop := (0 ≤ v → n * d ≤ v ∧ v < (n + 1) * d) ∧ (v ≤ 0 → v ≤ n * d ∧ (n - 1) * d < v)

/-- `n` is the greatest integer that is not greater than `v / d`. -/
def IsFloor (v d n : Int) : Prop := n * d ≤ v ∧ v < (n + 1) * d

/-- `n` is the least integer that is not less than `v / d`. -/
def IsCeil (v d n : Int) : Prop := v ≤ n * d ∧ (n - 1) * d < v

/-- `n` is an integer nearest to `v / d`, an even one if there are two. -/
def IsNearest (v d n : Int) : Prop :=
  2 * v ≤ 2 * (n * d) + d ∧ 2 * (n * d) ≤ 2 * v + d ∧
    (2 * v = 2 * (n * d) + d ∨ 2 * (n * d) = 2 * v + d → n % 2 = 0)

/-- `r` is the floating-point number `x` rounded to an integer, which one is told by `P`; infinities stay,
a NaN stays one. -/
def RoundsTo (F : Fmt) (P : Int → Int → Int → Prop) {w : Nat} (x r : BitVec w) : Prop :=
  (isFinite F x = true →
    isFinite F r = true ∧ ∃ n : Int, fval F r = n * 2 ^ oneExp F ∧ P (fval F x) (2 ^ oneExp F) n) ∧
  (isInf F x = true → r = x) ∧ (isNaN F x = true → isNaN F r = true)

end Vc.Spec
