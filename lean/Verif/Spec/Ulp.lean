import Verif.Spec.FloatReal

/-!
Units in the last place.
-/

namespace Vc.Spec

/-- The number `r` differs from the real number `v` by at most `k` units in the last place of `v`: the distance of
neighbouring numbers between `2^e` and `2^(e+1)` is `2^(e-m)`, or that of the denormal numbers. -/
def WithinUlps (F : Fmt) {w : Nat} (k v : ℝ) (r : BitVec w) : Prop :=
  isFinite F r = true ∧ (v = 0 → rval F r = 0) ∧
  ∀ e : Int, (2 : ℝ) ^ e ≤ |v| → |v| < 2 ^ (e + 1) → |rval F r - v| ≤ k * 2 ^ max (e - F.m) (-(oneExp F : Int))

end Vc.Spec
