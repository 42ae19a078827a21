import Verif.Spec.FloatReal
import Mathlib.Algebra.BigOperators.Intervals

/-!
Sums and products of floating-point numbers with an error bound.
-/

namespace Vc.Spec
open Finset

/-- The sum of the numbers `f i`, `i < n`, with `b i`. -/
noncomputable def sumOver (n : Nat) (b : Nat → Bool) (f : Nat → ℝ) : ℝ := ∑ i ∈ range n, if b i then f i else 0

/-- The product of the numbers `f i`, `i < n`, with `b i`. -/
noncomputable def productOver (n : Nat) (b : Nat → Bool) (f : Nat → ℝ) : ℝ := ∏ i ∈ range n, if b i then f i else 1

/-- Half a unit in the last place of a number close to 1 (the relative error of one operation). -/
noncomputable def roundoff (F : Fmt) : ℝ := 1 / 2 ^ (F.m + 1)

/-- `r` is a finite number, and the sum of the `f i` with `b i` up to the error of `k` roundings of a sum of the absolute
values. -/
def SumApprox (F : Fmt) {w : Nat} (k n : Nat) (b : Nat → Bool) (f : Nat → ℝ) (r : BitVec w) : Prop :=
  ApproxAbs F (sumOver n b f) (((1 + roundoff F) ^ k - 1) * sumOver n b fun i => |f i|) r

/-- `r` is a finite number, and the product of the `f i` with `b i` up to the relative error of `k` roundings. -/
def ProductApprox (F : Fmt) {w : Nat} (k n : Nat) (b : Nat → Bool) (f : Nat → ℝ) (r : BitVec w) : Prop :=
  ApproxRel F (productOver n b f) ((1 + roundoff F) ^ k - 1) r

/-- `r` is obtained from the elements of `l`, each used once and in any order, by at most `k` nested operations `op`. -/
inductive Combines {α : Type} (op : α → α → α) : Nat → List α → α → Prop
  | one (k : Nat) (a : α) : Combines op k [a] a
  | two {k : Nat} {l₁ l₂ l : List α} {r₁ r₂ : α} : (l₁ ++ l₂).Perm l → Combines op k l₁ r₁ → Combines op k l₂ r₂ →
      Combines op (k + 1) l (op r₁ r₂)

end Vc.Spec
