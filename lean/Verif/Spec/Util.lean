/-!
# Specification vocabulary for sizes (independent of the model)
-/

namespace Vc.Spec

/-- `p` is a power of two. -/
def IsPow2 (p : Nat) : Prop := ∃ k, p = 2 ^ k

/-- `p` is the least power of two that is not below `x`. -/
def IsLeastPow2 (x p : Nat) : Prop :=
  IsPow2 p ∧ x ≤ p ∧ ∀ q, IsPow2 q → x ≤ q → p ≤ q

/-- `m` is the least multiple of `g` that is not below `v`. -/
def IsLeastMultiple (g v m : Nat) : Prop :=
  g ∣ m ∧ v ≤ m ∧ ∀ q, g ∣ q → v ≤ q → m ≤ q

end Vc.Spec
