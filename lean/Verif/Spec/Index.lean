/-!
What the position of the minimum and maximum is.
-/

namespace Vc.Spec

/-- `i` is the first position of the minimum of `f 0 .. f (n - 1)`. -/
def FirstMin (n : Nat) (f : Nat → Int) (i : Nat) : Prop :=
  i < n ∧ (∀ j, j < n → f i ≤ f j) ∧ ∀ j, j < i → f i < f j

/-- `i` is the first position of the maximum of `f 0 .. f (n - 1)`. -/
def FirstMax (n : Nat) (f : Nat → Int) (i : Nat) : Prop :=
  i < n ∧ (∀ j, j < n → f j ≤ f i) ∧ ∀ j, j < i → f j < f i

end Vc.Spec
