/-!
A container of vectors that holds a list of numbers.
-/

namespace Vc.Spec

/-- `c` has only vectors of `S` entries, no fewer vectors would do for the numbers of `l`, and the entries of the
vectors one after another are the numbers of `l` followed by zeros. -/
def Contains {α : Type} (S : Nat) (zero : α) (l : List α) (c : List (List α)) : Prop :=
  (∀ v ∈ c, v.length = S) ∧ (∀ k, l.length ≤ k * S → c.length ≤ k) ∧
    ∃ z, c.flatten = l ++ List.replicate z zero

end Vc.Spec
