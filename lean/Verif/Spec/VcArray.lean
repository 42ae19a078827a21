/-!
A fixed number of entries, as `std::array` has them.
-/

namespace Vc.Spec

/-- Entry `n` of a list exists and is `x`. -/
def EntryIs {α : Type} (l : List α) (n : Nat) (x : α) : Prop := ∃ h : n < l.length, l[n] = x

/-- `r` has the entries of `l`, except that entry `n` is `u`. -/
def Replaced {α : Type} (l : List α) (n : Nat) (u : α) (r : List α) : Prop :=
  r.length = l.length ∧ EntryIs r n u ∧ ∀ i, i ≠ n → ∀ x, EntryIs l i x → EntryIs r i x

/-- All entries of `r` are `u`, and there are as many as in `l`. -/
def Filled {α : Type} (l : List α) (u : α) (r : List α) : Prop :=
  r.length = l.length ∧ ∀ i x, EntryIs r i x → x = u

end Vc.Spec
