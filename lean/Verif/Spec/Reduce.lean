/-!
# Specification of reductions, prefix sums and sorting
-/

namespace Vc.Spec

/-- Combination of all entries with `op`, from the right; `none` for no entries. -/
def total (op : α → α → α) : List α → Option α
  | [] => none
  | a :: l =>
    match total op l with
    | none => some a
    | some b => some (op a b)

/-- Entries whose mask bit is set. -/
def active (l : List α) (m : List Bool) : List α :=
  ((l.zip m).filter (·.2)).map (·.1)

/-- `r` is the list of the combinations of the first `1, 2, ..., n` entries of `l`. -/
def IsPrefixTotals (op : α → α → α) (l r : List α) : Prop :=
  r.length = l.length ∧ ∀ i, (h : i < r.length) → total op (l.take (i + 1)) = some r[i]

/-- `op` is associative and commutative. -/
structure AssocComm (op : α → α → α) : Prop where
  assoc : ∀ a b c, op (op a b) c = op a (op b c)
  comm : ∀ a b, op a b = op b a

/-- `le` is a linear order. -/
structure LinOrd (le : α → α → Bool) : Prop where
  trans : ∀ a b c, le a b → le b c → le a c
  total : ∀ a b, le a b || le b a
  antisymm : ∀ a b, le a b → le b a → a = b

/-- `r` is `l` sorted ascending. -/
def IsSorted (le : α → α → Bool) (l r : List α) : Prop :=
  r.Pairwise (fun a b => le a b = true) ∧ r.Perm l

end Vc.Spec
