/-!
# Memory at the level of entries

A region of memory is a list of entries; an address is an index into it. Accesses outside the
region have no value.
-/

namespace Vc.Spec

/-- The entry at address `a`. -/
def entry (mem : List α) (a : Int) : Option α :=
  if 0 ≤ a then mem[a.toNat]? else none

/-- `mem'` is what the stores "entry `addr i` becomes `val i`" for the active `i < n` leave behind
when they are done in the order `0, 1, ..., n-1`: an entry has the value of the last active
store to it; an entry that no active store addresses is unchanged; the region keeps its size. -/
structure IsStoredInOrder (n : Nat) (active : Nat → Prop) (addr : Nat → Int) (val : Nat → α)
    (mem mem' : List α) : Prop where
  length : mem'.length = mem.length
  last : ∀ i, i < n → active i → (∀ j, i < j → j < n → active j → addr j ≠ addr i) →
    entry mem' (addr i) = some (val i)
  other : ∀ a, (∀ i, i < n → active i → addr i ≠ a) → entry mem' a = entry mem a

end Vc.Spec
