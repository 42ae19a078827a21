/-!
# Arrays of structs (independent of the model)

An array of structs with `S` members of the same type, the first member of the first struct at address
`data`; addresses count members. A vector has `size` components.
-/

namespace Vc.Spec

/-- Address of member `j` of the struct with number `e`. -/
def member (data : Int) (S : Nat) (e : Int) (j : Nat) : Int := data + e * Int.ofNat S + Int.ofNat j

/-- The first `k` members of the structs with the numbers `e 0`, ..., `e (size - 1)` exist in the
memory `m`. -/
def MembersExist {β : Type} (m : Int → Option β) (data : Int) (S : Nat) (e : Nat → Int)
    (size k : Nat) : Prop :=
  ∀ l, l < size → ∀ j, j < k → (m (member data S (e l) j)).isSome

/-- The memory holds `v j l` in member `j` of the struct number `e l`, for all `j < k`. -/
def Holds {β : Type} (m : Int → Option β) (data : Int) (S : Nat) (e : Nat → Int) (size k : Nat)
    (v : Nat → Nat → β) : Prop :=
  ∀ l, l < size → ∀ j, j < k → m (member data S (e l) j) = some (v j l)

/-- The memories agree outside of the first `k` members of the structs. -/
def SameOutside {β : Type} (m m' : Int → Option β) (data : Int) (S : Nat) (e : Nat → Int)
    (size k : Nat) : Prop :=
  ∀ a, (∀ l, l < size → ∀ j, j < k → a ≠ member data S (e l) j) → m' a = m a

/-- The numbers are distinct. -/
def Distinct (e : Nat → Int) (size : Nat) : Prop :=
  ∀ l l', l < size → l' < size → e l = e l' → l = l'

end Vc.Spec
