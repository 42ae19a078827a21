/-!
# Addresses of nested subscript expressions (independent of the model)

An expression `c[idx][&T::m][j][idx2]...` names one object per component: `c[idx[l]].m[j][idx2[l]]...`.
The address of an object is the address of the first object of `c` plus, for every subscript, the index
times the size of the type, and for every member its offset.
-/

namespace Vc.Spec

/-- One step of a subscript expression: a member (its offset and the size of its type), an element of a
nested array with a scalar index, and one with a vector of indexes (and the size of the element type). -/
inductive Step where
  | member (offset usize : Nat)
  | elem (j : Nat) (usize : Nat)
  | elems (j : Nat → Int) (usize : Nat)

/-- Address of the object that the steps select for component `l`, starting from the object at `a`. -/
def stepAddress (l : Nat) : Int → List Step → Int
  | a, [] => a
  | a, .member off _ :: t => stepAddress l (a + Int.ofNat off) t
  | a, .elem j u :: t => stepAddress l (a + Int.ofNat j * Int.ofNat u) t
  | a, .elems j u :: t => stepAddress l (a + j l * Int.ofNat u) t

/-- Address of `c[idx[l]]...` where the elements of `c` have `size` bytes and the first one is at
`base`. -/
def subscriptAddress (base : Int) (size : Nat) (idx : Nat → Int) (steps : List Step) (l : Nat) : Int :=
  stepAddress l (base + idx l * Int.ofNat size) steps

end Vc.Spec
