/-!
What a program knows about the memory it obtained from an allocator.
-/

namespace Vc.Spec

/-- `sizeof(T)` and `alignof(T)`. -/
structure ObjTy where
  size : Nat
  align : Nat
  deriving DecidableEq, Repr

def ObjTy.OK (T : ObjTy) : Prop := 0 < T.size ∧ ∃ k, T.align = 2 ^ k

/-- The arrays that have been allocated and not deallocated, as type, number of objects and address; and the bytes
the program wrote to them. -/
structure View where
  live : List (ObjTy × Nat × Nat)
  bytes : Int → Option (BitVec 8)

/-- Address `x` belongs to the array. -/
def InArray (r : ObjTy × Nat × Nat) (x : Int) : Prop := r.2.2 ≤ x ∧ x < r.2.2 + ((r.2.1 * r.1.size : Nat) : Int)

def View.alloc (v : View) (T : ObjTy) (n q : Nat) : View := { v with live := (T, n, q) :: v.live }

open Classical in
noncomputable def View.dealloc (v : View) (T : ObjTy) (n q : Nat) : View :=
  { live := v.live.filter (· ≠ (T, n, q)), bytes := fun x => if InArray (T, n, q) x then none else v.bytes x }

def View.write (v : View) (a : Int) (b : BitVec 8) : View :=
  { v with bytes := fun x => if x = a then some b else v.bytes x }

end Vc.Spec
