import Verif.Model.Reg
import Mathlib.Order.Defs.LinearOrder

/-!
# What `call`, `apply`, `fill` and `callWithValuesSorted` promise

/repo/Vc/common/vector.h:704-720. The vector is a list of entries, a functor is a function that also
takes and returns its state.
-/

namespace Vc.Spec

variable {σ V : Type}

/-- The functor is called once for every value of the list, in this order; the final state. -/
def callEach (f : V → σ → σ) (l : List V) (s : σ) : σ := l.foldl (fun s v => f v s) s

/-- The entries `0 … size-1` are replaced in ascending order, entry `i` by what `g i` returns if
`sel i`, otherwise it is kept; the new entries and the final state. -/
def replaceEach (g : Nat → V → σ → V × σ) (sel : Nat → Bool) : Nat → List V → σ → List V × σ
  | _, [], s => ([], s)
  | i, v :: l, s =>
    if sel i then
      ((g i v s).1 :: (replaceEach g sel (i + 1) l (g i v s).2).1,
        (replaceEach g sel (i + 1) l (g i v s).2).2)
    else (v :: (replaceEach g sel (i + 1) l s).1, (replaceEach g sel (i + 1) l s).2)

/-- The entries of a register. -/
def entries {n : Nat} (w : Nat) (x : BitVec n) : List (BitVec w) :=
  (List.range (n / w)).map fun i => x.extractLsb' (w * i) w

/-- "Call f sequentially, starting with the minimum up to the maximum value"
(/repo/Vc/common/vector.h:704): the values used are exactly the values of the entries and they
ascend. A value that several entries have may be used once or several times. -/
structure FromMinToMax {K : Type} [LinearOrder K] (v : V → K) (l calls : List V) : Prop where
  same : ∀ z, z ∈ calls.map v ↔ z ∈ l.map v
  ascending : (calls.map v).Pairwise (· ≤ ·)

end Vc.Spec
