import Verif.Model.Simdize

/-!
# Simdized iterators (Vc/common/simdize.h:1328-1824)

A scalar iterator is a position in the sequence `mem`; dereferencing it outside of the sequence is undefined
(`none`). `N` is the number of lanes.
-/

namespace Vc.Model
open Vc.Spec Vc.Lemma

/-- `*it` of the scalar iterator. -/
def seqAt {β : Type} (mem : List β) (p : Int) : Option β := if 0 ≤ p then mem[p.toNat]? else none

/-- `*it = v` of the scalar iterator. -/
def seqPut {β : Type} (mem : List β) (p : Int) (v : β) : Option (List β) :=
  if 0 ≤ p ∧ p.toNat < mem.length then some (mem.set p.toNat v) else none

section
variable {m : Nat} {K : Fin m → Member} (N : Nat)

/-- `for (j = 0; j < V::size(); ++j, ++it) tmp[j] = get<I>(*it)`. -/
def fillMember (K : Member) (tmp : SA K.Entry) (v : Nat → Option K.Entry) : Option (SA K.Entry) :=
  (List.range N).foldlM (fun t j => (v j).bind fun x => K.set N t j x) tmp

/-- `fromIterator` for class template instances (/repo/Vc/common/simdize.h:1333-1353): the recursion sets the
last member first. `r` is the value initialised result, `tmp` are the default initialised temporaries. -/
def fromIterator (r tmp : Adapter K) (mem : List (Obj K)) (p : Int) : Option (Adapter K) :=
  (List.finRange m).reverse.foldlM
    (fun r k => (fillMember N (K k) (tmp k) fun j => (seqAt mem (p + Int.ofNat j)).map (· k)).map (put r k)) r

/-- `fromIterator` for vectors and iterators that are not contiguous (/repo/Vc/common/simdize.h:1369-1380). -/
def fromIteratorLoop {β : Type} (C : Cfg) (z : β) (r : SA β) (mem : List β) (p : Int) : Option (SA β) :=
  fillMember N (.vec β C z) r fun j => seqAt mem (p + Int.ofNat j)

/-- `fromIterator` for vectors and contiguous iterators: an unaligned load
(/repo/Vc/common/simdize.h:1355-1367). -/
def fromIteratorLoad {β : Type} (C : Cfg) (mem : List β) (p : Int) : Option (SA β) :=
  if 0 ≤ p then SA.load C mem N p.toNat else none

/-- The loops `*it = extract(x, i)` of `~Pointer` (/repo/Vc/common/simdize.h:1415-1426) and
`Reference::operator=` (/repo/Vc/common/simdize.h:1499-1511). -/
def writeBack (x : Adapter K) (mem : List (Obj K)) (p : Int) : Option (List (Obj K)) :=
  (List.range N).foldlM (fun mem i => (extractImpl N x i).bind fun v => seqPut mem (p + Int.ofNat i) v) mem

end

/-! ## Positions -/

/-- `operator++` (/repo/Vc/common/simdize.h:1610-1615). -/
def iterInc (N : Nat) (p : Int) : Int := p + Int.ofNat N

/-- `operator--`: `std::advance(it, -Size)` with a `size_t Size`, converted to the (64 bit) difference type
(/repo/Vc/common/simdize.h:1724-1729). -/
def iterDec (N : Nat) (p : Int) : Int := p + (-(BitVec.ofNat 64 N)).toInt

/-- `operator+=`, `operator+`, `operator-=`, `operator-` (/repo/Vc/common/simdize.h:1762-1774). -/
def iterAdd (N : Nat) (p n : Int) : Int := p + n * Int.ofNat N
@[inherit_doc iterAdd] def iterSub (N : Nat) (p n : Int) : Int := p - n * Int.ofNat N

/-- `a - b` (/repo/Vc/common/simdize.h:1776-1786). -/
def iterDiff (N : Nat) (a b : Int) : Int := Int.tdiv (a - b) (Int.ofNat N)

/-- Comparison operators (/repo/Vc/common/simdize.h:1624-1659, 1788-1810, without the assertions of debug
builds). -/
def iterEq (a b : Int) : Bool := a == b
@[inherit_doc iterEq] def iterNe (a b : Int) : Bool := !iterEq a b
@[inherit_doc iterEq] def iterLt (N : Nat) (a b : Int) : Bool := decide (b - a ≥ Int.ofNat N)
@[inherit_doc iterEq] def iterGt (N : Nat) (a b : Int) : Bool := decide (a - b ≥ Int.ofNat N)
@[inherit_doc iterEq] def iterLe (N : Nat) (a b : Int) : Bool := decide (b - a ≥ Int.ofNat N - 1)
@[inherit_doc iterEq] def iterGe (N : Nat) (a b : Int) : Bool := decide (a - b ≥ Int.ofNat N - 1)

/-- The positions of `for (it = a; cond(it, b); ++it)`; at most `fuel` rounds, `none` if the loop has not
ended then. -/
def iterLoop (N : Nat) (cond : Int → Int → Bool) (b : Int) : Nat → Int → Option (List Int)
  | 0, a => if cond a b then none else some []
  | fuel + 1, a => if cond a b then (iterLoop N cond b fuel (iterInc N a)).map (a :: ·) else some []

/-! ## Lifetimes

`Reference` keeps a C++ reference to the scalar iterator inside of the simdized iterator that was
dereferenced (/repo/Vc/common/simdize.h:1480-1491). The state consists of the simdized iterator objects that
exist (by name). -/

/-- The simdized iterators of the program; `none`: no such object, or destroyed. -/
abbrev Iters := Nat → Option Int

/-- A `Reference` object: the name of the iterator object it refers to. (The copy of the data is
`fromIterator`.) -/
structure IterRef where
  it : Nat

/-- `operator*()` of a mutable iterator (/repo/Vc/common/simdize.h:1669). -/
def iterDeref (s : Iters) (it : Nat) : Option IterRef := (s it).map fun _ => ⟨it⟩

/-- `operator[](i)`: `return *(*this + i)` (/repo/Vc/common/simdize.h:1812). `*this + i` is a temporary, here
named `t`, that is destroyed when the function returns. The results are the reference and the state after
the call. -/
def iterSubscript (N : Nat) (s : Iters) (it : Nat) (i : Int) (t : Nat) : Option (IterRef × Iters) := do
  let p ← s it
  let s' : Iters := fun j => if j = t then some (iterAdd N p i) else s j
  let r ← iterDeref s' t
  return (r, fun j => if j = t then none else s' j)

/-- `r = x` for a `Reference` (/repo/Vc/common/simdize.h:1499-1511). Using a reference to an object that does
not exist is undefined. -/
def refAssign {m : Nat} {K : Fin m → Member} (N : Nat) (s : Iters) (r : IterRef) (x : Adapter K)
    (mem : List (Obj K)) : Option (List (Obj K)) :=
  (s r.it).bind fun p => writeBack N x mem p

end Vc.Model
