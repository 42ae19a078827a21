import Verif.Model.SimdArray
import Verif.Spec.Memory

/-!
# SimdArray gather and scatter (Vc/common/simdarray.h, Vc/common/simdarrayhelper.h)
-/

namespace Vc.Model
open Vc.Spec Vc.Lemma

/-- The `indexes` argument as it is passed down the tree: a `SimdArray<IT, M>`
(`tree`), a `Segment<V, Pieces, Index>` of a native vector (`seg`), or a pointer to integers
(`ptr`, with the offset that has been added to it). Models the overloads of `Split::lo`,
`Split::hi` in Vc/common/simdarrayhelper.h:130-154, 215-409. Not modelled: `std::vector`
indexes (they become pointers), the AVX register overloads (same lanes as `seg`). -/
inductive Idx where
  | tree (x : SA Int)
  | seg (l : List Int) (pieces index : Nat)
  | ptr (l : List Int) (off : Nat)

namespace Idx

/-- `indexes[i]`. `Segment::operator[]` is `data[i + EntryOffset]` with `EntryOffset = Index *
Size / Pieces`. Models Vc/common/simdarrayhelper.h:145-148, Vc/common/simdarray.h:1014-1018; a
native gather of a `Segment` goes through `to_fixed_size` (Vc/common/simdarrayhelper.h:150-153,
Vc/common/simdarray.h:541-547), which has the same lanes (C26). `C'` is the environment of the
index type. -/
def at? (C' : Cfg) : Idx → Nat → Option Int
  | tree x, i => x.get C' (i : Int)
  | seg l p k, i => l[i + k * l.length / p]?
  | ptr l o, i => l[o + i]?

/-- `Split::lo(Operations::gather(), indexes)`. Models
Vc/common/simdarrayhelper.h:218-224, 248-252, 346-351, 388-392. -/
def lo : Idx → Idx
  | tree (.node a _) => tree a
  | tree (.atom l) => seg l 2 0
  | seg l p k => seg l (2 * p) (2 * k)
  | ptr l o => ptr l o

/-- `Split::hi(Operations::gather(), indexes)`, `Split<secondOffset>`. Models
Vc/common/simdarrayhelper.h:225-231, 253-257, 352-357, 393-397. -/
def hi (secondOffset : Nat) : Idx → Idx
  | tree (.node _ b) => tree b
  | tree (.atom l) => seg l 2 1
  | seg l p k => seg l (2 * p) (2 * k + 1)
  | ptr l o => ptr l (o + secondOffset)

end Idx

namespace SA

/-- The entry a lane of a gather reads: `mem[indexes[i]]`, `none` outside of the memory. -/
def gatherAt (C' : Cfg) (mem : List α) (p : Int) (idx : Idx) (i : Nat) : Option α := do
  let j ← idx.at? C' i
  entry mem (p + j)

/-- `gather(mem, indexes)` and the gather constructor: `data0.gather(mem, Split::lo(indexes));
data1.gather(mem, Split::hi(indexes))`; a native gather reads `mem[indexes[i]]` for its lanes.
Models Vc/common/simdarray.h:549-556, 1481-1491, Vc/common/gatherinterface.h:140-147, 176-183. -/
def gather (C C' : Cfg) (mem : List α) (p : Int) (n : Nat) (idx : Idx) : Option (SA α) :=
  if C.atomic n then ((List.range n).mapM (gatherAt C' mem p idx)).map atom
  else if _h : 2 ≤ n then do
    let a ← gather C C' mem p (leftSize n) idx.lo
    let b ← gather C C' mem p (rightSize n) (idx.hi (leftSize n))
    return node a b
  else none
termination_by n
decreasing_by
  · exact leftSize_lt _h
  · exact rightSize_lt _h

/-- Native masked gather on lanes `o, o+1, ...` at the lane level: active lanes are read from
memory, the others keep their value and nothing is read for them. The strategies that
implement it are modelled in `Verif/Model/GatherScatter.lean` (C28). -/
def natGatherMasked (C' : Cfg) (mem : List α) (p : Int) (idx : Idx) :
    Nat → List α → List Bool → Option (List α)
  | i, x :: xs, m :: ms => do
    let v ← (if m then gatherAt C' mem p idx i else some x)
    let r ← natGatherMasked C' mem p idx (i + 1) xs ms
    return v :: r
  | _, _, _ => some []

/-- `gather(mem, indexes, mask)`: as `gather`, with `Split::lo(mask)`, `Split::hi(mask)`. Models
Vc/common/simdarray.h:557-564, 1492-1503. -/
def gatherMasked (C' : Cfg) (mem : List α) (p : Int) : Nat → Idx → SA α → SA Bool → Option (SA α)
  | _, idx, atom l, atom m => (natGatherMasked C' mem p idx 0 l m).map atom
  | n, idx, node a b, node k l => do
    let a ← gatherMasked C' mem p (leftSize n) idx.lo a k
    let b ← gatherMasked C' mem p (rightSize n) (idx.hi (leftSize n)) b l
    return node a b
  | _, _, _, _ => none

/-- One store of a scatter: `mem[a] = v`, `none` outside of the memory. -/
def storeAt (mem : List α) (a : Int) (v : α) : Option (List α) :=
  if 0 ≤ a ∧ a.toNat < mem.length then some (mem.set a.toNat v) else none

/-- Native scatter on lanes `i, i+1, ...`: `mem[indexes[i]] = v[i]` in lane order for the active
lanes. Models the unrolled loop of Vc/common/scatterimplementation.h:52-66 (the strategy
selected for masked scatters is the subject of C29, C30), Vc/sse/vector.tcc `scatterImplementation`. -/
def natScatter (C' : Cfg) (p : Int) (idx : Idx) :
    Nat → List α → List Bool → List α → Option (List α)
  | i, x :: xs, m :: ms, mem => do
    let mem ← (if m then (idx.at? C' i).bind (fun j => storeAt mem (p + j) x) else some mem)
    natScatter C' p idx (i + 1) xs ms mem
  | _, _, _, mem => some mem

/-- `scatter(mem, indexes)`: `data0.scatter(mem, Split::lo(indexes)); data1.scatter(mem,
Split::hi(indexes))`. Models Vc/common/simdarray.h:566-573, 1505-1515. -/
def scatter (C' : Cfg) (p : Int) : Nat → Idx → SA α → List α → Option (List α)
  | _, idx, atom l, mem => natScatter C' p idx 0 l (List.replicate l.length true) mem
  | n, idx, node a b, mem => do
    let mem ← scatter C' p (leftSize n) idx.lo a mem
    scatter C' p (rightSize n) (idx.hi (leftSize n)) b mem

/-- `scatter(mem, indexes, mask)`. Models Vc/common/simdarray.h:574-581, 1516-1526. -/
def scatterMasked (C' : Cfg) (p : Int) : Nat → Idx → SA α → SA Bool → List α → Option (List α)
  | _, idx, atom l, atom m, mem => natScatter C' p idx 0 l m mem
  | n, idx, node a b, node k l, mem => do
    let mem ← scatterMasked C' p (leftSize n) idx.lo a k mem
    scatterMasked C' p (rightSize n) (idx.hi (leftSize n)) b l mem
  | _, _, _, _, _ => none

end SA
end Vc.Model
