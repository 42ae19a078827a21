import Verif.Model.Native
import Verif.Lemma.Util

/-!
# SimdArray<T, N> (Vc/common/simdarray.h)

A value of `SimdArray<T, N>` is a binary tree: an atomic array stores one native vector, a
generic one stores `data0` and `data1`. Functions take the template argument `N` and recurse
over template instantiations, `leftSize N` for `data0` and `rightSize N` for `data1`.
-/

namespace Vc.Model
open Vc.Spec Vc.Lemma

/-- Storage of a `SimdArray`/`SimdMaskArray`. `atom` is the `data` member of the atomic
specialisation (Vc/common/simdarray.h:504-512), `node` the members `data0`, `data1` of the
generic class (Vc/common/simdarray.h:1466-1473). -/
inductive SA (α : Type u) where
  | atom (l : List α)
  | node (a b : SA α)
deriving Repr

namespace SA

/-- The lanes in order. -/
def toList : SA α → List α
  | atom l => l
  | node a b => a.toList ++ b.toList

/-- Number of lanes. -/
def size : SA α → Nat
  | atom l => l.length
  | node a b => a.size + b.size

end SA

/-- What the compile-time environment of a `SimdArray<T, N>` fixes: the widths of the native
vector types for `T` in the order they are tried (Vc/common/simdarray.h:70-81), `sizeof(T)`,
and the mask of `BoundedAlignment` (Vc/common/utility.h:58-73). -/
structure Cfg where
  ws : List Nat
  sz : Nat
  amask : Nat

/-- Environments that exist: all native widths are powers of two, the last candidate is the
one-lane `Scalar::Vector`, `sizeof(T)` is a power of two, the alignment mask is `2^m - 1`. -/
structure Cfg.Valid (C : Cfg) : Prop where
  widths : ∀ w ∈ C.ws, IsPow2 w
  last : C.ws.getLast? = some 1
  sz : IsPow2 C.sz
  amask : ∃ m, C.amask = 2 ^ m - 1

/-- `SimdArray<T, N>` is the atomic specialisation: the best vector type has exactly `N`
lanes (template parameter `VectorSize == N`). Vc/common/simdarray.h:112-135,
Vc/common/simdarrayfwd.h. -/
def Cfg.atomic (C : Cfg) (n : Nat) : Bool := bestWidth n C.ws = n

/-- The tree has the type `SimdArray<T, n>`. -/
def SA.WF (C : Cfg) : Nat → SA α → Prop
  | n, .atom l => l.length = n ∧ C.atomic n = true
  | n, .node a b => C.atomic n = false ∧ WF C (leftSize n) a ∧ WF C (rightSize n) b

/-! ## Object layout -/

/-- Smallest multiple of `a` not below `x`; the C++ struct layout rule. -/
def roundUp (x a : Nat) : Nat := (x + a - 1) / a * a

namespace SA

/-- `alignof`. The `alignas` expressions are Vc/common/simdarray.h:505-510 and 1468-1472
(`BoundedAlignment<NextPowerOfTwo<N> * sizeof(V) / V::size()>`); a native vector of `w`
lanes is aligned to its size. -/
def alignOf (C : Cfg) : SA α → Nat
  | atom l => max (boundedAlignment C.amask (nextPow2 l.length * C.sz)) (l.length * C.sz)
  | node a b =>
    max (boundedAlignment C.amask (nextPow2 (a.size + b.size) * C.sz))
      (max (a.alignOf C) (b.alignOf C))

/-- `sizeof`, and with it the offset of `data1`, following the struct layout rules. -/
def sizeOf (C : Cfg) : SA α → Nat
  | atom l => roundUp (l.length * C.sz) ((atom l).alignOf C)
  | node a b =>
    roundUp (roundUp (a.sizeOf C) (b.alignOf C) + b.sizeOf C) ((node a b).alignOf C)

/-- Offset of `data1` in a generic array. -/
def off1 (C : Cfg) (a b : SA α) : Nat := roundUp (a.sizeOf C) (b.alignOf C)

/-- The entry stored at a byte offset of the object; `none` outside of the object, in padding
or not at the start of an entry. -/
def entryAt (C : Cfg) : SA α → Nat → Option α
  | atom l, o => if o % C.sz = 0 then l[o / C.sz]? else none
  | node a b, o =>
    if o < a.sizeOf C then a.entryAt C o
    else if off1 C a b ≤ o then b.entryAt C (o - off1 C a b)
    else none

/-- Overwrite the entry at a byte offset. -/
def setEntryAt (C : Cfg) (v : α) : SA α → Nat → Option (SA α)
  | atom l, o => if o % C.sz = 0 ∧ o / C.sz < l.length then some (atom (l.set (o / C.sz) v)) else none
  | node a b, o =>
    if o < a.sizeOf C then (a.setEntryAt C v o).map (node · b)
    else if off1 C a b ≤ o then (b.setEntryAt C v (o - off1 C a b)).map (node a ·)
    else none

/-- `operator[](i) const`, `get(o, i)`: `reinterpret_cast<const alias_type *>(&o)[i]`.
Models Vc/common/simdarray.h:374-377 and 1014-1018. `none` is an access that does not hit a
lane (undefined behaviour). -/
def get (C : Cfg) (x : SA α) (i : Int) : Option α :=
  if 0 ≤ i then x.entryAt C (i.toNat * C.sz) else none

/-- `set(o, i, v)`: `reinterpret_cast<alias_type *>(&o)[i] = v`. Models
Vc/common/simdarray.h:378-383 and 1019-1025. -/
def set (C : Cfg) (x : SA α) (i : Int) (v : α) : Option (SA α) :=
  if 0 ≤ i then x.setEntryAt C v (i.toNat * C.sz) else none

/-! ## Construction -/

/-- `SimdArray(value_type a) : data0(a), data1(a)`. Models Vc/common/simdarray.h:165-168,
755. The third case has no C++ counterpart (no instantiation); `broadcast_wf` shows that it
is not reached. -/
def broadcast (C : Cfg) (v : α) (n : Nat) : SA α :=
  if C.atomic n then atom (List.replicate n v)
  else if _h : 2 ≤ n then node (broadcast C v (leftSize n)) (broadcast C v (rightSize n))
  else atom []
termination_by n
decreasing_by
  · exact leftSize_lt _h
  · exact rightSize_lt _h

/-- Generator constructor and `generate(gen)`: `data0(gen), data1([&](i) { return gen(i +
N0); })`. Models Vc/common/simdarray.h:482-489, 724-741. The generator may have undefined
behaviour (`none`). -/
def gen (C : Cfg) (n : Nat) (f : Nat → Option α) : Option (SA α) :=
  if C.atomic n then ((List.range n).mapM f).map atom
  else if _h : 2 ≤ n then do
    let a ← gen C (leftSize n) f
    let b ← gen C (rightSize n) (fun i => f (i + leftSize n))
    return node a b
  else none
termination_by n
decreasing_by
  · exact leftSize_lt _h
  · exact rightSize_lt _h

/-- Native `generate(gen)` with a stateful generator: `tmp0 = gen(0); tmp1 = gen(1); ...`.
Models Vc/sse/vector.tcc:645-698; calls `off + 0, ..., off + (cnt-1)` of the generator. -/
def natGenS (f : Nat → σ → Option (α × σ)) : Nat → Nat → σ → Option (List α × σ)
  | _, 0, s => some ([], s)
  | i, cnt + 1, s => do
    let (v, s) ← f i s
    let (l, s) ← natGenS f (i + 1) cnt s
    return (v :: l, s)

/-- `gen` for a generator with state, i.e. whose result may depend on the order of calls. The
state is what the calls so far have left behind. Models the same code as `gen`. -/
def genS (C : Cfg) (n : Nat) (f : Nat → σ → Option (α × σ)) (s : σ) : Option (SA α × σ) :=
  if C.atomic n then (natGenS f 0 n s).map fun r => (atom r.1, r.2)
  else if _h : 2 ≤ n then do
    let (a, s) ← genS C (leftSize n) f s
    let (b, s) ← genS C (rightSize n) (fun i => f (i + leftSize n)) s
    return (node a b, s)
  else none
termination_by n
decreasing_by
  · exact leftSize_lt _h
  · exact rightSize_lt _h

/-- Load from memory: `data0(mem, f), data1(mem + storage_type0::size(), f)`. `mem` is the
memory region, `p` the pointer as an index into it; a native load of `w` lanes at `p` reads
`mem[p], ..., mem[p+w-1]` and is undefined if one of them is outside the region. Models
Vc/common/simdarray.h:303-313, 771-778, 935-940. -/
def load (C : Cfg) (mem : List α) (n p : Nat) : Option (SA α) :=
  if C.atomic n then
    if p + n ≤ mem.length then some (atom ((mem.drop p).take n)) else none
  else if _h : 2 ≤ n then do
    let a ← load C mem (leftSize n) p
    let b ← load C mem (rightSize n) (p + leftSize n)
    return node a b
  else none
termination_by n
decreasing_by
  · exact leftSize_lt _h
  · exact rightSize_lt _h

/-- Store to memory: `data0.store(mem), data1.store(mem + storage_type0::size())`. Models
Vc/common/simdarray.h:315-319, 942-947. `n` is the template argument. -/
def store (n p : Nat) : SA α → List α → Option (List α)
  | atom l, mem =>
    if p + l.length ≤ mem.length then some (mem.take p ++ l ++ mem.drop (p + l.length)) else none
  | node a b, mem => do
    let mem ← store (leftSize n) p a mem
    store (rightSize n) (p + leftSize n) b mem

/-- Construction from `IndexesFromZero` with `AddOffset<Offset>`. Models
Vc/common/simdarray.h:240-250, 817-832: an atomic array is `IndexesFromZero` plus
`value_type(Offset)`. `cast` is the conversion of an index to the entry type and `add` its
addition. -/
def indexesFromZero (C : Cfg) (cast : Nat → α) (add : α → α → α) (n off : Nat) : SA α :=
  if C.atomic n then atom ((List.range n).map fun i => if off = 0 then cast i else add (cast i) (cast off))
  else if _h : 2 ≤ n then
    node (indexesFromZero C cast add (leftSize n) off)
      (indexesFromZero C cast add (rightSize n) (leftSize n + off))
  else atom []
termination_by n
decreasing_by
  · exact leftSize_lt _h
  · exact rightSize_lt _h

/-! ## Elementwise operations -/

/-- Unary operators, `apply(f)`, and the functions forwarded through `fromOperation`:
`{op data0, op data1}`. Models Vc/common/simdarray.h:321-352, 430-434, 949-995, 1114-1117,
1757-1860. -/
def map (f : α → β) : SA α → SA β
  | atom l => atom (l.map f)
  | node a b => node (a.map f) (b.map f)

/-- Binary operators, comparisons, compound assignments, `min`, `max`: `{data0 op rhs.data0,
data1 op rhs.data1}`. Models Vc/common/simdarray.h:354-362, 998-1007, 1583-1633, 1793-1860.
Operands have the same type; the last case does not type-check in C++. -/
def zipWith (f : α → β → γ) : SA α → SA β → Option (SA γ)
  | atom l, atom m => some (atom (List.zipWith f l m))
  | node a b, node c d => do return node (← a.zipWith f c) (← b.zipWith f d)
  | _, _ => none

/-- `Split::lo` / `Split::hi` of an operand whose entry type may have other native widths:
a generic array gives `data0`/`data1`, an atomic one the two `Segment`s. Models
Vc/common/simdarrayhelper.h:143-343 (`Segment::EntryOffset = Index * Size / Pieces`). -/
def splitLo : SA α → SA α
  | atom l => atom (l.take (l.length / 2))
  | node a _ => a

@[inherit_doc splitLo]
def splitHi : SA α → SA α
  | atom l => atom (l.drop (l.length / 2))
  | node _ b => b

/-- Native masked assignment (`Vector::assign(v, mask)`): lanes with a set mask bit are
replaced. Models Vc/sse/vector.h `assign` (blend) at the lane level. -/
def natAssign : List α → List α → List Bool → List α
  | x :: xs, y :: ys, m :: ms => (if m then y else x) :: natAssign xs ys ms
  | _, _, _ => []

/-- `assign(v, k)`: `data0.assign(v.data0, internal_data0(k)); data1.assign(...)`. Models
Vc/common/simdarray.h:407-410, 1055-1059. -/
def assign : SA α → SA α → SA Bool → Option (SA α)
  | atom l, atom v, atom m => some (atom (natAssign l v m))
  | node a b, node c d, node m n => do return node (← a.assign c m) (← b.assign d n)
  | _, _, _ => none

/-- `apply(f, mask)`: `{data0.apply(f, lo(k)), data1.apply(f, hi(k))}`. Models
Vc/common/simdarray.h:434-437, 1118-1123; a native `apply(f, mask)` calls `f` for the lanes
with a set bit. -/
def applyMasked (f : α → α) : SA α → SA Bool → Option (SA α)
  | atom l, atom m => some (atom (natAssign l (l.map f) m))
  | node a b, node m n => do return node (← a.applyMasked f m) (← b.applyMasked f n)
  | _, _ => none

end SA
end Vc.Model
