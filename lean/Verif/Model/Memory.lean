import Verif.Model.Util

/-!
# Vc::Memory (Vc/common/memory.h, Vc/common/memorybase.h)

The storage of a `Memory` object is the list of its entries, padding included. `w` is `V::Size`.
Vector accesses that leave the storage are undefined behaviour, `none`. `V` is seen at the level
of its lanes: a load of `w` consecutive entries is the list of these entries.
-/

namespace Vc.Model

/-- `calcPaddedEntriesCount(n)`, `_MemorySizeCalculation<V, n>::PaddedSize`,
`Memory<V, n>::PaddedSize`: `masked = n & (V::Size - 1)`, `masked == 0 ? n : n + (V::Size -
masked)`. Models Vc/common/memory.h:45-54, 208-214, 379-383. -/
def paddedEntries (w n : Nat) : Nat :=
  let masked := n &&& (w - 1)
  if masked = 0 then n else wrap64 (n + (w - masked))

/-- A `Memory<V>` or `Memory<V, Size>` object: `entriesCount()`, `vectorsCount()` and the
storage. Models Vc/common/memory.h:208-225, 376-378. -/
structure VMem (α : Type u) where
  entries : Nat
  vecs : Nat
  mem : List α
deriving Repr, DecidableEq

/-- `V(&mem[off], flags)`. -/
def vecLoad (w : Nat) (mem : List α) (off : Nat) : Option (List α) :=
  if off + w ≤ mem.length then some ((mem.drop off).take w) else none

/-- `v.store(&mem[off], flags)`. -/
def vecStore (mem : List α) (off : Nat) (v : List α) : Option (List α) :=
  if off + v.length ≤ mem.length then some (mem.take off ++ v ++ mem.drop (off + v.length))
  else none

/-- Reading `vector(i)`: `&entries()[i * V::Size]`, the product in `size_t`. Models
Vc/common/memorybase.h:432-453 and `MemoryVector::value` (84). -/
def vectorRead (w : Nat) (mem : List α) (i : Nat) : Option (List α) :=
  vecLoad w mem (wrap64 (i * w))

/-- `vector(i) = v`. Models Vc/common/memorybase.h:432-439, 93-99. -/
def vectorWrite (w : Nat) (mem : List α) (i : Nat) (v : List α) : Option (List α) :=
  vecStore mem (wrap64 (i * w)) v

/-- Offset of `vector(i, shift)`: `i * V::Size + shift` in `size_t`. Models
Vc/common/memorybase.h:525-545. -/
def shiftedOffset (w i : Nat) (shift : Int) : Nat := (((i * w : Nat) : Int) + shift).toNat

/-- Reading `vector(i, shift)`; a negative offset is outside of the storage. -/
def vectorReadShift (w : Nat) (mem : List α) (i : Nat) (shift : Int) : Option (List α) :=
  if 0 ≤ ((i * w : Nat) : Int) + shift then vecLoad w mem (shiftedOffset w i shift) else none

/-- `vector(i, shift) = v`. -/
def vectorWriteShift (w : Nat) (mem : List α) (i : Nat) (shift : Int) (v : List α) :
    Option (List α) :=
  if 0 ≤ ((i * w : Nat) : Int) + shift then vecStore mem (shiftedOffset w i shift) v else none

/-- Reading `vectorAt(i)`: `&entries()[i]`. Models Vc/common/memorybase.h:474-496. -/
def vectorAtRead (w : Nat) (mem : List α) (i : Nat) : Option (List α) := vecLoad w mem i

/-- Index of `lastVector()`: `vectorsCount() - 1` in `size_t`. Models
Vc/common/memorybase.h:570-581. -/
def lastIndex (vecs : Nat) : Nat := wrap64 (vecs + (2 ^ 64 - 1))

/-- Construction of `Memory<V>(n)` and of `Memory<V, n>`: storage for the padded number of
entries with unspecified contents `raw`, then `lastVector() = V::Zero()`. Models
Vc/common/memory.h:227-232 (`InitPadding == true`), 394-401. -/
def VMem.construct (z : α) (w n : Nat) (raw : Nat → α) : Option (VMem α) := do
  let padded := paddedEntries w n
  let mem := (List.range padded).map raw
  let vecs := padded / w
  let mem ← vectorWrite w mem (lastIndex vecs) (List.replicate w z)
  return ⟨n, vecs, mem⟩

/-- Construction from an initializer list: `Vc_ASSERT(init.size() <= Size)`, `lastVector() =
V::Zero()`, `std::copy(init.begin(), init.end(), &m_mem[0])`. Models Vc/common/memory.h:234-239;
`none` if the assertion fails. -/
def VMem.fromList (z : α) (w n : Nat) (raw : Nat → α) (init : List α) : Option (VMem α) :=
  if init.length ≤ n then do
    let m ← VMem.construct z w n raw
    let mem ← vecStore m.mem 0 init
    return { m with mem := mem }
  else none

/-- `for (size_t i = lo; i < hi; ++i) s = f(i, s);` -/
def forLoop (f : Nat → σ → Option σ) (lo hi : Nat) (s : σ) : Option σ :=
  if lo < hi then (f lo s).bind (forLoop f (lo + 1) hi) else some s
termination_by hi - lo

/-- `operator=(const V &v)` and `setZero()`: `vector(i) = v` for all vectors. Models
Vc/common/memory.h:316-321, Vc/common/memorybase.h:591-596. -/
def VMem.fill (w : Nat) (m : VMem α) (v : List α) : Option (VMem α) := do
  let mem ← forLoop (fun i mem => vectorWrite w mem i v) 0 m.vecs m.mem
  return { m with mem := mem }

/-- `operator=(const EntryType *rhs)`: `memcpy(m_mem, rhs, entriesCount() * sizeof(EntryType))`.
Models Vc/common/memory.h:312-315, 494-497. -/
def VMem.copyIn (m : VMem α) (src : List α) : Option (VMem α) :=
  if m.entries ≤ src.length then do
    let mem ← vecStore m.mem 0 (src.take m.entries)
    return { m with mem := mem }
  else none

/-- Lane-wise binary operation of two vectors; an operation that is undefined in one lane is
undefined. -/
def lanesM (op : α → α → Option α) (a b : List α) : Option (List α) :=
  (List.zip a b).mapM fun p => op p.1 p.2

/-- `m op= rhs` for two memories: `vector(i) op= rhs.vector(i)` for all vectors. `rhs` is the
storage of the right operand as a function of the current storage of the left one, so that `m
op= m` is included. Models Vc/common/memorybase.h:611-654, 41-47. -/
def VMem.opAssign (op : α → α → Option α) (w : Nat) (m : VMem α) (rhs : List α → List α) :
    Option (VMem α) := do
  let mem ← forLoop (fun i mem => do
    let a ← vectorRead w mem i
    let b ← vectorRead w (rhs mem) i
    let r ← lanesM op a b
    vectorWrite w mem i r) 0 m.vecs m.mem
  return { m with mem := mem }

/-- `m op= x` for an entry `x`: `V v(x); vector(i) op= v`. Models
Vc/common/memorybase.h:659-698. -/
def VMem.opAssignScalar (op : α → α → Option α) (w : Nat) (m : VMem α) (x : α) :
    Option (VMem α) := do
  let mem ← forLoop (fun i mem => do
    let a ← vectorRead w mem i
    let r ← lanesM op a (List.replicate w x)
    vectorWrite w mem i r) 0 m.vecs m.mem
  return { m with mem := mem }

/-- The loops of the comparison operators: `if (!test(vector(i), rhs.vector(i))) return false;`
for all vectors, then `return true`. Models Vc/common/memorybase.h:703-782. -/
def allVectors (test : List α → List α → Bool) (w : Nat) (a b : List α) (i vecs : Nat) :
    Option Bool :=
  if i < vecs then do
    let x ← vectorRead w a i
    let y ← vectorRead w b i
    if test x y then allVectors test w a b (i + 1) vecs else some false
  else some true
termination_by vecs - i

/-- `isFull` of a lane-wise comparison. -/
def cmpFull (r : α → α → Bool) (x y : List α) : Bool := (List.zipWith r x y).all id

/-- `isEmpty` of a lane-wise comparison. -/
def cmpEmpty (r : α → α → Bool) (x y : List α) : Bool := !((List.zipWith r x y).any id)

/-- `operator==`, and with another relation `<`, `<=`, `>`, `>=`: `(vector(i) r
rhs.vector(i)).isFull()` for all vectors. Models Vc/common/memorybase.h:703-712, 731-782. -/
def VMem.cmpAll (r : α → α → Bool) (w : Nat) (a b : VMem α) : Option Bool :=
  allVectors (cmpFull r) w a.mem b.mem 0 a.vecs

/-- `operator!=`: `if (!(vector(i) == rhs.vector(i)).isEmpty()) return false;`. Models
Vc/common/memorybase.h:717-726. -/
def VMem.ne (eq : α → α → Bool) (w : Nat) (a b : VMem α) : Option Bool :=
  allVectors (cmpEmpty eq) w a.mem b.mem 0 a.vecs

/-! ## Copying -/

/-- The body of the unrolled loop: four loads, then four stores. Models
Vc/common/memorybase.h:799-806. `src` is the storage of the source as a function of the current
storage of the destination, so that self-assignment is included. -/
def copy4 (w : Nat) (src : List α → List α) (i : Nat) (dst : List α) : Option (List α) := do
  let tmp3 ← vectorRead w (src dst) (i - 3)
  let tmp2 ← vectorRead w (src dst) (i - 2)
  let tmp1 ← vectorRead w (src dst) (i - 1)
  let tmp0 ← vectorRead w (src dst) (i - 0)
  let dst ← vectorWrite w dst (i - 3) tmp3
  let dst ← vectorWrite w dst (i - 2) tmp2
  let dst ← vectorWrite w dst (i - 1) tmp1
  vectorWrite w dst (i - 0) tmp0

/-- `for (; i < vectorsCount; i += 4)`; the result includes the final `i`. -/
def copyLoop4 (w vecs : Nat) (src : List α → List α) (i : Nat) (dst : List α) :
    Option (Nat × List α) :=
  if i < vecs then (copy4 w src i dst).bind (copyLoop4 w vecs src (i + 4)) else some (i, dst)
termination_by vecs - i

/-- `Detail::copyVectors(dst, src)`. Models Vc/common/memorybase.h:787-811. -/
def copyVectors (w vecs : Nat) (src : List α → List α) (dst : List α) : Option (List α) := do
  let (i, dst) ← copyLoop4 w vecs src 3 dst
  forLoop (fun i dst => do
    let v ← vectorRead w (src dst) i
    vectorWrite w dst i v) (i - 3) vecs dst

/-- `operator=` for memories; the assertion `vectorsCount() == rhs.vectorsCount()` is a
precondition (`none`). Models Vc/common/memory.h:299-310, 472-483. -/
def VMem.assign (w : Nat) (dst src : VMem α) : Option (VMem α) :=
  if dst.vecs = src.vecs then do
    let mem ← copyVectors w dst.vecs (fun _ => src.mem) dst.mem
    return { dst with mem := mem }
  else none

/-- `m = m`. -/
def VMem.assignSelf (w : Nat) (m : VMem α) : Option (VMem α) := do
  let mem ← copyVectors w m.vecs id m.mem
  return { m with mem := mem }

/-- Copy construction of `Memory<V>`: sizes from the source, new storage of `vectorsCount() *
V::Size` entries with unspecified contents, then `copyVectors`. Models
Vc/common/memory.h:288-291, 410-432. -/
def VMem.copyConstruct (w : Nat) (raw : Nat → α) (src : VMem α) : Option (VMem α) := do
  let mem ← copyVectors w src.vecs (fun _ => src.mem) ((List.range (src.vecs * w)).map raw)
  return ⟨src.entries, src.vecs, mem⟩

/-- `swap(a, b)`: the pointers, the numbers of entries, the numbers of vectors. Models Vc/common/memory.h:447-451. -/
def VMem.swap (a b : VMem α) : VMem α × VMem α :=
  let s := ({ a with mem := b.mem }, { b with mem := a.mem })
  let s := ({ s.1 with entries := s.2.entries }, { s.2 with entries := s.1.entries })
  ({ s.1 with vecs := s.2.vecs }, { s.2 with vecs := s.1.vecs })

/-- Vector indexes visited by `for (auto v : m)`, `begin() = &firstVector()`, `end() =
&lastVector() + 1` and by `m.range(first, last)`, `end() = &vector(last + 1)`. Models
Vc/common/memorybase.h:108-155, 191-204, 398-410: the iterator is a pointer that advances by one
vector; `it != end` compares pointers. -/
def iterate (first stop : Nat) : List Nat :=
  if first < stop then first :: iterate (first + 1) stop else []
termination_by stop - first

/-! ## Two dimensions -/

/-- `sizeof(Memory<V, cols>)`: `paddedEntries` entries of `sz` bytes in a struct aligned to
`align` (`V::MemoryAlignment`). Models Vc/common/memory.h:79-86, 215-218. -/
def rowBytes (w sz align cols : Nat) : Nat :=
  (paddedEntries w cols * sz + align - 1) / align * align

/-- Byte offset of `entries(r)[c]`: `&m_mem[r][0] + c`. Models
Vc/common/memorybase.h:318-327. -/
def addr2 (w sz align cols r c : Nat) : Nat := r * rowBytes w sz align cols + c * sz

/-- Byte offset and size of what `m[r].vector(j)` accesses. Models
Vc/common/memorybase.h:332-338, 436-453. -/
def rowVector2 (w sz align cols r j : Nat) : Nat × Nat :=
  (r * rowBytes w sz align cols + j * w * sz, w * sz)

/-- Byte offset and size of what `vector(i)` of the two-dimensional memory accesses:
`&entries()[i * V::Size]` with `entries() = entries(0)`. -/
def flatVector2 (w sz : Nat) (i : Nat) : Nat × Nat := (i * w * sz, w * sz)

/-- `VectorsCount` of a row. Models Vc/common/memory.h:90-93. -/
def rowVectors (w cols : Nat) : Nat := paddedEntries w cols / w

end Vc.Model
