import Verif.Model.Memory

/-!
# simd_for_each, simd_for_each_n (Vc/common/algorithms.h)

For arithmetic value types. Iterators are positions in the memory region `mem`; they are integers,
because `last - V::Size + 1` may point before the region. `load_interleaved(tmp, p)` and
`store_interleaved(tmp, p)` are an unaligned load and store of `tmp.size()` consecutive elements
(Vc/common/simdize.h:1269-1275, 1290-1296). The functor has a state `σ`; it is called with the list
of lanes.
-/

namespace Vc.Model

/-- `load_interleaved` of `k` elements at position `p`; `none` outside of the region. -/
def loadAt (k : Nat) (mem : List α) (p : Int) : Option (List α) :=
  if 0 ≤ p then vecLoad k mem p.toNat else none

/-- `store_interleaved` at position `p`. -/
def storeVecAt (mem : List α) (p : Int) (v : List α) : Option (List α) :=
  if 0 ≤ p then vecStore mem p.toNat v else none

/-- `for (; first < lastV; first += V::Size) body(first)`; the result includes the final `first`.
Models the first loop in Vc/common/algorithms.h:75-81, 100-105. -/
def vecLoop (w : Nat) (hw : 0 < w) (body : Int → τ → Option τ) (first lastV : Int) (t : τ) :
    Option (Int × τ) :=
  if first < lastV then (body first t).bind (vecLoop w hw body (first + w) lastV)
  else some (first, t)
termination_by (lastV - first).toNat
decreasing_by omega

/-- `for (; first != last; ++first) body(first)`; with `first > last` the loop leaves the range,
`none`. Models the second loop in Vc/common/algorithms.h:82-86, 106-111. -/
def oneLoop (body : Int → τ → Option τ) (first last : Int) (t : τ) : Option τ :=
  if first = last then some t
  else if last < first then none
  else (body first t).bind (oneLoop body (first + 1) last)
termination_by (last - first).toNat
decreasing_by omega

/-- The loop body for a functor that does not modify its argument: load, call. -/
def bodyConst (f : List α → σ → σ) (mem : List α) (k : Nat) (p : Int) (s : σ) : Option σ := do
  let v ← loadAt k mem p
  return f v s

/-- The loop body for a functor that modifies its argument: load, call, store. -/
def bodyMut (f : List α → σ → List α × σ) (k : Nat) (p : Int) (t : List α × σ) :
    Option (List α × σ) := do
  let v ← loadAt k t.1 p
  let r := f v t.2
  let mem ← storeVecAt t.1 p r.1
  return (mem, r.2)

/-- `simd_for_each(first, last, f)`, functor with immutable argument: the state of the functor
afterwards. Models Vc/common/algorithms.h:65-88. -/
def simdForEachConst (w : Nat) (hw : 0 < w) (f : List α → σ → σ) (first last : Int) (mem : List α)
    (s : σ) : Option σ := do
  let lastV := last - w + 1
  let (first, s) ← vecLoop w hw (bodyConst f mem w) first lastV s
  oneLoop (bodyConst f mem 1) first last s

/-- `simd_for_each(first, last, f)`, functor with mutable argument: the memory and the state of
the functor afterwards. Models Vc/common/algorithms.h:90-113. -/
def simdForEachMut (w : Nat) (hw : 0 < w) (f : List α → σ → List α × σ) (first last : Int)
    (mem : List α) (s : σ) : Option (List α × σ) := do
  let lastV := last - w + 1
  let (first, t) ← vecLoop w hw (bodyMut f w) first lastV (mem, s)
  oneLoop (bodyMut f 1) first last t

/-- `std::make_signed<size_t>::type len = count`. -/
def signedCount (count : Nat) : Int := ((BitVec.ofNat 64 count).toInt)

/-- `for (; len >= int(V::size()); len -= V::Size, first += V::Size) body(first)`. Models
Vc/common/algorithms.h:126-130, 151-156. -/
def vecLoopN (w : Nat) (hw : 0 < w) (body : Int → τ → Option τ) (len first : Int) (t : τ) :
    Option (Int × Int × τ) :=
  if (w : Int) ≤ len then (body first t).bind (vecLoopN w hw body (len - w) (first + w))
  else some (len, first, t)
termination_by len.toNat
decreasing_by omega

/-- `for (; len != 0; --len, ++first) body(first)`; with a negative `len` the loop leaves the
range, `none`. Models Vc/common/algorithms.h:131-135, 157-162. -/
def oneLoopN (body : Int → τ → Option τ) (len first : Int) (t : τ) : Option τ :=
  if len = 0 then some t
  else if len < 0 then none
  else (body first t).bind (oneLoopN body (len - 1) (first + 1))
termination_by len.toNat
decreasing_by omega

/-- `simd_for_each_n(first, count, f)`, immutable argument. Models
Vc/common/algorithms.h:116-137. -/
def simdForEachNConst (w : Nat) (hw : 0 < w) (f : List α → σ → σ) (first : Int) (count : Nat)
    (mem : List α) (s : σ) : Option σ := do
  let (len, first, s) ← vecLoopN w hw (bodyConst f mem w) (signedCount count) first s
  oneLoopN (bodyConst f mem 1) len first s

/-- `simd_for_each_n(first, count, f)`, mutable argument. Models
Vc/common/algorithms.h:139-164. -/
def simdForEachNMut (w : Nat) (hw : 0 < w) (f : List α → σ → List α × σ) (first : Int)
    (count : Nat) (mem : List α) (s : σ) : Option (List α × σ) := do
  let (len, first, t) ← vecLoopN w hw (bodyMut f w) (signedCount count) first (mem, s)
  oneLoopN (bodyMut f 1) len first t

end Vc.Model
