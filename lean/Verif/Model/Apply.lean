import Verif.Model.SseMask
import Verif.Model.AvxMask
import Verif.Model.Iterators
import Verif.Model.SimdArray

/-!
# Calling a functor with the entries of a vector

`call`, `apply`, `fill` and `callWithValuesSorted`. A functor may have state (captured references,
data members): it is a function that also takes and returns a state `σ`. A functor that throws is not
modelled.
-/

namespace Vc.Model

variable {n : Nat} {σ : Type}

/-- `unrolled_loop<I, Begin, End>(f)`, through which `for_all_vector_entries<Size>` calls its lambda.
Models /repo/Vc/common/types.h:364-391. -/
def unrolledLoop (f : Nat → σ → σ) (b e : Nat) (s : σ) : σ :=
  if b < e then unrolledLoop f (b + 1) e (f b s) else s
termination_by e - b

/-- The lanes over which `for (size_t i : where(mask))` runs, for the SSE masks. Models
/repo/Vc/sse/vector.h:383, 397 with /repo/Vc/common/iterators.h:230-245. -/
def sseWhere (w u : Nat) (k : M128) : Option (List Nat) :=
  whereLanes u (BitVec.ofNat 32 (maskToInt (128 / w) k))

/-- The same for the AVX masks. Models /repo/Vc/avx/vector.h:456, 470. -/
def avxWhere (avx2 : Bool) (w u : Nat) (k : M256) : Option (List Nat) :=
  whereLanes u (BitVec.ofNat 32 (amToInt avx2 (256 / w) k))

/-- `call(f)`. Models /repo/Vc/sse/vector.h:376-379 and /repo/Vc/avx/vector.h:449-452. -/
def vecCall (w : Nat) (f : BitVec w → σ → σ) (x : BitVec n) (s : σ) : σ :=
  unrolledLoop (fun i s => f (lane w x i) s) 0 (n / w) s

/-- `call(f, mask)` given the lanes of `where(mask)`; `none`: an entry outside of the vector is used.
Models /repo/Vc/sse/vector.h:381-386 and /repo/Vc/avx/vector.h:454-459. -/
def vecCallMasked (w : Nat) (f : BitVec w → σ → σ) (x : BitVec n) (lanes : List Nat) (s : σ) :
    Option σ :=
  lanes.foldlM (fun s i => if i < n / w then some (f (lane w x i) s) else none) s

/-- `apply(f)`: `Vector r` is zero, then `r.d.set(i, f(d.m(i)))`. Models /repo/Vc/sse/vector.h:388-394
and /repo/Vc/avx/vector.h:461-467. -/
def vecApply (w : Nat) (f : BitVec w → σ → BitVec w × σ) (x : BitVec n) (s : σ) : BitVec n × σ :=
  unrolledLoop (fun i p => let q := f (lane w x i) p.2; (setLane w p.1 i q.1, q.2)) 0 (n / w) (0#n, s)

/-- `apply(f, mask)`: `r` is a copy, entries are read from `r`. Models /repo/Vc/sse/vector.h:395-402
and /repo/Vc/avx/vector.h:468-475. -/
def vecApplyMasked (w : Nat) (f : BitVec w → σ → BitVec w × σ) (x : BitVec n) (lanes : List Nat)
    (s : σ) : Option (BitVec n × σ) :=
  lanes.foldlM (fun p i =>
    if i < n / w then (let q := f (lane w p.1 i) p.2; some (setLane w p.1 i q.1, q.2)) else none)
    (x, s)

/-- `fill(f)` with a function of the index. Models /repo/Vc/sse/vector.h:404-406 and
/repo/Vc/avx/vector.h:477-479. -/
def vecFillIdx (w : Nat) (f : Nat → σ → BitVec w × σ) (x : BitVec n) (s : σ) : BitVec n × σ :=
  unrolledLoop (fun i p => let q := f i p.2; (setLane w p.1 i q.1, q.2)) 0 (n / w) (x, s)

/-- `fill(f)` with a function without argument. Models /repo/Vc/sse/vector.h:407-409 and
/repo/Vc/avx/vector.h:480-482. -/
def vecFill (w : Nat) (f : σ → BitVec w × σ) (x : BitVec n) (s : σ) : BitVec n × σ :=
  unrolledLoop (fun i p => let q := f p.2; (setLane w p.1 i q.1, q.2)) 0 (n / w) (x, s)

/-- The loop of `callWithValuesSorted` from index `i` on, `value` is the value used last. -/
def sortedLoop (w : Nat) (ne : BitVec w → BitVec w → Bool) (f : BitVec w → σ → σ) (x : BitVec n)
    (i : Nat) (value : BitVec w) (s : σ) : σ :=
  if i < n / w then
    if ne (lane w x i) value then
      sortedLoop w ne f x (i + 1) (lane w x i) (f (lane w x i) s)
    else sortedLoop w ne f x (i + 1) value s
  else s
termination_by n / w - i

/-- `callWithValuesSorted(f)`; `ne` is `!=` on entries. Models /repo/Vc/sse/vector.h:364-374 and
/repo/Vc/avx/vector.h:437-447. -/
def vecCallSorted (w : Nat) (ne : BitVec w → BitVec w → Bool) (f : BitVec w → σ → σ) (x : BitVec n)
    (s : σ) : σ :=
  sortedLoop w ne f x 1 (lane w x 0) (f (lane w x 0) s)

/-- `Scalar::Vector`: `call(f, mask)`. Models /repo/Vc/scalar/vector.h:259-264; `call(f)` (:257) and
`callWithValuesSorted(f)` (:255) are `f(m_data)`. -/
def scalarCallMasked {V : Type} (f : V → σ → σ) (x : V) (mask : Bool) (s : σ) : σ :=
  if mask then f x s else s

/-- `Scalar::Vector`: `apply(f, mask)`. Models /repo/Vc/scalar/vector.h:268-275; `apply(f)` (:266) is
`Vector(f(m_data))`. -/
def scalarApplyMasked {V : Type} (f : V → σ → V × σ) (x : V) (mask : Bool) (s : σ) : V × σ :=
  if mask then f x s else (x, s)

/-- The native `apply(f)` of the vector inside of a `SimdArray`, which is a list in this layer (the
register version is `vecApply`). -/
def listApply {V : Type} (f : V → σ → V × σ) : List V → σ → List V × σ
  | [], s => ([], s)
  | v :: l, s => let q := f v s; let r := listApply f l q.2; (q.1 :: r.1, r.2)

/-- The native `apply(f, mask)` of the vector inside of a `SimdArray`. -/
def listApplyMasked {V : Type} (f : V → σ → V × σ) : List V → List Bool → σ → List V × σ
  | v :: l, k :: m, s =>
    let q := if k then f v s else (v, s)
    let r := listApplyMasked f l m q.2
    (q.1 :: r.1, r.2)
  | l, _, s => (l, s)

/-- `SimdArray::apply(f)`: `{data0.apply(f), data1.apply(f)}`, in this order because of the braces.
Models /repo/Vc/common/simdarray.h:430-433, 1113-1116. -/
def SA.applyF {V : Type} (f : V → σ → V × σ) : SA V → σ → SA V × σ
  | .atom l, s => let r := listApply f l s; (.atom r.1, r.2)
  | .node a b, s =>
    let p := a.applyF f s
    let q := b.applyF f p.2
    (.node p.1 q.1, q.2)

/-- `SimdArray::apply(f, k)`: `{data0.apply(f, Split::lo(k)), data1.apply(f, Split::hi(k))}`. Models
/repo/Vc/common/simdarray.h:434-437, 1118-1123; `none`: the mask is not of the same type. -/
def SA.applyFMasked {V : Type} (f : V → σ → V × σ) : SA V → SA Bool → σ → Option (SA V × σ)
  | .atom l, .atom m, s => let r := listApplyMasked f l m s; some (.atom r.1, r.2)
  | .node a b, .node ka kb, s =>
    match a.applyFMasked f ka s with
    | none => none
    | some p =>
      match b.applyFMasked f kb p.2 with
      | none => none
      | some q => some (.node p.1 q.1, q.2)
  | _, _, _ => none

end Vc.Model
