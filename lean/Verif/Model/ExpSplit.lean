import Verif.Model.SimdArray

/-!
# frexp and ldexp of SimdArray (Vc/common/simdarray.h:1827-1838, Vc/common/simdarrayhelper.h)

The exponents are a `SimdArray<int, N>`, which need not be divided into native vectors in the same places as the
`SimdArray<T, N>` of the numbers. `Split::lo`, `Split::hi` then yield a `Segment` of a native vector of exponents. The
functions of native vectors are `f` (number to mantissa and exponent) and `g`, by component (C57). Which overload of
the native function is called (`unpackArgumentsAuto`, /repo/Vc/common/simdarrayhelper.h:473-596) is not modelled: it has
to take a `SimdArray<int, w>` for a native vector of `w` entries.
-/

namespace Vc.Model
open Vc.Spec Vc.Lemma

/-- The exponents as they are passed down: (a pointer to) a SimdArray, or (a pointer to) a native vector with the
number and index of the segment (/repo/Vc/common/simdarrayhelper.h:125-184). -/
inductive EArg (β : Type) where
  | tree (e : SA β)
  | seg (l : List β) (pieces index : Nat)

/-- `fixed_size_type` of a segment has `Size / Pieces` entries, here `w`. For a pointer
`reinterpret_cast<SimdArray<int, w> *>(data) + Index`: the position in bytes is `Index` times the size of such an object
(/repo/Vc/common/simdarrayhelper.h:168-179). For a value `simd_cast<SimdArray<int, w>, Index>(data)`
(/repo/Vc/common/simdarrayhelper.h:150-153), entries from `Index * w` on (C26). -/
def segOffset (CI : Cfg) (w index : Nat) : Nat := index * (SA.broadcast CI () w).sizeOf CI

/-- The native `frexp` of `w` entries stores the exponents `v`; `none`: not the type the function takes, or the
store is not inside of the vector. -/
def EArg.store (CI : Cfg) (w : Nat) (v : List β) : EArg β → Option (EArg β)
  | tree e => if e.size = w then (SA.gen CI w fun i => v[i]?).map tree else none
  | seg l p k =>
    let o := segOffset CI w k
    if l.length / p = w ∧ o % CI.sz = 0 ∧ o / CI.sz + w ≤ l.length then
      some (seg (l.take (o / CI.sz) ++ v ++ l.drop (o / CI.sz + w)) p k)
    else none

/-- The exponents the native `ldexp` of `w` entries reads. -/
def EArg.load (w : Nat) : EArg β → Option (List β)
  | tree e => if e.size = w then some e.toList else none
  | seg l p k => if l.length / p = w then some ((l.drop (k * w)).take w) else none

/-- `frexp(x, &e)`: `fromOperation(Forward_frexp(), x, e)` (/repo/Vc/common/simdarray.h:1828-1832, 262-267, 916-924). The
second component is the argument after the call. -/
def SA.frexp (CI : Cfg) (f : α → α × β) : SA α → EArg β → Option (SA α × EArg β)
  | atom xs, e => (e.store CI xs.length (xs.map fun x => (f x).2)).map fun e => (atom (xs.map fun x => (f x).1), e)
  | node a b, .tree (.node ea eb) => do
    let r0 ← a.frexp CI f (.tree ea)
    let r1 ← b.frexp CI f (.tree eb)
    match r0.2, r1.2 with
    | .tree t0, .tree t1 => some (node r0.1 r1.1, .tree (.node t0 t1))
    | _, _ => none
  | node a b, .tree (.atom l) => do
    let r0 ← a.frexp CI f (.seg l 2 0)
    match r0.2 with
    | .seg l _ _ => do
      let r1 ← b.frexp CI f (.seg l 2 1)
      match r1.2 with
      | .seg l _ _ => some (node r0.1 r1.1, .tree (.atom l))
      | _ => none
    | _ => none
  | node a b, .seg l p k => do
    let r0 ← a.frexp CI f (.seg l (2 * p) (2 * k))
    match r0.2 with
    | .seg l _ _ => do
      let r1 ← b.frexp CI f (.seg l (2 * p) (2 * k + 1))
      match r1.2 with
      | .seg l _ _ => some (node r0.1 r1.1, .seg l p k)
      | _ => none
    | _ => none

/-- `ldexp(x, e)` (/repo/Vc/common/simdarray.h:1834-1838). -/
def SA.ldexp (g : α → β → α) : SA α → EArg β → Option (SA α)
  | atom xs, e => (e.load xs.length).map fun es => atom (List.zipWith g xs es)
  | node a b, .tree (.node ea eb) => do return node (← a.ldexp g (.tree ea)) (← b.ldexp g (.tree eb))
  | node a b, .tree (.atom l) => do return node (← a.ldexp g (.seg l 2 0)) (← b.ldexp g (.seg l 2 1))
  | node a b, .seg l p k => do
    return node (← a.ldexp g (.seg l (2 * p) (2 * k))) (← b.ldexp g (.seg l (2 * p) (2 * k + 1)))

end Vc.Model
