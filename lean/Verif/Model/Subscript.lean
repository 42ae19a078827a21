import Verif.Model.SimdArrayOps
import Verif.Spec.Subscript

/-!
# Subscript operators with index vectors (Vc/common/subscript.h), the index check of interleaved memory

`data[indexes][&S::member][i]` builds a `SubscriptOperation`: a pointer, the index vector, and a
compile-time scale factor. Index components have `b` bits (at least 32, `convertIndexVector` promotes
smaller ones, /repo/Vc/common/detail.h:43-83), signed or unsigned. Addresses are integers that count bytes.
-/

namespace Vc.Model
open Vc.Spec

/-- Value of an index. -/
def indexValue (sgn : Bool) {b : Nat} (x : BitVec b) : Int := if sgn then x.toInt else Int.ofNat x.toNat

/-- `SubscriptOperation<T, IndexVector, Scale>` (/repo/Vc/common/subscript.h:239-246): `esize` is
`sizeof(T)`, `num`/`den` the `std::ratio` (reduced). -/
structure SubOp (b : Nat) where
  addr : Int
  esize : Nat
  num : Nat
  den : Nat
  idx : Nat → BitVec b

/-- `std::ratio_multiply<std::ratio<num, den>, std::ratio<p, q>>`. -/
def ratioMultiply (num den p q : Nat) : Nat × Nat :=
  (num * p / Nat.gcd (num * p) (den * q), den * q / Nat.gcd (num * p) (den * q))

/-- `applyScale<Scale>(x)` (/repo/Vc/common/subscript.h:104-143); `none`: the `static_assert` fails.
(The `Vc_ASSERT` of debug builds is not modelled.) -/
def applyScale {b : Nat} (num den : Nat) (x : BitVec b) : Option (BitVec b) :=
  if num = den then some x
  else if num % den = 0 then some (x * BitVec.ofNat b (num / den))
  else none

/-- `applyScaleAndAdd<Scale>(x, y)` (/repo/Vc/common/subscript.h:145-192): the quotient is not checked. -/
def applyScaleAndAdd {b : Nat} (num den : Nat) (x y : BitVec b) : BitVec b :=
  if num / den = 1 then x + y else x * BitVec.ofNat b (num / den) + y

/-- `subscript_operator(c, indexes)` (/repo/Vc/common/subscript.h:489-498). -/
def subStart {b : Nat} (base : Int) (size : Nat) (idx : Nat → BitVec b) : SubOp b :=
  { addr := base, esize := size, num := 1, den := 1, idx := idx }

/-- `operator[]` with a member pointer (/repo/Vc/common/subscript.h:337-355), with a scalar index
(/repo/Vc/common/subscript.h:391-420) and with an index vector (/repo/Vc/common/subscript.h:423-455), whose
components are converted to the type of the indexes. -/
def subStep {b : Nat} (o : SubOp b) : Step → SubOp b
  | .member off u =>
    let r := ratioMultiply o.num o.den o.esize u
    { o with addr := o.addr + Int.ofNat off, esize := u, num := r.1, den := r.2 }
  | .elem j u =>
    let r := ratioMultiply o.num o.den o.esize u
    { o with addr := o.addr + Int.ofNat j * Int.ofNat u, esize := u, num := r.1, den := r.2 }
  | .elems j u =>
    let r := ratioMultiply o.num o.den o.esize u
    { addr := o.addr, esize := u, num := 1, den := 1,
      idx := fun l => applyScaleAndAdd r.1 r.2 (o.idx l) (BitVec.ofInt b (j l)) }

/-- The whole expression. -/
def subscript {b : Nat} (base : Int) (size : Nat) (idx : Nat → BitVec b) (steps : List Step) : SubOp b :=
  steps.foldl subStep (subStart base size idx)

/-- `need_explicit_scaling` (/repo/Vc/common/subscript.h:286-287). -/
def needExplicitScaling {b : Nat} (o : SubOp b) : Bool :=
  o.num % o.den ≠ 0 || decide (o.num / o.den * o.esize > 8)

/-- Byte address that the gather `V(data[...])` accesses for component `l`
(/repo/Vc/common/subscript.h:289-315). The scale is applied to the index vector, or to each index in the
expression `args.address[Scale * args.indexes[i]]` (/repo/Vc/sse/vector.tcc:331, /repo/Vc/avx/vector.tcc:394,
/repo/Vc/scalar/vector.tcc:87), or by the gather instruction of AVX2 (`hw`), which takes signed 32 bit
indexes (/repo/Vc/sse/vector.h:158-176, /repo/Vc/avx/vector.h:203-225). Its scale `sizeof(T) * Scale` has to
be 1, 2, 4 or 8, other values do not compile (`none`). -/
def gatherAddress {b : Nat} (hw sgn : Bool) (o : SubOp b) (l : Nat) : Option Int :=
  if needExplicitScaling o then
    (applyScale o.num o.den (o.idx l)).map fun x =>
      o.addr + indexValue (hw || sgn) x * Int.ofNat o.esize
  else if hw then
    if o.esize * (o.num / o.den) ∈ [1, 2, 4, 8] then
      some (o.addr + (o.idx l).toInt * Int.ofNat (o.esize * (o.num / o.den)))
    else none
  else
    some (o.addr + indexValue sgn (BitVec.ofNat b (o.num / o.den) * o.idx l) * Int.ofNat o.esize)

/-- Byte address of the scatter `data[...] = v` (/repo/Vc/common/subscript.h:317-327). -/
def scatterAddress {b : Nat} (sgn : Bool) (o : SubOp b) (l : Nat) : Option Int :=
  (applyScale o.num o.den (o.idx l)).map fun x => o.addr + indexValue sgn x * Int.ofNat o.esize

/-! ### The index check of interleaved memory -/

/-- `CheckIndexesUnique::test` (/repo/Vc/common/interleavedmemory.h:124-128) for the index type
`SimdArray<int, n>`: `sorted()`, `rotated(1)`, and a comparison for equality. The result is the condition
of the `Vc_ASSERT`. -/
def indexesUnique (C : Cfg) (natSort : List (BitVec 32) → List (BitVec 32)) (n : Nat)
    (x : SA (BitVec 32)) : Option Bool := do
  let t ← x.sorted C 0 (BitVec.ofInt 32 (2 ^ 31 - 1)) natSort (fun a b => if a.sle b then a else b)
    (fun a b => if a.sle b then b else a) n
  let r ← t.rotated C 0 n 1
  let e ← SA.zipWith (fun a b => a == b) t r
  return n == 1 || e.isEmpty

end Vc.Model
