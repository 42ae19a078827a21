import Verif.Model.SimdArrayOps

/-!
# SimdMaskArray<T, N> (Vc/common/simdmaskarray.h)

A mask array has the shape of the corresponding `SimdArray`; its leaves are native masks, here the
list of lanes (their bit representation is the subject of C36). Loads, stores, `generate`, the
broadcast constructor and the operators `!`, `&`, `|`, `^`, `&&`, `||` are the same code as for
`SimdArray`, see `SA.load`, `SA.store`, `SA.gen`, `SA.broadcast`, `SA.map`, `SA.zipWith`
(Vc/common/simdmaskarray.h:435, 457-507, 522-579, 656-661). `SA.isEmpty` is in `SimdArrayOps`.
-/

namespace Vc.Model
open Vc.Spec Vc.Lemma

/-- Native `toInt()`: bit `i` is lane `i`. -/
def natToInt : List Bool → BitVec 32
  | [] => 0
  | b :: l => (if b then 1 else 0) ||| (natToInt l <<< 1)

/-- Native `firstOne()`; undefined for an empty mask. -/
def natFirstOne : List Bool → Option Nat
  | [] => none
  | true :: _ => some 0
  | false :: l => (natFirstOne l).map (· + 1)

namespace SA

/-- `get(o, i)`, `operator[]`: `i < data0.size() ? data0[i] : data1[i - data0.size()]`. Models
Vc/common/simdmaskarray.h:226-229, 598-605. -/
def maskGet (n : Nat) : SA Bool → Nat → Option Bool
  | atom l, i => l[i]?
  | node a b, i =>
    if i < leftSize n then a.maskGet (leftSize n) i
    else b.maskGet (rightSize n) (i - leftSize n)

/-- `set(o, i, v)`, assignment through `operator[]`. Models Vc/common/simdmaskarray.h:230-235,
606-616. -/
def maskSet (n : Nat) : SA Bool → Nat → Bool → Option (SA Bool)
  | atom l, i, v => if i < l.length then some (atom (l.set i v)) else none
  | node a b, i, v =>
    if i < leftSize n then (a.maskSet (leftSize n) i v).map (node · b)
    else (b.maskSet (rightSize n) (i - leftSize n) v).map (node a ·)

/-- `isFull()`. Models Vc/common/simdmaskarray.h:215, 582. -/
def isFull : SA Bool → Bool
  | atom l => l.all id
  | node a b => a.isFull && b.isFull

/-- `isNotEmpty()`. Models Vc/common/simdmaskarray.h:216, 584. -/
def isNotEmpty : SA Bool → Bool
  | atom l => l.any id
  | node a b => a.isNotEmpty || b.isNotEmpty

/-- `isMix()`. Models Vc/common/simdmaskarray.h:218, 588. -/
def isMix : SA Bool → Bool
  | atom l => !(l.all id) && l.any id
  | node a b => !(node a b).isFull && !(node a b).isEmpty

/-- `operator==`. Models Vc/common/simdmaskarray.h:156-159, 511-514. Operands of different shape
do not type-check in C++. -/
def maskEq : SA Bool → SA Bool → Option Bool
  | atom l, atom m => some (l == m)
  | node a b, node c d => do return (← a.maskEq c) && (← b.maskEq d)
  | _, _ => none

/-- `operator!=`. Models Vc/common/simdmaskarray.h:160-163, 516-519. -/
def maskNe : SA Bool → SA Bool → Option Bool
  | atom l, atom m => some (l != m)
  | node a b, node c d => do return (← a.maskNe c) || (← b.maskNe d)
  | _, _ => none

/-- `toInt()`: `data0.toInt() | (data1.toInt() << data0.size())`. The shift of an `int` by 32 or
more is undefined. Models Vc/common/simdmaskarray.h:222, 591-594. -/
def toInt (n : Nat) : SA Bool → Option (BitVec 32)
  | atom l => some (natToInt l)
  | node a b => do
    let x ← a.toInt (leftSize n)
    let y ← b.toInt (rightSize n)
    if 32 ≤ leftSize n then none else return x ||| (y <<< leftSize n)

/-- `count()`. Models Vc/common/simdmaskarray.h:253, 645. -/
def maskCount : SA Bool → Nat
  | atom l => l.count true
  | node a b => a.maskCount + b.maskCount

/-- `firstOne()`. Models Vc/common/simdmaskarray.h:260, 648-653. -/
def firstOne (n : Nat) : SA Bool → Option Nat
  | atom l => natFirstOne l
  | node a b =>
    if a.isEmpty then (b.firstOne (rightSize n)).map (· + leftSize n)
    else a.firstOne (leftSize n)

/-- `shifted(int amount)`: `unsigned j = i + amount` modulo 2^32, `j < size() ? get(*this, j) :
false`. Models Vc/common/simdmaskarray.h:268-271, 664-674. -/
def maskShifted (C : Cfg) (n : Nat) (k : Int) : SA Bool → Option (SA Bool)
  | atom l => some (atom (natShifted false k l))
  | node a b =>
    if k = 0 then some (node a b)
    else gen C n fun i =>
      let j := (((i : Int) + k) % 4294967296).toNat
      if j < n then (node a b).maskGet n j else some false

end SA
end Vc.Model
