import Verif.Model.Bits
import Verif.Model.SimdMask

/-!
# Iterators (Vc/common/iterators.h)
-/

namespace Vc.Model

/-- `BitmaskIterator`. Models Vc/common/iterators.h:147-158. -/
structure BitmaskIterator where
  mask : Nat
  bit : Nat

namespace BitmaskIterator

/-- `nextBit()`: `bit = __builtin_ctzl(mask)`. The builtin is undefined for 0; here `u` is the value
it then yields. Models Vc/common/iterators.h:160-169. -/
def nextBit (u : Nat) (mask : Nat) : BitmaskIterator := ⟨mask, (bsf mask).getD u⟩

/-- The constructor. Models Vc/common/iterators.h:187. `m` is a `size_t`. -/
def make (u m : Nat) : BitmaskIterator := nextBit u m

/-- `operator++`: `resetLsb(); nextBit();` with `mask &= (mask - 1)`, the subtraction in `size_t`.
Models Vc/common/iterators.h:170-174, 194. -/
def next (u : Nat) (it : BitmaskIterator) : BitmaskIterator :=
  nextBit u (it.mask &&& ((it.mask + (2 ^ 64 - 1)) % 2 ^ 64))

/-- `operator!=`. Models Vc/common/iterators.h:198. -/
def ne (a b : BitmaskIterator) : Bool := a.mask != b.mask

/-- The values `*it` of `for (it = begin; it != end; ++it)`; at most `fuel` rounds, `none` if the
loop has not ended then. -/
def loop (u : Nat) (stop : BitmaskIterator) : Nat → BitmaskIterator → Option (List Nat)
  | 0, it => if it.ne stop then none else some []
  | fuel + 1, it =>
    if it.ne stop then (loop u stop fuel (it.next u)).map (it.bit :: ·) else some []

end BitmaskIterator

/-- `begin(where(mask))`: `return w.mask.toInt()`, the `int` converted to `size_t`. Models
Vc/common/iterators.h:236-240. -/
def whereBegin (u : Nat) (m : BitVec 32) : BitmaskIterator :=
  BitmaskIterator.make u (m.signExtend 64).toNat

/-- `end(where(mask))`: `return 0`. Models Vc/common/iterators.h:242-245. -/
def whereEnd (u : Nat) : BitmaskIterator := BitmaskIterator.make u 0

/-- The lanes visited by `for (auto i : where(mask))` in at most 64 rounds. -/
def whereLanes (u : Nat) (m : BitVec 32) : Option (List Nat) :=
  BitmaskIterator.loop u (whereEnd u) 64 (whereBegin u m)

/-- `Iterator<V>`: the object iterated over (its address) and the position. Models
Vc/common/iterators.h:94-143. -/
structure LaneIterator where
  v : Nat
  i : Int
deriving DecidableEq

namespace LaneIterator

/-- Comparison operators. Models Vc/common/iterators.h:133-138. -/
def eq (a b : LaneIterator) : Bool := a.v == b.v && a.i == b.i
@[inherit_doc eq] def ne (a b : LaneIterator) : Bool := a.v == b.v && a.i != b.i
@[inherit_doc eq] def lt (a b : LaneIterator) : Bool := a.v == b.v && decide (a.i < b.i)
@[inherit_doc eq] def le (a b : LaneIterator) : Bool := a.v == b.v && decide (a.i ≤ b.i)
@[inherit_doc eq] def gt (a b : LaneIterator) : Bool := a.v == b.v && decide (a.i > b.i)
@[inherit_doc eq] def ge (a b : LaneIterator) : Bool := a.v == b.v && decide (a.i ≥ b.i)

/-- `++it`, `it + d`, `it - d`, `a - b`. Models Vc/common/iterators.h:112-130. -/
def next (a : LaneIterator) : LaneIterator := ⟨a.v, a.i + 1⟩
@[inherit_doc next] def add (a : LaneIterator) (d : Int) : LaneIterator := ⟨a.v, a.i + d⟩
@[inherit_doc next] def sub (a : LaneIterator) (d : Int) : LaneIterator := ⟨a.v, a.i - d⟩
@[inherit_doc next] def diff (a b : LaneIterator) : Int := a.i - b.i

/-- `begin(x)`, `end(x)`. Models Vc/common/iterators.h:203-220. -/
def begin (v : Nat) : LaneIterator := ⟨v, 0⟩
@[inherit_doc begin] def «end» (v size : Nat) : LaneIterator := ⟨v, size⟩

/-- The positions visited by `for (it = a; it != b; ++it)`; at most `fuel` rounds, `none` if the
loop has not ended then. -/
def loop (b : LaneIterator) : Nat → LaneIterator → Option (List Int)
  | 0, a => if a.ne b then none else some []
  | fuel + 1, a => if a.ne b then (loop b fuel a.next).map (a.i :: ·) else some []

end LaneIterator
end Vc.Model
