import Verif.Spec.Reference
import Verif.Model.SseMask
import Verif.Model.AvxMask
import Verif.Model.SimdArray
import Verif.Model.SimdMask

/-!
# `Vc::Detail::ElementReference`

The proxy that the subscript operators of vectors and masks return: it holds a reference to the object
and an index and uses the functions `get` and `set` of the class (`Accessor`).
-/

namespace Vc.Model

open Vc.Spec (Elem Operand Stmt)

/-- The functions `Accessor::get(obj, index)` and `Accessor::set(obj, index, v)`; `none` is undefined
behaviour. -/
structure Accessor (S V : Type) where
  get : S → Int → Option V
  set : S → Int → V → Option S

/-- The objects of the program (by number) and its plain variables. -/
structure Objs (S V : Type) where
  obj : Nat → S
  var : Nat → V

namespace Objs

variable {S V : Type} (A : Accessor S V) (h : Objs S V)

/-- `x = v`. -/
def setVar (x : Nat) (v : V) : Objs S V := { h with var := fun y => if y = x then v else h.var y }

/-- `ElementReference::operator value_type()`. Models /repo/Vc/common/elementreference.h:74-77. -/
def load (r : Elem) : Option V := A.get (h.obj r.obj) r.index

/-- `ElementReference::operator=(x)`. Models /repo/Vc/common/elementreference.h:79-85. -/
def store (r : Elem) (v : V) : Option (Objs S V) :=
  (A.set (h.obj r.obj) r.index v).map fun o =>
    { h with obj := fun k => if k = r.obj then o else h.obj k }

/-- The conversion of an argument to the entry type. -/
def arg : Operand V → Option V
  | .const v => some v
  | .var k => some (h.var k)
  | .elem r => h.load A r

/-- `operator op=(x)`: `lhs = get(obj, index); set(obj, index, lhs op x)`. Models
/repo/Vc/common/elementreference.h:89-104. -/
def opAssign (f : V → V → Option V) (r : Elem) (e : Operand V) : Option (Objs S V) :=
  (h.load A r).bind fun lhs => (h.arg A e).bind fun x => (f lhs x).bind fun v => h.store A r v

/-- `operator++()`, `operator--()`. Models /repo/Vc/common/elementreference.h:106-115, 129-138. -/
def pre (f : V → Option V) (r : Elem) : Option (Objs S V) :=
  (h.load A r).bind fun x => (f x).bind fun v => h.store A r v

/-- `operator++(int)`, `operator--(int)`: the new state and the value returned. Models
/repo/Vc/common/elementreference.h:117-127, 140-150. -/
def post (f : V → Option V) (r : Elem) : Option (Objs S V × V) :=
  (h.load A r).bind fun o => (f o).bind fun v => (h.store A r v).map fun h' => (h', o)

/-- `swap(ElementReference &&a, ElementReference &&b)`. Models
/repo/Vc/common/elementreference.h:152-156. -/
def swapRefs (a b : Elem) : Option (Objs S V) :=
  (h.load A a).bind fun tmp =>
  (h.load A b).bind fun v =>
  (h.store A a v).bind fun h' =>
  h'.store A b tmp

/-- `swap(value_type &a, ElementReference &&b)`. Models /repo/Vc/common/elementreference.h:158-162. -/
def swapVarRef (a : Nat) (b : Elem) : Option (Objs S V) :=
  let tmp := h.var a
  (h.load A b).bind fun v => (h.setVar a v).store A b tmp

/-- `swap(ElementReference &&a, value_type &b)`. Models /repo/Vc/common/elementreference.h:164-168. -/
def swapRefVar (a : Elem) (b : Nat) : Option (Objs S V) :=
  (h.load A a).bind fun tmp => (h.store A a (h.var b)).map fun h' => h'.setVar b tmp

/-- A statement of a program that uses the proxies. -/
def step : Stmt V → Option (Objs S V)
  | .read x r => (h.load A r).map fun v => h.setVar x v
  | .assign r e => (h.arg A e).bind fun v => h.store A r v
  | .opAssign f r e => h.opAssign A f r e
  | .pre f r => h.pre A f r
  | .post f x r => (h.post A f r).map fun p => p.1.setVar x p.2
  | .swap a b => h.swapRefs A a b
  | .swapVar x r => h.swapVarRef A x r
  | .swapElem r x => h.swapRefVar A r x

/-- A program. -/
def run : List (Stmt V) → Objs S V → Option (Objs S V)
  | [], h => some h
  | c :: l, h => (h.step A c).bind (run l)

end Objs

/-! ### The classes -/

/-- SSE and AVX vectors: `o.d.m(i)`, `o.d.set(i, v)`. Models /repo/Vc/sse/vector.h:259-270,
/repo/Vc/avx/vector.h:318-329 and `Storage` (/repo/Vc/common/storage.h). -/
def vecAccess (n w : Nat) : Accessor (BitVec n) (BitVec w) where
  get x i := if 0 ≤ i ∧ i < (n / w : Nat) then some (lane w x i.toNat) else none
  set x i v := if 0 ≤ i ∧ i < (n / w : Nat) then some (setLane w x i.toNat v) else none

/-- SSE masks. Models /repo/Vc/sse/mask.h:221-232. -/
def sseMaskAccess (w : Nat) : Accessor M128 Bool where
  get k i := if 0 ≤ i ∧ i < (128 / w : Nat) then some (maskGet (128 / w) k i.toNat) else none
  set k i v := if 0 ≤ i ∧ i < (128 / w : Nat) then some (maskSet w k i.toNat v) else none

/-- AVX masks. Models /repo/Vc/avx/mask.h:187-198, 218-229. -/
def avxMaskAccess (avx2 : Bool) (w : Nat) : Accessor M256 Bool where
  get k i := if 0 ≤ i ∧ i < (256 / w : Nat) then some (amGet avx2 (256 / w) k i.toNat) else none
  set k i v := if 0 ≤ i ∧ i < (256 / w : Nat) then some (amSet w k i.toNat v) else none

/-- Scalar vectors and masks: the index has to be 0 (`Vc_ASSERT(i == 0)`). Models
/repo/Vc/scalar/vector.h:144-156, /repo/Vc/scalar/mask.h:131-139. -/
def scalarAccess (V : Type) : Accessor V V where
  get x i := if i = 0 then some x else none
  set _ i v := if i = 0 then some v else none

/-- `SimdArray`. Models /repo/Vc/common/simdarray.h:372-383, 1014-1025. -/
def arrayAccess (C : Cfg) (V : Type) : Accessor (SA V) V where
  get x i := x.get C i
  set x i v := x.set C i v

/-- `SimdMaskArray<T, N>`. Models /repo/Vc/common/simdmaskarray.h:224-235, 596-616. -/
def maskArrayAccess (N : Nat) : Accessor (SA Bool) Bool where
  get m i := if 0 ≤ i then m.maskGet N i.toNat else none
  set m i v := if 0 ≤ i then m.maskSet N i.toNat v else none

end Vc.Model
