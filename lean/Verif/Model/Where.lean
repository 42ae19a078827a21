import Verif.Model.SimdArray

/-!
# Masked assignment (Vc/common/where.h, writemaskedvector.h, iif.h)

`where(mask) | x op= y` constructs a `MaskedLValue` whose operators call `conditional_assign<op>(x,
mask, y)` (Vc/common/where.h:44-106), which is `x(mask) op= y` (Vc/common/simdarray.h:2541-2576,
Vc/sse/vector.h:462-497). `x(mask)` is a `WriteMaskedVector`. A native vector is the atomic case.
-/

namespace Vc.Model
open Vc.Lemma

namespace SA

/-- Lane-wise operation that is undefined for some operands (e.g. integer division by zero):
undefined if it is undefined in one lane. -/
def zipWithM (f : α → β → Option γ) : SA α → SA β → Option (SA γ)
  | atom l, atom m => ((l.zip m).mapM fun p => f p.1 p.2).map atom
  | node a b, node c d => do return node (← a.zipWithM f c) (← b.zipWithM f d)
  | _, _ => none

/-- `x(mask) op= y`: `operator=(static_cast<V>(vec op y))`, i.e. `vec.assign(vec op y, mask)`.
Models Vc/common/writemaskedvector.h:84-97. -/
def maskedOp (f : α → β → Option α) (x : SA α) (y : SA β) (m : SA Bool) : Option (SA α) := do
  let t ← x.zipWithM f y
  x.assign t m

/-- `setZeroInverted(mask)`: lanes without mask bit become zero. Models
Vc/common/simdarray.h:898-902 and, at the lane level, the native function. -/
def setZeroInverted (z : α) : SA α → SA Bool → Option (SA α)
  | atom l, atom m => some (atom (List.zipWith (fun v b => if b then v else z) l m))
  | node a b, node c d => do return node (← a.setZeroInverted z c) (← b.setZeroInverted z d)
  | _, _ => none

/-- `++x(mask)` / `--x(mask)`: `V one = V::One(); one.setZeroInverted(mask); return vec += one`
(`-=`). Models Vc/common/writemaskedvector.h:56-82; `f` is addition or subtraction. -/
def maskedInc (C : Cfg) (f : α → α → α) (one z : α) (n : Nat) (x : SA α) (m : SA Bool) :
    Option (SA α) := do
  let o ← (broadcast C one n).setZeroInverted z m
  x.zipWith f o

/-- `iif(mask, a, b)`: `T result(b); where(mask) | result = a; return result`. Models
Vc/common/iif.h:59-66. -/
def iif (m : SA Bool) (a b : SA α) : Option (SA α) := b.assign a m

end SA
end Vc.Model
