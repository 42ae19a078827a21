import Verif.Model.SseMask
import Verif.Model.AvxMask
import Verif.Model.SimdMask

/-!
# all_of, any_of, none_of, some_of (Vc/common/mask.h:394-430) and Scalar masks (Vc/scalar/mask.h)

The functions are templates over all mask classes with an overload for `bool`; the template arguments of the
mask (implementation and lane width) are part of the argument here.
-/

namespace Vc.Model

/-! ### Mask<T, VectorAbi::Scalar> -/

/-- `isFull()` (/repo/Vc/scalar/mask.h:122). -/
def smIsFull (m : Bool) : Bool := m
/-- `isNotEmpty()` (/repo/Vc/scalar/mask.h:123). -/
def smIsNotEmpty (m : Bool) : Bool := m
/-- `isEmpty()` (/repo/Vc/scalar/mask.h:124). -/
def smIsEmpty (m : Bool) : Bool := !m
/-- `isMix()` (/repo/Vc/scalar/mask.h:125). -/
def smIsMix (_m : Bool) : Bool := false
/-- `count()` (/repo/Vc/scalar/mask.h:159). -/
def smCount (m : Bool) : Nat := if m then 1 else 0
/-- `firstOne()` (/repo/Vc/scalar/mask.h:166). -/
def smFirstOne (_m : Bool) : Nat := 0
/-- `toInt()` (/repo/Vc/scalar/mask.h:167). -/
def smToInt (m : Bool) : Nat := if m then 1 else 0
/-- `generate(gen)` (/repo/Vc/scalar/mask.h:169-172). -/
def smGenerate (gen : Nat → Bool) : Bool := gen 0
/-- `shifted(amount)` (/repo/Vc/scalar/mask.h:174-181). -/
def smShifted (m : Bool) (amount : Int) : Bool := if amount = 0 then m else false

/-! ### Functions for all masks -/

/-- The argument of `all_of` etc. -/
inductive AnyMask where
  /-- SSE mask with lanes of `w` bits; `ptest`: SSE4.1 is available. -/
  | sse (ptest : Bool) (w : Nat) (k : M128)
  | avx (w : Nat) (k : M256)
  | scalar (m : Bool)
  /-- `SimdMaskArray`. -/
  | array (m : SA Bool)
  | bool (b : Bool)

/-- `all_of` (/repo/Vc/common/mask.h:397, 401). -/
def allOf : AnyMask → Bool
  | .sse p _ k => maskIsFull p k
  | .avx w k => amIsFull w k
  | .scalar m => smIsFull m
  | .array m => m.isFull
  | .bool b => b

/-- `any_of` (/repo/Vc/common/mask.h:406, 410). -/
def anyOf : AnyMask → Bool
  | .sse p _ k => maskIsNotEmpty p k
  | .avx w k => amIsNotEmpty w k
  | .scalar m => smIsNotEmpty m
  | .array m => m.isNotEmpty
  | .bool b => b

/-- `none_of` (/repo/Vc/common/mask.h:415, 419). -/
def noneOf : AnyMask → Bool
  | .sse p _ k => maskIsEmpty p k
  | .avx w k => amIsEmpty w k
  | .scalar m => smIsEmpty m
  | .array m => m.isEmpty
  | .bool b => !b

/-- `some_of` (/repo/Vc/common/mask.h:425, 429). -/
def someOf : AnyMask → Bool
  | .sse p _ k => maskIsMix p k
  | .avx w k => amIsMix w k
  | .scalar m => smIsMix m
  | .array m => m.isMix
  | .bool _ => false

end Vc.Model
