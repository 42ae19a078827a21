import Verif.Model.IndexArg
import Verif.Spec.Cpp

/-!
What is expected of index arguments.
-/

namespace Vc.Spec
open Vc.Model Vc.Spec.Cpp

/-- The indexes are integers of their type. -/
def GoodIdx (a : IdxArg) : Prop := a.ty.isIntegral = true ∧ ∀ v ∈ a.vals, Fits a.ty v
instance (a : IdxArg) : Decidable (GoodIdx a) := inferInstanceAs (Decidable (_ ∧ _))

/-- The number of indexes is part of the type. -/
def StaticSize : IdxKind → Prop
  | .simd | .stdArray | .vcArray | .cArray => True
  | _ => False

/-- Entry `i` uses the `i`-th index, for all entries. -/
def Uses (size : Nat) (a : IdxArg) (r : IdxUse) : Prop :=
  ∃ l, r = .offsets l ∧ l.length = size ∧ ∀ i < size, ∃ v, l[i]? = some v ∧ a.vals[i]? = some v

/-- A compiler rejects arguments with too few indexes if their type tells the number. -/
def Checked (size : Nat) (a : IdxArg) (r : IdxUse) : Prop := StaticSize a.kind → a.vals.length < size → r = .reject

end Vc.Spec
