import Verif.Spec.Float

/-!
Entries that are set where a condition holds.
-/

namespace Vc.Spec

/-- A quiet NaN: a NaN whose most significant mantissa bit is set. -/
def IsQuietNaN (F : Fmt) {w : Nat} (x : BitVec w) : Prop := isNaN F x = true ∧ x.getLsbD (F.m - 1) = true

/-- `new` satisfies `P` where the condition holds and is `old`, bit for bit, elsewhere. -/
def SetWhere (cond : Nat → Bool) (P : α → Prop) (count : Nat) (old new : Nat → α) : Prop :=
  ∀ i, i < count → if cond i = true then P (new i) else new i = old i

end Vc.Spec
