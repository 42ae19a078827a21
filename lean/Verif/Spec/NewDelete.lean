import Verif.Spec.Util

/-!
Objects in dynamically allocated memory.
-/

namespace Vc.Spec

/-- `k` objects of `size` bytes, aligned to `align`, one after the other from address `p` on, all of them inside of
the block of `bytes` bytes at `base`. -/
def Placed (align size k p base bytes : Nat) : Prop :=
  (∀ i, i < k → align ∣ p + i * size) ∧ base ≤ p ∧ p + k * size ≤ base + bytes

end Vc.Spec
