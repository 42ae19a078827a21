import Verif.Spec.FloatCvt
import Verif.Spec.LaneMove

/-!
What `deinterleave` of two vectors of `c` entries means.
-/

namespace Vc.Spec

/-- `r` is what comes out of reading `2 * c` entries at `a`: entry `i` of the first result is the converted
entry `2 * i` of the memory, entry `i` of the second one the converted entry `2 * i + 1`.  No other entries are
read; there is no result if and only if one of the `2 * c` entries is not readable. -/
def Deinterleaved {w v : Nat} {ρ : Type} (c : Nat) (conv : BitVec w → BitVec v → Prop) (entry : ρ → Nat → BitVec v)
    (m : Int → Option (BitVec w)) (a : Int) (r : Option (ρ × ρ)) : Prop :=
  (r = none ↔ ∃ j, j < 2 * c ∧ m (a + Int.ofNat j) = none) ∧
  ∀ x y, r = some (x, y) → ∀ i, i < c →
    (∃ p, m (a + Int.ofNat (2 * i)) = some p ∧ conv p (entry x i)) ∧
    (∃ q, m (a + Int.ofNat (2 * i + 1)) = some q ∧ conv q (entry y i))

/-- The same entry. -/
def SameEntry {w : Nat} (p r : BitVec w) : Prop := r = p

/-- The same number, integer types of different size. -/
def SameInt {w v : Nat} (sgn : Bool) (p : BitVec w) (r : BitVec v) : Prop := val sgn r = val sgn p

/-- The same number, as floating-point number. -/
def SameFloat {w v : Nat} (F : Fmt) (sgn : Bool) (p : BitVec w) (r : BitVec v) : Prop := ExactInt F (val sgn p) r

end Vc.Spec
