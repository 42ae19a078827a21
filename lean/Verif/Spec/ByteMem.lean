import Verif.Spec.Lane

/-!
Entries in byte-addressed memory.
-/

namespace Vc.Spec

/-- The entry `v` is stored at address `p`, little endian. -/
def EntryAt {w : Nat} (m : Int → Option (BitVec 8)) (p : Int) (v : BitVec w) : Prop :=
  ∀ j : Nat, 8 * j < w → m (p + j) = some (v.extractLsb' (8 * j) 8)

/-- The `k` bytes from address `p` on can be read. -/
def Readable (m : Int → Option (BitVec 8)) (p : Int) (k : Nat) : Prop :=
  ∀ j : Nat, j < k → ∃ b, m (p + j) = some b

/-- The numbers a 32-bit signed index can stand for. -/
def InInt32 (i : Int) : Prop := -2147483648 ≤ i ∧ i < 2147483648

/-- The number an integer entry stands for, converted to a 16-bit type. -/
def to16 {w : Nat} (sgn : Bool) (e : BitVec w) : BitVec 16 := BitVec.ofInt 16 (val sgn e)

end Vc.Spec
