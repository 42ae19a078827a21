import Verif.Lemma.Bits

/-!
# C40: population count and bit scan
-/

namespace Vc.Prop
open Vc.Model Vc.Spec Vc.Lemma

/-- `popcnt4` counts the set bits of any 4-bit value. -/
theorem C40_popcnt4 (n : Nat) (h : n < 2 ^ 4) : popcnt4 n = countBits 4 n := popcnt4_eq n (by omega)

/-- `popcnt8` counts the set bits of any 8-bit value. -/
theorem C40_popcnt8 (n : Nat) (h : n < 2 ^ 8) : popcnt8 n = countBits 8 n := popcnt8_eq n (by omega)

/-- `popcnt16` counts the set bits of any 16-bit value. -/
theorem C40_popcnt16 (n : Nat) (h : n < 2 ^ 16) : popcnt16 n = countBits 16 n :=
  popcnt16_eq n (by omega)

/-- `popcnt32` counts the set bits of any 32-bit value. -/
theorem C40_popcnt32 (n : Nat) (h : n < 2 ^ 32) : popcnt32 n = countBits 32 n :=
  popcnt32_eq n (by omega)

/-- Every intermediate sum of `popcnt32` fits in 32 bits, so that computing with natural numbers
is computing with `unsigned int`. -/
theorem C40_no_overflow (c s n : Nat) (h : c < 2 ^ 31) :
    (n &&& c) + ((n >>> s) &&& c) < 2 ^ 32 := by
  have h1 : n &&& c ≤ c := Nat.and_le_right
  have h2 : (n >>> s) &&& c ≤ c := Nat.and_le_right
  omega

/-- The bit scans find the lowest and the highest set bit. -/
theorem C40_bit_scan (x : Nat) (hx : x ≠ 0) :
    (∃ i, bsf x = some i ∧ x.testBit i = true ∧ ∀ j, j < i → x.testBit j = false) ∧
    (∃ i, bsr x = some i ∧ x.testBit i = true ∧ ∀ j, i < j → x.testBit j = false) :=
  ⟨bsf_spec x hx, bsr_spec x hx⟩

example : countBits 32 0xf0f01 = 9 ∧ popcnt32 0xf0f01 = 9 := by decide
example : (0x55555555 : Nat) < 2 ^ 31 := by decide
example : (12 : Nat) ≠ 0 ∧ (12 : Nat).testBit 2 = true := by decide

end Vc.Prop
