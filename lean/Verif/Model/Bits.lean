/-!
# Bit scan and population count

Registers are natural numbers; where a value can exceed the register width the reduction is written
out.
-/

namespace Vc.Model

/-- `bsf`, `__builtin_ctzl`: position of the lowest set bit; the result for 0 is undefined. -/
def bsf (x : Nat) : Option Nat :=
  if _h0 : x = 0 then none
  else if x % 2 = 1 then some 0
  else (bsf (x / 2)).map (· + 1)
termination_by x
decreasing_by omega

/-- `bsr`: position of the highest set bit; the result for 0 is undefined. -/
def bsr (x : Nat) : Option Nat :=
  if _h0 : x = 0 then none
  else if _h1 : x = 1 then some 0
  else (bsr (x / 2)).map (· + 1)
termination_by x
decreasing_by omega

/-- `btr`: reset bit `i`. -/
def btr (x i : Nat) : Nat := x ^^^ (x &&& 2 ^ i)

/-- `Detail::popcnt4(n)`, the version without the `popcnt` instruction. Models
Vc/sse/detail.h:369-371. -/
def popcnt4 (n : Nat) : Nat :=
  let n := (n &&& 0x5) + ((n >>> 1) &&& 0x5)
  (n &&& 0x3) + ((n >>> 2) &&& 0x3)

/-- `Detail::popcnt8(n)`. Models Vc/sse/detail.h:379-382. -/
def popcnt8 (n : Nat) : Nat :=
  let n := (n &&& 0x55) + ((n >>> 1) &&& 0x55)
  let n := (n &&& 0x33) + ((n >>> 2) &&& 0x33)
  (n &&& 0x0f) + ((n >>> 4) &&& 0x0f)

/-- `Detail::popcnt16(n)`. Models Vc/sse/detail.h:390-394. -/
def popcnt16 (n : Nat) : Nat :=
  let n := (n &&& 0x5555) + ((n >>> 1) &&& 0x5555)
  let n := (n &&& 0x3333) + ((n >>> 2) &&& 0x3333)
  let n := (n &&& 0x0f0f) + ((n >>> 4) &&& 0x0f0f)
  (n &&& 0x00ff) + ((n >>> 8) &&& 0x00ff)

/-- `Detail::popcnt32(n)`. Models Vc/sse/detail.h:402-407. -/
def popcnt32 (n : Nat) : Nat :=
  let n := (n &&& 0x55555555) + ((n >>> 1) &&& 0x55555555)
  let n := (n &&& 0x33333333) + ((n >>> 2) &&& 0x33333333)
  let n := (n &&& 0x0f0f0f0f) + ((n >>> 4) &&& 0x0f0f0f0f)
  let n := (n &&& 0x00ff00ff) + ((n >>> 8) &&& 0x00ff00ff)
  (n &&& 0x0000ffff) + ((n >>> 16) &&& 0x0000ffff)

end Vc.Model
