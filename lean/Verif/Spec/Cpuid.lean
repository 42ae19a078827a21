/-!
# What the CPUID instruction reports (Intel SDM volume 2, AMD APM volume 3)
-/

namespace Vc.Spec

/-- Bits `lo, ..., lo + len - 1` of a register. -/
def bits (x lo len : Nat) : Nat := x / 2 ^ lo % 2 ^ len

/-- The family of a processor whose leaf 1 has the signature `eax`: the extended family (bits
27-20) is added if the base family (bits 11-8) is 15. -/
def cpuFamily (eax : Nat) : Nat :=
  if bits eax 8 4 = 15 then bits eax 8 4 + bits eax 20 8 else bits eax 8 4

/-- The model: the extended model (bits 19-16) is the upper half if the base family is 15 or, for
processors not from AMD, 6. -/
def cpuModel (amd : Bool) (eax : Nat) : Nat :=
  if bits eax 8 4 = 15 ∨ (amd = false ∧ bits eax 8 4 = 6) then bits eax 4 4 + 16 * bits eax 16 4
  else bits eax 4 4

/-- The associativity encoded in four bits of leaf 0x80000006; 255 is fully associative. -/
def amdWays : Nat → Option Nat
  | 0 => some 0 | 1 => some 1 | 2 => some 2 | 4 => some 4 | 6 => some 8 | 8 => some 16
  | 10 => some 32 | 11 => some 48 | 12 => some 64 | 13 => some 96 | 14 => some 128 | 15 => some 255
  | _ => none

/-- A cache described by one sub-leaf of leaf 4. -/
structure CacheInfo where
  kind : Nat
  level : Nat
  line : Nat
  ways : Nat
  size : Nat
deriving DecidableEq

/-- The meaning of the registers of one sub-leaf of leaf 4. -/
def leaf4 (eax ebx ecx : Nat) : CacheInfo where
  kind := bits eax 0 5
  level := bits eax 5 3
  line := bits ebx 0 12 + 1
  ways := bits ebx 22 10 + 1
  size := (bits ebx 22 10 + 1) * (bits ebx 12 10 + 1) * (bits ebx 0 12 + 1) * (ecx + 1)

end Vc.Spec
