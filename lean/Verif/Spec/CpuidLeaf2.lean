/-!
# The cache descriptors of CPUID leaf 2

From the manual of the processor (Intel SDM, volume 2A, CPUID, "Encoding of CPUID Leaf 2 Descriptors").
-/

namespace Vc.Spec

inductive CacheLevel where
  | l1i | l1d | l2 | l3
  deriving DecidableEq

/-- A cache: size in bytes, number of ways, bytes in a line. -/
structure CacheDesc where
  kind : CacheLevel
  bytes : Nat
  ways : Nat
  line : Nat
  deriving DecidableEq

/-- The rows of the table that are about caches; sizes in KBytes. -/
def intelTable : List (Nat × CacheLevel × Nat × Nat × Nat) := [
  (0x06, .l1i, 8, 4, 32), (0x08, .l1i, 16, 4, 32), (0x09, .l1i, 32, 4, 64), (0x30, .l1i, 32, 8, 64),
  (0x0A, .l1d, 8, 2, 32), (0x0C, .l1d, 16, 4, 32), (0x0D, .l1d, 16, 4, 64), (0x0E, .l1d, 24, 6, 64),
  (0x2C, .l1d, 32, 8, 64), (0x60, .l1d, 16, 8, 64), (0x66, .l1d, 8, 4, 64), (0x67, .l1d, 16, 4, 64),
  (0x68, .l1d, 32, 4, 64),
  (0x1D, .l2, 128, 2, 64), (0x21, .l2, 256, 8, 64), (0x24, .l2, 1024, 16, 64),
  (0x41, .l2, 128, 4, 32), (0x42, .l2, 256, 4, 32), (0x43, .l2, 512, 4, 32), (0x44, .l2, 1024, 4, 32),
  (0x45, .l2, 2048, 4, 32), (0x48, .l2, 3072, 12, 64), (0x49, .l2, 4096, 16, 64), (0x4E, .l2, 6144, 24, 64),
  (0x78, .l2, 1024, 4, 64), (0x79, .l2, 128, 8, 64), (0x7A, .l2, 256, 8, 64), (0x7B, .l2, 512, 8, 64),
  (0x7C, .l2, 1024, 8, 64), (0x7D, .l2, 2048, 8, 64), (0x7F, .l2, 512, 2, 64), (0x80, .l2, 512, 8, 64),
  (0x82, .l2, 256, 8, 32), (0x83, .l2, 512, 8, 32), (0x84, .l2, 1024, 8, 32), (0x85, .l2, 2048, 8, 32),
  (0x86, .l2, 512, 4, 64), (0x87, .l2, 1024, 8, 64),
  (0x22, .l3, 512, 4, 64), (0x23, .l3, 1024, 8, 64), (0x25, .l3, 2048, 8, 64), (0x29, .l3, 4096, 8, 64),
  (0x46, .l3, 4096, 4, 64), (0x47, .l3, 8192, 8, 64), (0x4A, .l3, 6144, 12, 64), (0x4B, .l3, 8192, 16, 64),
  (0x4C, .l3, 12288, 12, 64), (0x4D, .l3, 16384, 16, 64),
  (0xD0, .l3, 512, 4, 64), (0xD1, .l3, 1024, 4, 64), (0xD2, .l3, 2048, 4, 64), (0xD6, .l3, 1024, 8, 64),
  (0xD7, .l3, 2048, 8, 64), (0xD8, .l3, 4096, 8, 64), (0xDC, .l3, 1536, 12, 64), (0xDD, .l3, 3072, 12, 64),
  (0xDE, .l3, 6144, 12, 64), (0xE2, .l3, 2048, 16, 64), (0xE3, .l3, 4096, 16, 64), (0xE4, .l3, 8192, 16, 64),
  (0xEA, .l3, 12288, 24, 64), (0xEB, .l3, 18432, 24, 64), (0xEC, .l3, 24576, 24, 64)]

/-- The cache that a descriptor is about.  `xeonMP`: family 0F, model 06, where 49 is a third-level cache. -/
def describes (xeonMP : Bool) (b : Nat) : Option CacheDesc :=
  if xeonMP && b == 0x49 then some ⟨.l3, 4096 * 1024, 16, 64⟩
  else (intelTable.lookup b).map fun (k, s, w, l) => ⟨k, s * 1024, w, l⟩

/-- The bytes of a register that contain descriptors: none if bit 31 is set. -/
def regDescriptors (x : Nat) : List Nat :=
  if x < 2 ^ 31 then [x % 256, x / 2 ^ 8 % 256, x / 2 ^ 16 % 256, x / 2 ^ 24 % 256] else []

/-- The descriptors in the registers after CPUID with leaf 2: the least significant byte of EAX is none. -/
def leafDescriptors (eax ebx ecx edx : Nat) : List Nat :=
  (regDescriptors eax).drop 1 ++ regDescriptors ebx ++ regDescriptors ecx ++ regDescriptors edx

/-- The cache of some kinds according to a sequence of descriptors: the last one that is about these kinds. -/
def LastOf (xeonMP : Bool) (K : CacheLevel → Prop) (l : List Nat) (c : CacheDesc) : Prop :=
  ∃ a b t, l = a ++ b :: t ∧ describes xeonMP b = some c ∧ K c.kind ∧
    ∀ x ∈ t, ∀ d, describes xeonMP x = some d → ¬ K d.kind

end Vc.Spec
