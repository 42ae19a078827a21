/-!
# CpuId (src/cpuid.cpp, Vc/cpuid.h) and the selection of the implementation (src/support_x86.cpp)

Registers are natural numbers below 2^32. The leaf 2 descriptors (`CpuId::interpret`,
src/cpuid.cpp:206-242, 314-644) are modelled in `Verif/Model/CpuidLeaf2.lean`; the values they leave
behind are inputs of the part that reads leaf 4.
-/

namespace Vc.Model

/-- The registers after CPUID. -/
structure Regs where
  eax : Nat
  ebx : Nat
  ecx : Nat
  edx : Nat

/-- What CPUID returns for a leaf and a sub-leaf, and the low half of XCR0. -/
structure Cpu where
  cpuid : Nat → Nat → Regs
  xcr0 : Nat

/-- The static members of `CpuId` that `init()` sets. Models src/cpuid.cpp:34-59. -/
structure CpuId where
  ecx0 : Nat := 0
  logicalProcessors : Nat := 0
  featuresC : Nat := 0
  featuresD : Nat := 0
  features7B : Nat := 0
  features7C : Nat := 0
  features8C : Nat := 0
  features8D : Nat := 0
  l1Instruction : Nat := 0
  l1Data : Nat := 0
  l2Data : Nat := 0
  l3Data : Nat := 0
  l1InstructionLineSize : Nat := 0
  l1DataLineSize : Nat := 0
  l2DataLineSize : Nat := 0
  l3DataLineSize : Nat := 0
  l1Associativity : Nat := 0
  l2Associativity : Nat := 0
  l3Associativity : Nat := 0
  model : Nat := 0
  family : Nat := 0
  brandIndex : Nat := 0
  cacheLine : Nat := 0
  processorType : Nat := 3

namespace CpuId

/-- `isAmd()`, `isIntel()`. Models Vc/cpuid.h:83, 85. -/
def isAmd (s : CpuId) : Bool := s.ecx0 == 0x444D4163
@[inherit_doc isAmd] def isIntel (s : CpuId) : Bool := s.ecx0 == 0x6C65746E

/-- The feature tests `s & (1 << i)`. Models Vc/cpuid.h:86-200. -/
def hasSse3 (s : CpuId) : Bool := s.featuresC &&& (1 <<< 0) != 0
@[inherit_doc hasSse3] def hasSsse3 (s : CpuId) : Bool := s.featuresC &&& (1 <<< 9) != 0
@[inherit_doc hasSse3] def hasFma (s : CpuId) : Bool := s.featuresC &&& (1 <<< 12) != 0
@[inherit_doc hasSse3] def hasSse41 (s : CpuId) : Bool := s.featuresC &&& (1 <<< 19) != 0
@[inherit_doc hasSse3] def hasSse42 (s : CpuId) : Bool := s.featuresC &&& (1 <<< 20) != 0
@[inherit_doc hasSse3] def hasPopcnt (s : CpuId) : Bool := s.featuresC &&& (1 <<< 23) != 0
@[inherit_doc hasSse3] def hasOsxsave (s : CpuId) : Bool := s.featuresC &&& (1 <<< 27) != 0
@[inherit_doc hasSse3] def hasAvx (s : CpuId) : Bool := s.featuresC &&& (1 <<< 28) != 0
@[inherit_doc hasSse3] def hasF16c (s : CpuId) : Bool := s.featuresC &&& (1 <<< 29) != 0
@[inherit_doc hasSse3] def hasAvx2 (s : CpuId) : Bool := s.features7B &&& (1 <<< 5) != 0
@[inherit_doc hasSse3] def hasBmi2 (s : CpuId) : Bool := s.features7B &&& (1 <<< 8) != 0
@[inherit_doc hasSse3] def hasSse2 (s : CpuId) : Bool := s.featuresD &&& (1 <<< 26) != 0
@[inherit_doc hasSse3] def hasSse4a (s : CpuId) : Bool := s.features8C &&& (1 <<< 6) != 0
@[inherit_doc hasSse3] def hasXop (s : CpuId) : Bool := s.features8C &&& (1 <<< 11) != 0
@[inherit_doc hasSse3] def hasFma4 (s : CpuId) : Bool := s.features8C &&& (1 <<< 16) != 0

/-- `cacheLineSize()`: `static_cast<ushort>(s_cacheLineSize) * 8u`. Models Vc/cpuid.h:72-73. -/
def cacheLineSize (s : CpuId) : Nat := s.cacheLine * 8

/-- Conversion to `uchar`. -/
def uchar (x : Nat) : Nat := x % 256

/-- Family and model from leaf 1. Models src/cpuid.cpp:146-168. The members are `uchar`. -/
def familyModel (amd : Bool) (eax : Nat) : Nat × Nat :=
  let model := uchar ((eax &&& 0x000000f0) >>> 4)
  let family := uchar ((eax &&& 0x00000f00) >>> 8)
  let familyExt := uchar ((eax &&& 0x0ff00000) >>> 16)
  let modelExt := uchar ((eax &&& 0x000f0000) >>> 12)
  if amd then
    if family ≥ 0xf then (uchar (family + familyExt), uchar (model + modelExt)) else (family, model)
  else if family = 0xf then (uchar (family + familyExt), uchar (model + modelExt))
  else if family = 0x6 then (family, uchar (model + modelExt))
  else if family = 0xB then (uchar (family + familyExt), uchar (model + modelExt))
  else (family, model)

/-- `CpuIdAmdAssociativityTable`. Models src/cpuid.cpp:112-129. -/
def amdAssociativityTable (b : Nat) : Nat :=
  match b with
  | 0x0 => 0 | 0x1 => 1 | 0x2 => 2 | 0x4 => 4 | 0x6 => 8 | 0x8 => 16 | 0xA => 32 | 0xB => 48
  | 0xC => 64 | 0xD => 96 | 0xE => 128 | 0xF => 0xff
  | _ => 0xffffffff

/-- The part of `init()` common to all vendors. Models src/cpuid.cpp:140-183. -/
def initCommon (c : Cpu) : CpuId :=
  let s : CpuId := { ecx0 := (c.cpuid 0 0).ecx }
  let r := c.cpuid 1 0
  let fm := familyModel s.isAmd r.eax
  let ebx := r.ebx >>> 8
  { s with
    featuresC := r.ecx, featuresD := r.edx
    family := fm.1, model := fm.2
    processorType := (r.eax &&& 0x00003000) >>> 12
    brandIndex := uchar (r.ebx &&& 0xff)
    cacheLine := uchar (ebx &&& 0xff)
    logicalProcessors := (ebx >>> 8) &&& 0xff
    features7B := (c.cpuid 7 0).ebx, features7C := (c.cpuid 7 0).ecx
    features8C := (c.cpuid 0x80000001 0).ecx, features8D := (c.cpuid 0x80000001 0).edx }

/-- Multiplication of `uint`. -/
def umul (a b : Nat) : Nat := a * b % 2 ^ 32

/-- The AMD part of `init()`. Models src/cpuid.cpp:188-202. -/
def initAmd (c : Cpu) (s : CpuId) : CpuId :=
  let r5 := c.cpuid 0x80000005 0
  let r6 := c.cpuid 0x80000006 0
  { s with
    l1DataLineSize := r5.ecx &&& 0xff
    l1Data := umul (r5.ecx >>> 24) 1024
    l1Associativity := (r5.ecx >>> 16) &&& 0xff
    l1InstructionLineSize := r5.edx &&& 0xff
    l1Instruction := umul (r5.edx >>> 24) 1024
    l2DataLineSize := r6.ecx &&& 0xff
    l2Data := umul (r6.ecx >>> 16) 1024
    l2Associativity := amdAssociativityTable ((r6.ecx >>> 12) &&& 0xf)
    l3DataLineSize := r6.edx &&& 0xff
    l3Data := umul (umul (r6.edx >>> 18) 512) 1024
    l3Associativity := amdAssociativityTable ((r6.ecx >>> 12) &&& 0xf) }

/-- One round of the loop over the sub-leaves of leaf 4. `none`: overflow of `int` (in `ecx + 1`
the conversion is implementation-defined and gives a negative number, excluded here as well).
Models src/cpuid.cpp:251-309. -/
def leaf4Step (r : Regs) (s : CpuId) : Option CpuId :=
  let cacheLevel := (r.eax >>> 5) &&& 7
  let linesize := 1 + (r.ebx &&& 0xfff)
  let ebx := r.ebx >>> 12
  let partitions := 1 + (ebx &&& 0x3ff)
  let ebx := ebx >>> 10
  let ways := 1 + (ebx &&& 0x3ff)
  let sets := 1 + r.ecx
  let size := ways * partitions * linesize * sets
  if size ≥ 2 ^ 31 then none
  else match r.eax &&& 0x1f with
    | 1 | 3 => match cacheLevel with
      | 1 => some { s with l1Data := size, l1DataLineSize := linesize, l1Associativity := ways }
      | 2 => some { s with l2Data := size, l2DataLineSize := linesize, l2Associativity := ways }
      | 3 => some { s with l3Data := size, l3DataLineSize := linesize, l3Associativity := ways }
      | _ => some s
    | 2 => match cacheLevel with
      | 1 => some { s with l1Instruction := size, l1InstructionLineSize := linesize }
      | _ => some s
    | _ => some s

/-- `for (int i = 0; eax & 0x1f; ++i) { Vc_CPUID_C(4, i); ... }` from round `i` on, at most `fuel`
rounds; `none` if the loop has not ended then. Models src/cpuid.cpp:248-310. -/
def leaf4Loop (c : Cpu) : Nat → Nat → Nat → CpuId → Option CpuId
  | 0, _, eax, s => if eax &&& 0x1f = 0 then some s else none
  | fuel + 1, i, eax, s =>
    if eax &&& 0x1f = 0 then some s
    else do
      let r := c.cpuid 4 i
      let s ← leaf4Step r s
      leaf4Loop c fuel (i + 1) r.eax s

end CpuId

/-- `enum Implementation`. Models Vc/global.h:482-502. -/
inductive Implementation
  | scalar | sse2 | sse3 | ssse3 | sse41 | sse42 | avx | avx2 | mic
deriving DecidableEq

/-- The value of the enumerator. Models Vc/global.h:482-502. -/
def Implementation.num : Implementation → Nat
  | scalar => 0 | sse2 => 1 | sse3 => 2 | ssse3 => 3 | sse41 => 4 | sse42 => 5 | avx => 6
  | avx2 => 7 | mic => 8

/-- `xgetbvCheck(bits)`: `(eax & bits) == bits`. Models src/support_x86.cpp:51-54. -/
def xgetbvCheck (c : Cpu) (b : Nat) : Bool := (c.xcr0 &&& b) == b

/-- `isImplementationSupported(impl)`; `s` is the state after `init()`. Models
src/support_x86.cpp:62-90. -/
def isImplementationSupported (c : Cpu) (s : CpuId) : Implementation → Bool
  | .scalar => true
  | .sse2 => s.hasSse2
  | .sse3 => s.hasSse3
  | .ssse3 => s.hasSsse3
  | .sse41 => s.hasSse41
  | .sse42 => s.hasSse42
  | .avx => s.hasOsxsave && s.hasAvx && xgetbvCheck c 0x6
  | .avx2 => s.hasOsxsave && s.hasAvx2 && xgetbvCheck c 0x6
  | .mic => s.family == 0xB && s.model == 0x1 && s.isIntel

/-- `bestImplementationSupported()`. Models src/support_x86.cpp:93-111. -/
def bestImplementationSupported (c : Cpu) (s : CpuId) : Implementation :=
  if s.family == 0xB && s.model == 0x1 && s.isIntel then .mic
  else if !s.hasSse2 then .scalar
  else if !s.hasSse3 then .sse2
  else if !s.hasSsse3 then .sse3
  else if !s.hasSse41 then .ssse3
  else if !s.hasSse42 then .sse41
  else if s.hasAvx && s.hasOsxsave && xgetbvCheck c 0x6 then
    if !s.hasAvx2 then .avx else .avx2
  else .sse42

/-- `extraInstructionsSupported()`. Models src/support_x86.cpp:114-129, Vc/global.h:514-535. -/
def extraInstructionsSupported (c : Cpu) (s : CpuId) : Nat :=
  let flags := 0
  let flags := if s.hasF16c then flags ||| 0x01000 else flags
  let flags := if s.hasFma4 then flags ||| 0x02000 else flags
  let flags := if s.hasXop then flags ||| 0x04000 else flags
  let flags := if s.hasPopcnt then flags ||| 0x08000 else flags
  let flags := if s.hasSse4a then flags ||| 0x10000 else flags
  let flags := if s.hasFma then flags ||| 0x20000 else flags
  let flags := if s.hasBmi2 then flags ||| 0x80000 else flags
  let flags := if s.hasOsxsave && s.hasAvx && xgetbvCheck c 0x6 then flags ||| 0x40000 else flags
  flags

/-- `ImplementationT<Features>::runs_on(extra)`. Models Vc/global.h:569-573. -/
def runsOn (features extra : Nat) : Bool :=
  (extra &&& features &&& 0xfffff000) == (features &&& 0xfffff000)

/-- `isImplementationSupported<ImplementationT<Features>>()`; `Features & ImplementationMask` has to
be one of the enumerators. Models Vc/support.h:96-102, Vc/global.h:548-551. -/
def implementationTSupported (c : Cpu) (s : CpuId) (features : Nat) : Bool :=
  (match features &&& 0xfff with
    | 0 => isImplementationSupported c s .scalar
    | 1 => isImplementationSupported c s .sse2
    | 2 => isImplementationSupported c s .sse3
    | 3 => isImplementationSupported c s .ssse3
    | 4 => isImplementationSupported c s .sse41
    | 5 => isImplementationSupported c s .sse42
    | 6 => isImplementationSupported c s .avx
    | 7 => isImplementationSupported c s .avx2
    | 8 => isImplementationSupported c s .mic
    | _ => false) && runsOn features (extraInstructionsSupported c s)

end Vc.Model
