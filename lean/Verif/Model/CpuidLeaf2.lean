import Verif.Model.Cpuid

/-!
# The descriptors of CPUID leaf 2 (`CpuId::init`, `CpuId::interpret`)
-/

namespace Vc.Model.CpuId

/-- The members of `CpuId` together with `s_prefetch`, `s_noL2orL3` (/repo/src/cpuid.cpp:53,59) and the local variable
`checkLeaf4` of `init()`. -/
structure Leaf2State where
  id : CpuId := {}
  prefetch : Nat := 32
  noL2orL3 : Bool := false
  checkLeaf4 : Bool := false

/-- `CpuId::interpret(byte, &checkLeaf4)` (/repo/src/cpuid.cpp:314-644). -/
def interpret (byte : Nat) (s : Leaf2State) : Leaf2State :=
  match byte with
  | 0x06 => { s with id := { s.id with l1Instruction := 8 * 1024, l1InstructionLineSize := 32, l1Associativity := 4 } }
  | 0x08 => { s with id := { s.id with l1Instruction := 16 * 1024, l1InstructionLineSize := 32, l1Associativity := 4 } }
  | 0x09 => { s with id := { s.id with l1Instruction := 32 * 1024, l1InstructionLineSize := 64, l1Associativity := 4 } }
  | 0x0A => { s with id := { s.id with l1Data := 8 * 1024, l1DataLineSize := 32, l1Associativity := 2 } }
  | 0x0C => { s with id := { s.id with l1Data := 16 * 1024, l1DataLineSize := 32, l1Associativity := 4 } }
  | 0x0D => { s with id := { s.id with l1Data := 16 * 1024, l1DataLineSize := 64, l1Associativity := 4 } }
  | 0x0E => { s with id := { s.id with l1Data := 24 * 1024, l1DataLineSize := 64, l1Associativity := 6 } }
  | 0x21 => { s with id := { s.id with l2Data := 256 * 1024, l2DataLineSize := 64, l2Associativity := 8 } }
  | 0x22 => { s with id := { s.id with l3Data := 512 * 1024, l3DataLineSize := 64, l3Associativity := 4 } }
  | 0x23 => { s with id := { s.id with l3Data := 1024 * 1024, l3DataLineSize := 64, l3Associativity := 8 } }
  | 0x25 => { s with id := { s.id with l3Data := 2 * 1024 * 1024, l3DataLineSize := 64, l3Associativity := 8 } }
  | 0x29 => { s with id := { s.id with l3Data := 4 * 1024 * 1024, l3DataLineSize := 64, l3Associativity := 8 } }
  | 0x2C => { s with id := { s.id with l1Data := 32 * 1024, l1DataLineSize := 64, l1Associativity := 8 } }
  | 0x30 => { s with id := { s.id with l1Data := 32 * 1024, l1DataLineSize := 64, l1Associativity := 8 } }
  | 0x40 => { s with noL2orL3 := true }
  | 0x41 => { s with id := { s.id with l2Data := 128 * 1024, l2DataLineSize := 32, l2Associativity := 4 } }
  | 0x42 => { s with id := { s.id with l2Data := 256 * 1024, l2DataLineSize := 32, l2Associativity := 4 } }
  | 0x43 => { s with id := { s.id with l2Data := 512 * 1024, l2DataLineSize := 32, l2Associativity := 4 } }
  | 0x44 => { s with id := { s.id with l2Data := 1024 * 1024, l2DataLineSize := 32, l2Associativity := 4 } }
  | 0x45 => { s with id := { s.id with l2Data := 2 * 1024 * 1024, l2DataLineSize := 32, l2Associativity := 4 } }
  | 0x46 => { s with id := { s.id with l3Data := 4 * 1024 * 1024, l3DataLineSize := 64, l3Associativity := 4 } }
  | 0x47 => { s with id := { s.id with l3Data := 8 * 1024 * 1024, l3DataLineSize := 64, l3Associativity := 8 } }
  | 0x48 => { s with id := { s.id with l2Data := 3 * 1024 * 1024, l2DataLineSize := 64, l2Associativity := 12 } }
  | 0x49 => if s.id.family = 0xf ∧ s.id.model = 0x6 then { s with id := { s.id with l3Data := 4 * 1024 * 1024, l3DataLineSize := 64, l3Associativity := 16 } }
    else { s with id := { s.id with l2Data := 4 * 1024 * 1024, l2DataLineSize := 64, l2Associativity := 16 } }
  | 0x4A => { s with id := { s.id with l3Data := 6 * 1024 * 1024, l3DataLineSize := 64, l3Associativity := 12 } }
  | 0x4B => { s with id := { s.id with l3Data := 8 * 1024 * 1024, l3DataLineSize := 64, l3Associativity := 16 } }
  | 0x4C => { s with id := { s.id with l3Data := 12 * 1024 * 1024, l3DataLineSize := 64, l3Associativity := 12 } }
  | 0x4D => { s with id := { s.id with l3Data := 16 * 1024 * 1024, l3DataLineSize := 64, l3Associativity := 16 } }
  | 0x4E => { s with id := { s.id with l2Data := 6 * 1024 * 1024, l2DataLineSize := 64, l2Associativity := 24 } }
  | 0x60 => { s with id := { s.id with l1Data := 16 * 1024, l1DataLineSize := 64, l1Associativity := 8 } }
  | 0x66 => { s with id := { s.id with l1Data := 8 * 1024, l1DataLineSize := 64, l1Associativity := 4 } }
  | 0x67 => { s with id := { s.id with l1Data := 16 * 1024, l1DataLineSize := 64, l1Associativity := 4 } }
  | 0x68 => { s with id := { s.id with l1Data := 32 * 1024, l1DataLineSize := 64, l1Associativity := 4 } }
  | 0x78 => { s with id := { s.id with l2Data := 1024 * 1024, l2DataLineSize := 64, l2Associativity := 4 } }
  | 0x79 => { s with id := { s.id with l2Data := 128 * 1024, l2DataLineSize := 64, l2Associativity := 8 } }
  | 0x7A => { s with id := { s.id with l2Data := 256 * 1024, l2DataLineSize := 64, l2Associativity := 8 } }
  | 0x7B => { s with id := { s.id with l2Data := 512 * 1024, l2DataLineSize := 64, l2Associativity := 8 } }
  | 0x7C => { s with id := { s.id with l2Data := 1024 * 1024, l2DataLineSize := 64, l2Associativity := 8 } }
  | 0x7D => { s with id := { s.id with l2Data := 2 * 1024 * 1024, l2DataLineSize := 64, l2Associativity := 8 } }
  | 0x7F => { s with id := { s.id with l2Data := 512 * 1024, l2DataLineSize := 64, l2Associativity := 2 } }
  | 0x80 => { s with id := { s.id with l2Data := 512 * 1024, l2DataLineSize := 64, l2Associativity := 8 } }
  | 0x82 => { s with id := { s.id with l2Data := 256 * 1024, l2DataLineSize := 32, l2Associativity := 8 } }
  | 0x83 => { s with id := { s.id with l2Data := 512 * 1024, l2DataLineSize := 32, l2Associativity := 8 } }
  | 0x84 => { s with id := { s.id with l2Data := 1024 * 1024, l2DataLineSize := 32, l2Associativity := 8 } }
  | 0x85 => { s with id := { s.id with l2Data := 2 * 1024 * 1024, l2DataLineSize := 32, l2Associativity := 8 } }
  | 0x86 => { s with id := { s.id with l2Data := 512 * 1024, l2DataLineSize := 64, l2Associativity := 4 } }
  | 0x87 => { s with id := { s.id with l2Data := 1024 * 1024, l2DataLineSize := 64, l2Associativity := 8 } }
  | 0xD0 => { s with id := { s.id with l3Data := 512 * 1024, l3DataLineSize := 64, l3Associativity := 4 } }
  | 0xD1 => { s with id := { s.id with l3Data := 1024 * 1024, l3DataLineSize := 64, l3Associativity := 4 } }
  | 0xD2 => { s with id := { s.id with l3Data := 2 * 1024 * 1024, l3DataLineSize := 64, l3Associativity := 4 } }
  | 0xD6 => { s with id := { s.id with l3Data := 1024 * 1024, l3DataLineSize := 64, l3Associativity := 8 } }
  | 0xD7 => { s with id := { s.id with l3Data := 2 * 1024 * 1024, l3DataLineSize := 64, l3Associativity := 8 } }
  | 0xD8 => { s with id := { s.id with l3Data := 4 * 1024 * 1024, l3DataLineSize := 64, l3Associativity := 8 } }
  | 0xDC => { s with id := { s.id with l3Data := 3 * 512 * 1024, l3DataLineSize := 64, l3Associativity := 12 } }
  | 0xDD => { s with id := { s.id with l3Data := 3 * 1024 * 1024, l3DataLineSize := 64, l3Associativity := 12 } }
  | 0xDE => { s with id := { s.id with l3Data := 6 * 1024 * 1024, l3DataLineSize := 64, l3Associativity := 12 } }
  | 0xE2 => { s with id := { s.id with l3Data := 2 * 1024 * 1024, l3DataLineSize := 64, l3Associativity := 16 } }
  | 0xE3 => { s with id := { s.id with l3Data := 4 * 1024 * 1024, l3DataLineSize := 64, l3Associativity := 16 } }
  | 0xE4 => { s with id := { s.id with l3Data := 8 * 1024 * 1024, l3DataLineSize := 64, l3Associativity := 16 } }
  | 0xEA => { s with id := { s.id with l3Data := 12 * 1024 * 1024, l3DataLineSize := 64, l3Associativity := 24 } }
  | 0xEB => { s with id := { s.id with l3Data := 18 * 1024 * 1024, l3DataLineSize := 64, l3Associativity := 24 } }
  | 0xEC => { s with id := { s.id with l3Data := 24 * 1024 * 1024, l3DataLineSize := 64, l3Associativity := 24 } }
  | 0xF0 => { s with prefetch := 64 }
  | 0xF1 => { s with prefetch := 128 }
  | 0xFF => { s with checkLeaf4 := true }
  | _ => s

/-- One of the loops `for (int i = 0; i < n; ++i) { interpret(x & 0xff, &checkLeaf4); x >>= 8; }`
(/repo/src/cpuid.cpp:223-241). -/
def interpretBytes : Nat → Nat → Leaf2State → Leaf2State
  | 0, _, s => s
  | n + 1, x, s => interpretBytes n (x >>> 8) (interpret (x &&& 0xff) s)

/-- The loop for `eax`: `for (int i = 0; i < 3; ++i) { eax >>= 8; interpret(eax & 0xff, &checkLeaf4); }`
(/repo/src/cpuid.cpp:218-221). -/
def interpretEax : Nat → Nat → Leaf2State → Leaf2State
  | 0, _, s => s
  | n + 1, x, s => interpretEax n (x >>> 8) (interpret ((x >>> 8) &&& 0xff) s)

/-- The body of the loop after `repeat` is set (/repo/src/cpuid.cpp:217-241). -/
def leaf2Round (r : Regs) (s : Leaf2State) : Leaf2State :=
  let s := if 0x80000000 &&& r.eax = 0 then interpretEax 3 r.eax s else s
  let s := if 0x80000000 &&& r.ebx = 0 then interpretBytes 4 r.ebx s else s
  let s := if 0x80000000 &&& r.ecx = 0 then interpretBytes 4 r.ecx s else s
  if 0x80000000 &&& r.edx = 0 then interpretBytes 4 r.edx s else s

/-- `do { Vc_CPUID(2); ... } while (--repeat > 0)` (/repo/src/cpuid.cpp:206-242): what the `k`-th execution of CPUID
returns is `c2 k`; at most `fuel` rounds, `none` if the loop has not ended then. -/
def leaf2Loop (c2 : Nat → Regs) : Nat → Nat → Int → Leaf2State → Option Leaf2State
  | 0, _, _, _ => none
  | fuel + 1, k, rep, s =>
    let r := c2 k
    if rep = 0 ∧ (r.eax = 0 ∧ r.ebx = 0 ∧ r.ecx = 0 ∧ r.edx = 0) then some { s with checkLeaf4 := true }
    else
      let rep := if rep = 0 then ((r.eax &&& 0xff : Nat) : Int) else rep
      let s := leaf2Round r s
      if rep - 1 > 0 then leaf2Loop c2 fuel (k + 1) (rep - 1) s else some s

/-- The part of `init()` for processors that are not from AMD (/repo/src/cpuid.cpp:205-310): leaf 2, and leaf 4 if
`checkLeaf4` is set, which also sets the prefetch size; `fuel` is for the loop over leaf 4. -/
def initIntel (c : Cpu) (c2 : Nat → Regs) (fuel : Nat) (s : CpuId) : Option Leaf2State := do
  let t ← leaf2Loop c2 256 0 0 { id := s }
  if t.checkLeaf4 then
    let p := cacheLineSize t.id
    let id ← leaf4Loop c fuel 0 1 t.id
    return { t with id := id, prefetch := if p = 0 then 64 else p }
  else return t

end Vc.Model.CpuId
