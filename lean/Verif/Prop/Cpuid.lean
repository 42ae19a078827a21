import Verif.Model.Cpuid
import Verif.Spec.Cpuid

/-!
# C42, C43, C44, C50, C51: CPU detection
-/

namespace Vc.Prop
open Vc.Model Vc.Spec

/-! ## Bit fields -/

theorem mask_bit (x i : Nat) : (x &&& (1 <<< i) != 0) = x.testBit i := by
  rw [Nat.one_shiftLeft]
  cases h : x.testBit i with
  | false =>
    have : x &&& 2 ^ i = 0 := by
      apply Nat.eq_of_testBit_eq
      intro j
      rw [Nat.testBit_and, Nat.testBit_two_pow, Nat.zero_testBit]
      by_cases e : i = j
      · subst e; simp [h]
      · simp [e]
    simp [this]
  | true =>
    have : (x &&& 2 ^ i).testBit i = true := by
      rw [Nat.testBit_and, Nat.testBit_two_pow, h]; simp
    have hne : x &&& 2 ^ i ≠ 0 := fun e => by rw [e] at this; simp at this
    simp [hne]

theorem bits_eq (x lo len : Nat) : bits x lo len = (x >>> lo) &&& (2 ^ len - 1) := by
  rw [bits, Nat.shiftRight_eq_div_pow, Nat.and_two_pow_sub_one_eq_mod]

theorem and_shift (x lo len : Nat) :
    (x &&& ((2 ^ len - 1) <<< lo)) >>> lo = bits x lo len := by
  rw [bits_eq]
  apply Nat.eq_of_testBit_eq
  intro i
  simp [Nat.testBit_shiftRight, Nat.testBit_and, Nat.testBit_shiftLeft, Bool.and_comm]

theorem bits_lt (x lo len : Nat) : bits x lo len < 2 ^ len := Nat.mod_lt _ (Nat.two_pow_pos _)

/-! ## C42 -/

/-- The implementation reported as the best one is supported. -/
theorem C42_best_supported (c : Cpu) (s : CpuId) :
    isImplementationSupported c s (bestImplementationSupported c s) = true := by
  unfold bestImplementationSupported
  cases h0 : s.family == 0xB && s.model == 0x1 && s.isIntel <;>
  cases h2 : s.hasSse2 <;> cases h3 : s.hasSse3 <;> cases h4 : s.hasSsse3 <;>
  cases h5 : s.hasSse41 <;> cases h6 : s.hasSse42 <;> cases h7 : s.hasAvx <;>
  cases h8 : s.hasOsxsave <;> cases h9 : xgetbvCheck c 0x6 <;> cases h10 : s.hasAvx2 <;>
  simp [isImplementationSupported, *]

/-- An implementation that is supported together with all lower ones is not above the best one. -/
theorem C42_best_maximal (c : Cpu) (s : CpuId) (x : Implementation) (hx : x ≠ .mic)
    (h : ∀ y : Implementation, y.num ≤ x.num → isImplementationSupported c s y = true) :
    x.num ≤ (bestImplementationSupported c s).num := by
  have g : ∀ y : Implementation, y.num ≤ x.num → isImplementationSupported c s y = true := h
  have e2 : 1 ≤ x.num → s.hasSse2 = true := g .sse2
  have e3 : 2 ≤ x.num → s.hasSse3 = true := g .sse3
  have e4 : 3 ≤ x.num → s.hasSsse3 = true := g .ssse3
  have e5 : 4 ≤ x.num → s.hasSse41 = true := g .sse41
  have e6 : 5 ≤ x.num → s.hasSse42 = true := g .sse42
  have e7 : 6 ≤ x.num → (s.hasOsxsave && s.hasAvx && xgetbvCheck c 0x6) = true := g .avx
  have e8 : 7 ≤ x.num → (s.hasOsxsave && s.hasAvx2 && xgetbvCheck c 0x6) = true := g .avx2
  have hn : x.num ≤ 7 := by cases x <;> first | decide | exact absurd rfl hx
  clear g h hx
  generalize x.num = nx at *
  unfold bestImplementationSupported
  cases h0 : s.family == 0xB && s.model == 0x1 && s.isIntel
  · rw [if_neg (by decide)]
    cases h2 : s.hasSse2
    · have : ¬ (2 - 1 ≤ nx) := fun q => by simpa [h2] using e2 q
      simp [Implementation.num]; omega
    cases h3 : s.hasSse3
    · have : ¬ (3 - 1 ≤ nx) := fun q => by simpa [h3] using e3 q
      simp [Implementation.num]; omega
    cases h4 : s.hasSsse3
    · have : ¬ (4 - 1 ≤ nx) := fun q => by simpa [h4] using e4 q
      simp [Implementation.num]; omega
    cases h5 : s.hasSse41
    · have : ¬ (5 - 1 ≤ nx) := fun q => by simpa [h5] using e5 q
      simp [Implementation.num]; omega
    cases h6 : s.hasSse42
    · have : ¬ (6 - 1 ≤ nx) := fun q => by simpa [h6] using e6 q
      simp [Implementation.num]; omega
    cases h7 : s.hasAvx
    · have : ¬ (7 - 1 ≤ nx) := fun q => by simpa [h7] using e7 q
      simp [Implementation.num]; omega
    cases h8 : s.hasOsxsave
    · have : ¬ (7 - 1 ≤ nx) := fun q => by simpa [h8] using e7 q
      simp [Implementation.num]; omega
    cases h9 : xgetbvCheck c 0x6
    · have : ¬ (7 - 1 ≤ nx) := fun q => by simpa [h9] using e7 q
      simp [Implementation.num]; omega
    cases h10 : s.hasAvx2
    · have : ¬ (8 - 1 ≤ nx) := fun q => by simpa [h10] using e8 q
      simp [Implementation.num]; omega
    · simpa [Implementation.num] using hn
  · simpa [Implementation.num] using Nat.le_succ_of_le hn

/-- A supported implementation above the best one comes with an unsupported lower one. -/
theorem C42_above_best (c : Cpu) (s : CpuId) (x : Implementation) (hx : x ≠ .mic)
    (hs : isImplementationSupported c s x = true)
    (hb : (bestImplementationSupported c s).num < x.num) :
    ∃ y : Implementation, y.num < x.num ∧ isImplementationSupported c s y = false := by
  apply Classical.byContradiction
  intro hn
  have := C42_best_maximal c s x hx (fun y hy => by
    rcases Nat.lt_or_eq_of_le hy with h | h
    · cases e : isImplementationSupported c s y with
      | true => rfl
      | false => exact absurd ⟨y, h, e⟩ hn
    · have : y = x := by cases x <;> cases y <;> first | rfl | (simp [Implementation.num] at h)
      rw [this]; exact hs)
  omega

/-- What is tested, in terms of the CPUID and XCR0 bits. -/
theorem C42_feature_bits (c : Cpu) :
    let s := CpuId.initCommon c
    let xmm := c.xcr0.testBit 1 = true ∧ c.xcr0.testBit 2 = true
    (isImplementationSupported c s .sse2 = (c.cpuid 1 0).edx.testBit 26) ∧
    (isImplementationSupported c s .sse3 = (c.cpuid 1 0).ecx.testBit 0) ∧
    (isImplementationSupported c s .ssse3 = (c.cpuid 1 0).ecx.testBit 9) ∧
    (isImplementationSupported c s .sse41 = (c.cpuid 1 0).ecx.testBit 19) ∧
    (isImplementationSupported c s .sse42 = (c.cpuid 1 0).ecx.testBit 20) ∧
    (isImplementationSupported c s .avx = true ↔
      (c.cpuid 1 0).ecx.testBit 27 = true ∧ (c.cpuid 1 0).ecx.testBit 28 = true ∧ xmm) ∧
    (isImplementationSupported c s .avx2 = true ↔
      (c.cpuid 1 0).ecx.testBit 27 = true ∧ (c.cpuid 7 0).ebx.testBit 5 = true ∧ xmm) := by
  have hx : xgetbvCheck c 0x6 = true ↔ c.xcr0.testBit 1 = true ∧ c.xcr0.testBit 2 = true := by
    rw [xgetbvCheck, beq_iff_eq]
    constructor
    · intro h
      have h1 : (c.xcr0 &&& 6).testBit 1 = true := by rw [h]; rfl
      have h2 : (c.xcr0 &&& 6).testBit 2 = true := by rw [h]; rfl
      rw [Nat.testBit_and] at h1 h2
      simp at h1 h2
      exact ⟨h1.1, h2.1⟩
    · rintro ⟨h1, h2⟩
      apply Nat.eq_of_testBit_eq
      intro i
      rw [Nat.testBit_and]
      match i with
      | 0 => simp
      | 1 => simp [h1]
      | 2 => simp [h2]
      | i + 3 =>
        have : (6 : Nat).testBit (i + 3) = false := by
          rw [Nat.testBit_succ, Nat.testBit_succ, Nat.testBit_succ]; simp
        rw [this, Bool.and_false]
  refine ⟨mask_bit _ _, mask_bit _ _, mask_bit _ _, mask_bit _ _, mask_bit _ _, ?_, ?_⟩
  · simp only [isImplementationSupported, CpuId.hasOsxsave, CpuId.hasAvx, mask_bit, Bool.and_eq_true,
      hx, and_assoc]
    rfl
  · simp only [isImplementationSupported, CpuId.hasOsxsave, CpuId.hasAvx2, mask_bit,
      Bool.and_eq_true, hx, and_assoc]
    rfl

/-- A CPU with everything up to SSE4.2 and AVX. -/
def exCpu : Cpu where
  cpuid leaf _ := if leaf = 0 then ⟨0, 0, 0x6C65746E, 0⟩
    else if leaf = 1 then ⟨0x206A7, 0x100800, 0x1fbae3ff, 0xbfebfbff⟩ else ⟨0, 0, 0, 0⟩
  xcr0 := 7

example : bestImplementationSupported exCpu (CpuId.initCommon exCpu) = .avx := by decide
example : isImplementationSupported exCpu (CpuId.initCommon exCpu) .avx2 = false := by decide
example : ∀ y : Implementation, y.num ≤ Implementation.avx.num →
    isImplementationSupported exCpu (CpuId.initCommon exCpu) y = true := by
  intro y hy; cases y <;> first | decide | simp [Implementation.num] at hy

/-! ## C43 -/

theorem uchar_bits (x lo len : Nat) (h : len ≤ 8) : CpuId.uchar (bits x lo len) = bits x lo len := by
  have := bits_lt x lo len
  have : 2 ^ len ≤ 2 ^ 8 := Nat.pow_le_pow_right (by decide) h
  unfold CpuId.uchar
  exact Nat.mod_eq_of_lt (by omega)

theorem familyModel_fields (amd : Bool) (eax : Nat) :
    CpuId.familyModel amd eax =
      (let model := bits eax 4 4
       let family := bits eax 8 4
       let familyExt := CpuId.uchar (16 * bits eax 20 8)
       let modelExt := 16 * bits eax 16 4
       if amd then
         if family ≥ 0xf then (CpuId.uchar (family + familyExt), CpuId.uchar (model + modelExt))
         else (family, model)
       else if family = 0xf then (CpuId.uchar (family + familyExt), CpuId.uchar (model + modelExt))
       else if family = 0x6 then (family, CpuId.uchar (model + modelExt))
       else if family = 0xB then (CpuId.uchar (family + familyExt), CpuId.uchar (model + modelExt))
       else (family, model)) := by
  have h1 : CpuId.uchar ((eax &&& 0x000000f0) >>> 4) = bits eax 4 4 := by
    rw [← uchar_bits eax 4 4 (by decide), ← and_shift]; rfl
  have h2 : CpuId.uchar ((eax &&& 0x00000f00) >>> 8) = bits eax 8 4 := by
    rw [← uchar_bits eax 8 4 (by decide), ← and_shift]; rfl
  have h3 : (eax &&& 0x0ff00000) >>> 16 = 16 * bits eax 20 8 := by
    have e : eax &&& 0x0ff00000 = bits eax 20 8 <<< 20 := by
      rw [bits_eq]
      apply Nat.eq_of_testBit_eq
      intro i
      rw [show (0x0ff00000 : Nat) = (2 ^ 8 - 1) <<< 20 by decide]
      simp only [Nat.testBit_and, Nat.testBit_shiftLeft, Nat.testBit_shiftRight]
      by_cases h : 20 ≤ i
      · simp [h]
      · simp [h]
    rw [e, Nat.shiftLeft_eq, Nat.shiftRight_eq_div_pow]
    omega
  have h4 : CpuId.uchar ((eax &&& 0x000f0000) >>> 12) = 16 * bits eax 16 4 := by
    have e : eax &&& 0x000f0000 = bits eax 16 4 <<< 16 := by
      rw [bits_eq]
      apply Nat.eq_of_testBit_eq
      intro i
      rw [show (0x000f0000 : Nat) = (2 ^ 4 - 1) <<< 16 by decide]
      simp only [Nat.testBit_and, Nat.testBit_shiftLeft, Nat.testBit_shiftRight]
      by_cases h : 16 ≤ i
      · simp [h]
      · simp [h]
    have := bits_lt eax 16 4
    rw [e, Nat.shiftLeft_eq, Nat.shiftRight_eq_div_pow, CpuId.uchar]
    omega
  unfold CpuId.familyModel
  rw [h1, h2, h3, h4]

/-- The model is decoded as CPUID defines, except for base family 11 with a non-zero extended
model. -/
theorem C43_model_partial (amd : Bool) (eax : Nat)
    (h : amd = true ∨ bits eax 8 4 ≠ 0xB ∨ bits eax 16 4 = 0) :
    (CpuId.familyModel amd eax).2 = cpuModel amd eax := by
  have l1 := bits_lt eax 4 4
  have l2 := bits_lt eax 16 4
  have l3 := bits_lt eax 8 4
  have hu : CpuId.uchar (bits eax 4 4 + 16 * bits eax 16 4) = bits eax 4 4 + 16 * bits eax 16 4 :=
    Nat.mod_eq_of_lt (by omega)
  rw [familyModel_fields]
  simp only [hu]
  unfold cpuModel
  cases amd with
  | true =>
    by_cases hf : bits eax 8 4 = 15
    · simp [hf]
    · rw [if_pos rfl, if_neg (by omega), if_neg (by simp [hf])]
  | false =>
    rw [if_neg (by decide)]
    by_cases hf : bits eax 8 4 = 15
    · simp [hf]
    · by_cases h6 : bits eax 8 4 = 6
      · simp [h6]
      · rw [if_neg hf, if_neg h6]
        by_cases hB : bits eax 8 4 = 11
        · have h0 : bits eax 16 4 = 0 := by
            rcases h with h | h | h
            · cases h
            · exact absurd hB h
            · exact h
          simp [hB, h0]
        · simp [hf, h6, hB]

/-- The family is decoded as CPUID defines if the extended family is zero. -/
theorem C43_family_partial (amd : Bool) (eax : Nat) (h : bits eax 20 8 = 0) :
    (CpuId.familyModel amd eax).1 = cpuFamily eax := by
  have l3 := bits_lt eax 8 4
  have hu : CpuId.uchar (bits eax 8 4) = bits eax 8 4 := uchar_bits _ _ _ (by decide)
  rw [familyModel_fields]
  unfold cpuFamily
  simp only [h, show CpuId.uchar (16 * 0) = 0 from rfl, Nat.add_zero, hu]
  cases amd <;> simp only [ite_self] <;> repeat' (first | rfl | split)

/-- The same for what `init()` stores; the vendor is AMD iff leaf 0 says so in ECX. -/
theorem C43_init_partial (c : Cpu) (h : bits (c.cpuid 1 0).eax 20 8 = 0)
    (h' : bits (c.cpuid 1 0).eax 8 4 ≠ 0xB ∨ bits (c.cpuid 1 0).eax 16 4 = 0) :
    (CpuId.initCommon c).family = cpuFamily (c.cpuid 1 0).eax ∧
    (CpuId.initCommon c).model = cpuModel (decide ((c.cpuid 0 0).ecx = 0x444D4163)) (c.cpuid 1 0).eax := by
  have hb : decide ((c.cpuid 0 0).ecx = 0x444D4163) = ((c.cpuid 0 0).ecx == 0x444D4163) := by
    rw [Bool.eq_iff_iff]; simp
  rw [hb]
  exact ⟨C43_family_partial _ _ h, C43_model_partial _ _ (Or.inr h')⟩

/-- The signature of an AMD processor of family 0x10, model 2: reported as family 0x1f. -/
theorem C43_family_violated :
    CpuId.familyModel true 0x00100f20 = (0x1f, 2) ∧ cpuFamily 0x00100f20 = 0x10 := by decide

/-- A processor with base family 15 and any extended family from 1 to 15: 15 times too much is
added. -/
theorem C43_family_wrong_violated (amd : Bool) (eax : Nat) (hf : bits eax 8 4 = 15)
    (h1 : 1 ≤ bits eax 20 8) (h2 : bits eax 20 8 ≤ 15) :
    (CpuId.familyModel amd eax).1 = 15 + 16 * bits eax 20 8 ∧
    (CpuId.familyModel amd eax).1 ≠ cpuFamily eax := by
  have : (CpuId.familyModel amd eax).1 = 15 + 16 * bits eax 20 8 := by
    rw [familyModel_fields]
    have e1 : CpuId.uchar (16 * bits eax 20 8) = 16 * bits eax 20 8 := Nat.mod_eq_of_lt (by omega)
    have e2 : CpuId.uchar (15 + 16 * bits eax 20 8) = 15 + 16 * bits eax 20 8 :=
      Nat.mod_eq_of_lt (by omega)
    cases amd <;> simp [hf, e1, e2]
  refine ⟨this, ?_⟩
  rw [this, cpuFamily, if_pos hf]
  omega

/-- Intel base family 11 with extended model 1: the extended model is added although CPUID defines it
for the families 6 and 15 only. -/
theorem C43_model_violated :
    (CpuId.familyModel false 0x00010B10).2 = 0x11 ∧ cpuModel false 0x00010B10 = 1 := by decide

/-- The model of an Intel processor of family 6 (signature 0x206A7): 0x2A. -/
example : CpuId.familyModel false 0x206A7 = (6, 0x2A) ∧ cpuModel false 0x206A7 = 0x2A := by decide
example : bits 0x206A7 20 8 = 0 ∧ bits 0x206A7 8 4 ≠ 0xB := by decide
example : bits 0x00100f20 8 4 = 15 ∧ bits 0x00100f20 20 8 = 1 := by decide

/-! ## C44 -/

/-- The table is the one of the manual; reserved encodings give 0xffffffff. -/
theorem C44_table (b : Nat) (h : b < 16) :
    CpuId.amdAssociativityTable b = (amdWays b).getD 0xffffffff := by
  have : ∀ b, b < 16 → CpuId.amdAssociativityTable b = (amdWays b).getD 0xffffffff := by decide
  exact this b h

/-- L2: size, line size and associativity from ECX of leaf 0x80000006. -/
theorem C44_L2 (c : Cpu) (s : CpuId) (hc : (c.cpuid 0x80000006 0).ecx < 2 ^ 32) :
    let ecx := (c.cpuid 0x80000006 0).ecx
    (CpuId.initAmd c s).l2Associativity = (amdWays (bits ecx 12 4)).getD 0xffffffff ∧
    (CpuId.initAmd c s).l2DataLineSize = bits ecx 0 8 ∧
    (CpuId.initAmd c s).l2Data = bits ecx 16 16 * 1024 := by
  refine ⟨?_, ?_, ?_⟩
  · rw [← C44_table _ (bits_lt _ 12 4), bits_eq]; rfl
  · rw [bits_eq]; rfl
  · show CpuId.umul ((c.cpuid 0x80000006 0).ecx >>> 16) 1024 = _
    rw [Nat.shiftRight_eq_div_pow, bits, CpuId.umul]
    omega

/-- L1 data and instruction cache from ECX and EDX of leaf 0x80000005. -/
theorem C44_L1 (c : Cpu) (s : CpuId) (hc : (c.cpuid 0x80000005 0).ecx < 2 ^ 32)
    (hd : (c.cpuid 0x80000005 0).edx < 2 ^ 32) :
    let ecx := (c.cpuid 0x80000005 0).ecx
    let edx := (c.cpuid 0x80000005 0).edx
    (CpuId.initAmd c s).l1Associativity = bits ecx 16 8 ∧
    (CpuId.initAmd c s).l1DataLineSize = bits ecx 0 8 ∧
    (CpuId.initAmd c s).l1Data = bits ecx 24 8 * 1024 ∧
    (CpuId.initAmd c s).l1InstructionLineSize = bits edx 0 8 ∧
    (CpuId.initAmd c s).l1Instruction = bits edx 24 8 * 1024 := by
  refine ⟨by rw [bits_eq]; rfl, by rw [bits_eq]; rfl, ?_, by rw [bits_eq]; rfl, ?_⟩
  · show CpuId.umul ((c.cpuid 0x80000005 0).ecx >>> 24) 1024 = _
    rw [Nat.shiftRight_eq_div_pow, bits, CpuId.umul]
    omega
  · show CpuId.umul ((c.cpuid 0x80000005 0).edx >>> 24) 1024 = _
    rw [Nat.shiftRight_eq_div_pow, bits, CpuId.umul]
    omega

/-- L3: line size from EDX; the size as long as it is below 4 GiB. -/
theorem C44_L3_size (c : Cpu) (s : CpuId)
    (hs : bits (c.cpuid 0x80000006 0).edx 18 14 < 8192) :
    (CpuId.initAmd c s).l3DataLineSize = bits (c.cpuid 0x80000006 0).edx 0 8 ∧
    (CpuId.initAmd c s).l3Data = bits (c.cpuid 0x80000006 0).edx 18 14 * (512 * 1024) := by
  refine ⟨by rw [bits_eq]; rfl, ?_⟩
  show CpuId.umul (CpuId.umul ((c.cpuid 0x80000006 0).edx >>> 18) 512) 1024 = _
  rw [Nat.shiftRight_eq_div_pow, CpuId.umul, CpuId.umul]
  unfold bits at *
  omega

/-- The L3 associativity is that of EDX only if ECX encodes the same. -/
theorem C44_L3_partial (c : Cpu) (s : CpuId)
    (h : bits (c.cpuid 0x80000006 0).ecx 12 4 = bits (c.cpuid 0x80000006 0).edx 12 4) :
    (CpuId.initAmd c s).l3Associativity =
      (amdWays (bits (c.cpuid 0x80000006 0).edx 12 4)).getD 0xffffffff := by
  rw [← C44_table _ (bits_lt _ 12 4), ← h, bits_eq]; rfl

/-- It always equals the L2 associativity, whatever EDX says. -/
theorem C44_L3_violated (c : Cpu) (s : CpuId) :
    (CpuId.initAmd c s).l3Associativity =
      (amdWays (bits (c.cpuid 0x80000006 0).ecx 12 4)).getD 0xffffffff := by
  rw [← C44_table _ (bits_lt _ 12 4), bits_eq]; rfl

/-- A processor with 16-way L2 and 32-way L3 (ECX = 0x02008140, EDX = 0x0010A140): 16 is reported
for L3. -/
theorem C44_L3_witness_violated :
    ∃ c : Cpu, (CpuId.initAmd c {}).l3Associativity = 16 ∧
      amdWays (bits (c.cpuid 0x80000006 0).edx 12 4) = some 32 :=
  ⟨⟨fun _ _ => ⟨0, 0, 0x02008140, 0x0010A140⟩, 0⟩, by decide, by decide⟩

example : bits 0x0010A140 18 14 < 8192 := by decide

/-! ## C50 -/

theorem runsOn_iff (f e : Nat) (hf : f < 2 ^ 32) :
    runsOn f e = true ↔ ∀ i, 12 ≤ i → f.testBit i = true → e.testBit i = true := by
  have hm : ∀ i, (0xfffff000 : Nat).testBit i = (decide (12 ≤ i) && decide (i < 32)) := by
    intro i
    rw [show (0xfffff000 : Nat) = (2 ^ 20 - 1) <<< 12 by decide, Nat.testBit_shiftLeft,
      Nat.testBit_two_pow_sub_one]
    by_cases h : 12 ≤ i
    · simp [h]; omega
    · simp [h]
  have hi : ∀ i, f.testBit i = true → i < 32 := fun i h => by
    apply Classical.byContradiction
    intro hn
    have := Nat.ge_two_pow_of_testBit h
    have : 2 ^ 32 ≤ 2 ^ i := Nat.pow_le_pow_right (by decide) (by omega)
    omega
  rw [runsOn, beq_iff_eq]
  constructor
  · intro h i h12 hfi
    have : (e &&& f &&& 0xfffff000).testBit i = true := by
      rw [h, Nat.testBit_and, hm, hfi]; simp [h12, hi i hfi]
    rw [Nat.testBit_and, Nat.testBit_and] at this
    simp at this
    exact this.1.1
  · intro h
    apply Nat.eq_of_testBit_eq
    intro i
    rw [Nat.testBit_and, Nat.testBit_and, Nat.testBit_and, hm]
    by_cases h12 : 12 ≤ i
    · cases hfi : f.testBit i with
      | false => simp
      | true => rw [h i h12 hfi]; rfl
    · simp [h12]

/-- The extra instruction sets and the condition for each: position of the flag and whether the CPU
has it. -/
def extraSets (c : Cpu) (s : CpuId) : List (Nat × Bool) :=
  [(12, s.hasF16c), (13, s.hasFma4), (14, s.hasXop), (15, s.hasPopcnt), (16, s.hasSse4a),
   (17, s.hasFma), (18, isImplementationSupported c s .avx), (19, s.hasBmi2)]

theorem extra_testBit (c : Cpu) (s : CpuId) (i : Nat) :
    (extraInstructionsSupported c s).testBit i = true ↔ (i, true) ∈ extraSets c s := by
  have key : ∀ b1 b2 b3 b4 b5 b6 b7 b8 : Bool, ∀ i, i < 20 →
      ((let flags := 0
        let flags := if b1 then flags ||| 0x01000 else flags
        let flags := if b2 then flags ||| 0x02000 else flags
        let flags := if b3 then flags ||| 0x04000 else flags
        let flags := if b4 then flags ||| 0x08000 else flags
        let flags := if b5 then flags ||| 0x10000 else flags
        let flags := if b6 then flags ||| 0x20000 else flags
        let flags := if b7 then flags ||| 0x80000 else flags
        let flags := if b8 then flags ||| 0x40000 else flags
        flags : Nat) < 2 ^ 20 ∧
       ((let flags := 0
        let flags := if b1 then flags ||| 0x01000 else flags
        let flags := if b2 then flags ||| 0x02000 else flags
        let flags := if b3 then flags ||| 0x04000 else flags
        let flags := if b4 then flags ||| 0x08000 else flags
        let flags := if b5 then flags ||| 0x10000 else flags
        let flags := if b6 then flags ||| 0x20000 else flags
        let flags := if b7 then flags ||| 0x80000 else flags
        let flags := if b8 then flags ||| 0x40000 else flags
        flags : Nat).testBit i = true ↔
      (i, true) ∈ [(12, b1), (13, b2), (14, b3), (15, b4), (16, b5), (17, b6), (18, b8), (19, b7)]))
      := by decide +kernel
  have k := key s.hasF16c s.hasFma4 s.hasXop s.hasPopcnt s.hasSse4a s.hasFma s.hasBmi2
    (s.hasOsxsave && s.hasAvx && xgetbvCheck c 0x6)
  by_cases hi : i < 20
  · exact (k i hi).2
  · have hlt : extraInstructionsSupported c s < 2 ^ 20 := (k 0 (by decide)).1
    rw [Nat.testBit_lt_two_pow (Nat.lt_of_lt_of_le hlt (Nat.pow_le_pow_right (by decide) (by omega)))]
    simp [extraSets]
    omega

/-- Code compiled for implementation `x` with the extra instruction sets of `features` is reported
as supported exactly if `x` is and the CPU has each of these sets. -/
theorem C50_current_supported (c : Cpu) (s : CpuId) (x : Implementation) (features : Nat)
    (hf : features < 2 ^ 32) (hx : features % 2 ^ 12 = x.num) :
    implementationTSupported c s features = true ↔
      isImplementationSupported c s x = true ∧
      ∀ i, 12 ≤ i → features.testBit i = true → (i, true) ∈ extraSets c s := by
  have hm : features &&& 0xfff = x.num := by
    rw [← hx, show (0xfff : Nat) = 2 ^ 12 - 1 by decide, Nat.and_two_pow_sub_one_eq_mod]
  rw [implementationTSupported, hm, Bool.and_eq_true, runsOn_iff _ _ hf]
  simp only [extra_testBit]
  cases x <;> exact Iff.rfl

/-- Whether the CPU and the operating system support the extra set with flag `1 << i` (Vc/global.h),
by the CPUID and XCR0 bits of the manuals: F16C, FMA4, XOP, POPCNT, SSE4a, FMA, VEX, BMI2. -/
def cpuHas (c : Cpu) : Nat → Bool
  | 12 => (c.cpuid 1 0).ecx.testBit 29
  | 13 => (c.cpuid 0x80000001 0).ecx.testBit 16
  | 14 => (c.cpuid 0x80000001 0).ecx.testBit 11
  | 15 => (c.cpuid 1 0).ecx.testBit 23
  | 16 => (c.cpuid 0x80000001 0).ecx.testBit 6
  | 17 => (c.cpuid 1 0).ecx.testBit 12
  | 18 => (c.cpuid 1 0).ecx.testBit 27 && (c.cpuid 1 0).ecx.testBit 28 &&
      c.xcr0.testBit 1 && c.xcr0.testBit 2
  | 19 => (c.cpuid 7 0).ebx.testBit 8
  | _ => false

/-- The same in terms of the register bits. -/
theorem C50_feature_bits (c : Cpu) (x : Implementation) (features : Nat)
    (hf : features < 2 ^ 32) (hx : features % 2 ^ 12 = x.num) :
    implementationTSupported c (CpuId.initCommon c) features = true ↔
      isImplementationSupported c (CpuId.initCommon c) x = true ∧
      ∀ i, 12 ≤ i → features.testBit i = true → cpuHas c i = true := by
  have havx : isImplementationSupported c (CpuId.initCommon c) .avx = cpuHas c 18 := by
    rw [Bool.eq_iff_iff, (C42_feature_bits c).2.2.2.2.2.1]
    simp [cpuHas, and_assoc]
  have key : ∀ i, (i, true) ∈ extraSets c (CpuId.initCommon c) ↔ cpuHas c i = true := by
    intro i
    have e1 : (CpuId.initCommon c).featuresC = (c.cpuid 1 0).ecx := rfl
    have e2 : (CpuId.initCommon c).features8C = (c.cpuid 0x80000001 0).ecx := rfl
    have e3 : (CpuId.initCommon c).features7B = (c.cpuid 7 0).ebx := rfl
    unfold extraSets
    rw [havx]
    simp only [CpuId.hasF16c, CpuId.hasFma4, CpuId.hasXop, CpuId.hasPopcnt, CpuId.hasSse4a,
      CpuId.hasFma, CpuId.hasBmi2, mask_bit, e1, e2, e3, List.mem_cons, Prod.mk.injEq, List.not_mem_nil, or_false]
    by_cases h : i < 12
    · have : cpuHas c i = false := by
        unfold cpuHas
        split <;> first | omega | rfl
      rw [this]; simp; omega
    · by_cases h' : 20 ≤ i
      · have : cpuHas c i = false := by
          unfold cpuHas
          split <;> first | omega | rfl
        rw [this]; simp; omega
      · have : i = 12 ∨ i = 13 ∨ i = 14 ∨ i = 15 ∨ i = 16 ∨ i = 17 ∨ i = 18 ∨ i = 19 := by omega
        rcases this with rfl | rfl | rfl | rfl | rfl | rfl | rfl | rfl <;>
          simp [cpuHas, @eq_comm Bool true]
  rw [C50_current_supported c _ x features hf hx]
  simp only [key]

/-- SSE4.2 with POPCNT on the example CPU. -/
example : implementationTSupported exCpu (CpuId.initCommon exCpu) (5 + 0x8000) = true ∧
    (5 + 0x8000) % 2 ^ 12 = Implementation.sse42.num := by decide
example : implementationTSupported exCpu (CpuId.initCommon exCpu) (5 + 0x10000) = false := by decide

/-! ## C51 -/

/-- The caches of one sub-leaf entered into the members of `CpuId`. -/
def entered (r : Regs) (s : CpuId) : CpuId :=
  let i := leaf4 r.eax r.ebx r.ecx
  if i.kind = 1 ∨ i.kind = 3 then
    if i.level = 1 then { s with l1Data := i.size, l1DataLineSize := i.line, l1Associativity := i.ways }
    else if i.level = 2 then
      { s with l2Data := i.size, l2DataLineSize := i.line, l2Associativity := i.ways }
    else if i.level = 3 then
      { s with l3Data := i.size, l3DataLineSize := i.line, l3Associativity := i.ways }
    else s
  else if i.kind = 2 ∧ i.level = 1 then
    { s with l1Instruction := i.size, l1InstructionLineSize := i.line }
  else s

theorem leaf4Step_eq (r : Regs) (s : CpuId)
    (hs : (leaf4 r.eax r.ebx r.ecx).size < 2 ^ 31) : CpuId.leaf4Step r s = some (entered r s) := by
  have e1 : (r.eax >>> 5) &&& 7 = bits r.eax 5 3 := (bits_eq _ 5 3).symm
  have e2 : r.eax &&& 0x1f = bits r.eax 0 5 := by
    have := bits_eq r.eax 0 5
    rw [Nat.shiftRight_zero] at this
    exact this.symm
  have e3 : r.ebx &&& 0xfff = bits r.ebx 0 12 := by
    have := bits_eq r.ebx 0 12
    rw [Nat.shiftRight_zero] at this
    exact this.symm
  have e4 : (r.ebx >>> 12) &&& 0x3ff = bits r.ebx 12 10 := (bits_eq _ 12 10).symm
  have e5 : (r.ebx >>> 12 >>> 10) &&& 0x3ff = bits r.ebx 22 10 := by
    rw [← Nat.shiftRight_add]; exact (bits_eq _ 22 10).symm
  have hsz : (1 + bits r.ebx 22 10) * (1 + bits r.ebx 12 10) * (1 + bits r.ebx 0 12) * (1 + r.ecx) =
      (leaf4 r.eax r.ebx r.ecx).size := by
    simp only [leaf4, Nat.add_comm 1]
  have l2 := bits_lt r.eax 0 5
  have l1 := bits_lt r.eax 5 3
  unfold CpuId.leaf4Step
  simp only [e1, e2, e3, e4, e5, hsz]
  rw [if_neg (by omega)]
  have hk : (leaf4 r.eax r.ebx r.ecx).kind = bits r.eax 0 5 := rfl
  have hl : (leaf4 r.eax r.ebx r.ecx).level = bits r.eax 5 3 := rfl
  have hw : (leaf4 r.eax r.ebx r.ecx).ways = 1 + bits r.ebx 22 10 := Nat.add_comm _ _
  have hn : (leaf4 r.eax r.ebx r.ecx).line = 1 + bits r.ebx 0 12 := Nat.add_comm _ _
  unfold entered
  simp only [hk, hl, hw, hn]
  generalize (leaf4 r.eax r.ebx r.ecx).size = size
  generalize bits r.eax 0 5 = k
  generalize bits r.eax 5 3 = l
  match k with
  | 0 => rfl
  | 1 =>
    match l with
    | 0 => rfl
    | 1 => rfl
    | 2 => rfl
    | 3 => rfl
    | l + 4 => simp
  | 2 =>
    match l with
    | 0 => rfl
    | 1 => rfl
    | l + 2 => simp
  | 3 =>
    match l with
    | 0 => rfl
    | 1 => rfl
    | 2 => rfl
    | 3 => rfl
    | l + 4 => simp
  | k + 4 => simp

theorem leaf4Loop_eq (c : Cpu)
    (hs : ∀ i, (leaf4 (c.cpuid 4 i).eax (c.cpuid 4 i).ebx (c.cpuid 4 i).ecx).size < 2 ^ 31) :
    ∀ (m i fuel eax : Nat) (s : CpuId), bits eax 0 5 ≠ 0 →
    (∀ j, j < m → bits (c.cpuid 4 (i + j)).eax 0 5 ≠ 0) → bits (c.cpuid 4 (i + m)).eax 0 5 = 0 →
    m + 1 ≤ fuel →
    CpuId.leaf4Loop c fuel i eax s =
      some ((List.range m).foldl (fun s j => entered (c.cpuid 4 (i + j)) s) s) := by
  have e2 : ∀ x : Nat, x &&& 0x1f = bits x 0 5 := fun x => by
    have := bits_eq x 0 5
    rw [Nat.shiftRight_zero] at this
    exact this.symm
  intro m
  induction m with
  | zero =>
    intro i fuel eax s he _ h0 hf
    match fuel with
    | fuel + 1 =>
      rw [CpuId.leaf4Loop, e2, if_neg he]
      simp only [leaf4Step_eq _ s (hs i), Option.bind_eq_bind, Option.bind_some]
      rw [Nat.add_zero] at h0
      have hent : entered (c.cpuid 4 i) s = s := by
        have hk : (leaf4 (c.cpuid 4 i).eax (c.cpuid 4 i).ebx (c.cpuid 4 i).ecx).kind = 0 := h0
        unfold entered
        simp only [hk]
        rw [if_neg (by decide), if_neg (by simp)]
      rw [hent]
      cases fuel with
      | zero => rw [CpuId.leaf4Loop, e2, if_pos h0]; rfl
      | succ fuel => rw [CpuId.leaf4Loop, e2, if_pos h0]; rfl
  | succ m ih =>
    intro i fuel eax s he hj h0 hf
    match fuel with
    | fuel + 1 =>
      rw [CpuId.leaf4Loop, e2, if_neg he]
      simp only [leaf4Step_eq _ s (hs i), Option.bind_eq_bind, Option.bind_some]
      rw [ih (i + 1) fuel _ _ (show bits (c.cpuid 4 i).eax 0 5 ≠ 0 from hj 0 (by omega)) (fun j hjm => by
          have := hj (j + 1) (by omega)
          rwa [show i + (j + 1) = i + 1 + j by omega] at this)
        (by rwa [show i + (m + 1) = i + 1 + m by omega] at h0) (by omega)]
      rw [List.range_succ_eq_map, List.foldl_cons, List.foldl_map]
      simp only [Nat.add_zero, Nat.succ_eq_add_one, Nat.add_assoc, Nat.add_comm 1]

/-- The loop over leaf 4 enters the caches of all sub-leaves before the first one of type 0, in
order, and ends; provided that all sizes fit `int`. -/
theorem C51_leaf4 (c : Cpu)
    (hs : ∀ i, (leaf4 (c.cpuid 4 i).eax (c.cpuid 4 i).ebx (c.cpuid 4 i).ecx).size < 2 ^ 31)
    (m : Nat) (hm : ∀ j, j < m → bits (c.cpuid 4 j).eax 0 5 ≠ 0) (h0 : bits (c.cpuid 4 m).eax 0 5 = 0)
    (s : CpuId) :
    CpuId.leaf4Loop c (m + 1) 0 1 s =
      some ((List.range m).foldl (fun s j => entered (c.cpuid 4 j) s) s) := by
  have := leaf4Loop_eq c hs m 0 (m + 1) 1 s (by decide) (by simpa using hm) (by simpa using h0)
    (Nat.le_refl _)
  simpa using this

/-- What this means for a level: the reported L2 values are those of the last data or unified cache
of level 2, if there is one. -/
theorem C51_L2 (c : Cpu)
    (hs : ∀ i, (leaf4 (c.cpuid 4 i).eax (c.cpuid 4 i).ebx (c.cpuid 4 i).ecx).size < 2 ^ 31)
    (m : Nat) (hm : ∀ j, j < m → bits (c.cpuid 4 j).eax 0 5 ≠ 0) (h0 : bits (c.cpuid 4 m).eax 0 5 = 0)
    (s : CpuId) (k : Nat) (hk : k < m)
    (info : CacheInfo) (hi : leaf4 (c.cpuid 4 k).eax (c.cpuid 4 k).ebx (c.cpuid 4 k).ecx = info)
    (hkind : info.kind = 1 ∨ info.kind = 3) (hlevel : info.level = 2)
    (hlast : ∀ j, k < j → j < m → bits (c.cpuid 4 j).eax 5 3 ≠ 2) :
    ∃ s', CpuId.leaf4Loop c (m + 1) 0 1 s = some s' ∧ s'.l2Data = info.size ∧
      s'.l2DataLineSize = info.line ∧ s'.l2Associativity = info.ways := by
  refine ⟨_, C51_leaf4 c hs m hm h0 s, ?_⟩
  have keep : ∀ (l : List Nat) (s : CpuId), (∀ j, j ∈ l → bits (c.cpuid 4 j).eax 5 3 ≠ 2) →
      let s' := l.foldl (fun s j => entered (c.cpuid 4 j) s) s
      s'.l2Data = s.l2Data ∧ s'.l2DataLineSize = s.l2DataLineSize ∧
        s'.l2Associativity = s.l2Associativity := by
    intro l
    induction l with
    | nil => intro s _; exact ⟨rfl, rfl, rfl⟩
    | cons j l ih =>
      intro s h
      have h1 := ih (entered (c.cpuid 4 j) s) (fun q hq => h q (List.mem_cons_of_mem _ hq))
      have hl : (leaf4 (c.cpuid 4 j).eax (c.cpuid 4 j).ebx (c.cpuid 4 j).ecx).level ≠ 2 :=
        h j (List.mem_cons_self ..)
      have h2 : (entered (c.cpuid 4 j) s).l2Data = s.l2Data ∧
          (entered (c.cpuid 4 j) s).l2DataLineSize = s.l2DataLineSize ∧
          (entered (c.cpuid 4 j) s).l2Associativity = s.l2Associativity := by
        unfold entered
        simp only [if_neg hl]
        repeat' (first | exact ⟨rfl, rfl, rfl⟩ | split)
      simp only [List.foldl_cons] at h1 ⊢
      exact ⟨h1.1.trans h2.1, h1.2.1.trans h2.2.1, h1.2.2.trans h2.2.2⟩
  have hsplit : List.range m = List.range k ++ k :: (List.range (m - k - 1)).map (k + 1 + ·) := by
    have := List.range_add (n := k) (m := m - k)
    rw [show k + (m - k) = m by omega] at this
    rw [this, show m - k = (m - k - 1) + 1 by omega, List.range_succ_eq_map]
    simp [Function.comp_def, Nat.add_assoc, Nat.add_comm 1]
  rw [hsplit, List.foldl_append, List.foldl_cons]
  generalize (List.range k).foldl (fun s j => entered (c.cpuid 4 j) s) s = s1
  have h1 := keep ((List.range (m - k - 1)).map (k + 1 + ·)) (entered (c.cpuid 4 k) s1) (fun j hj => by
    simp only [List.mem_map, List.mem_range] at hj
    obtain ⟨q, hq, rfl⟩ := hj
    exact hlast _ (by omega) (by omega))
  have h2 : (entered (c.cpuid 4 k) s1).l2Data = info.size ∧
      (entered (c.cpuid 4 k) s1).l2DataLineSize = info.line ∧
      (entered (c.cpuid 4 k) s1).l2Associativity = info.ways := by
    unfold entered
    simp only [hi, if_pos hkind, hlevel]
    exact ⟨rfl, rfl, rfl⟩
  exact ⟨h1.1.trans h2.1, h1.2.1.trans h2.2.1, h1.2.2.trans h2.2.2⟩

/-- A CPU with 32 KiB L1 data, 32 KiB L1 instruction and 256 KiB L2. -/
def exCpu4 : Cpu where
  cpuid _ i := if i = 0 then ⟨0x121, 0x01C0003F, 63, 0⟩ else if i = 1 then ⟨0x122, 0x01C0003F, 63, 0⟩
    else if i = 2 then ⟨0x143, 0x01C0003F, 511, 0⟩ else ⟨0, 0, 0, 0⟩
  xcr0 := 7

example : leaf4 0x143 0x01C0003F 511 = ⟨3, 2, 64, 8, 256 * 1024⟩ := by decide
example : ∃ s', CpuId.leaf4Loop exCpu4 4 0 1 {} = some s' ∧ s'.l2Data = 256 * 1024 := by
  have hs : ∀ i, (leaf4 (exCpu4.cpuid 4 i).eax (exCpu4.cpuid 4 i).ebx (exCpu4.cpuid 4 i).ecx).size
      < 2 ^ 31 := by
    intro i; unfold exCpu4; simp only; split; · decide
    split; · decide
    split <;> decide
  obtain ⟨s', e, h, _⟩ := C51_L2 exCpu4 hs 3 (by decide) (by decide) {} 2 (by decide)
    ⟨3, 2, 64, 8, 256 * 1024⟩ (by decide) (by decide) rfl (fun j h1 h2 => by omega)
  exact ⟨s', e, h⟩

end Vc.Prop
