import Verif.Lemma.ImplSelect
import Verif.Prop.Cpuid

/-!
C102: the implementation selected at compile time.

Without `Vc_IMPL` it is the best one the compiler flags allow, with `Vc_IMPL` the requested one; a wrong `Vc_IMPL` is
rejected; `CurrentImplementation` names all instruction sets that are used, so that
`currentImplementationSupported()` can check them.
-/

namespace Vc.Prop

open Vc.Model Vc.Lemma Vc.Spec

/-! ### Without Vc_IMPL -/

private theorem chain {c : Cc} (h : CcClosed c) :
    (c.avx2 = true → c.avx = true) ∧ (c.avx = true → c.sse42 = true) ∧ (c.sse42 = true → c.sse41 = true) ∧
    (c.sse41 = true → c.ssse3 = true) ∧ (c.ssse3 = true → c.sse3 = true) ∧ (c.sse3 = true → c.sse2 = true) :=
  ⟨h .avx2 .avx (by decide), h .avx .sse42 (by decide), h .sse42 .sse41 (by decide), h .sse41 .ssse3 (by decide),
    h .ssse3 .sse3 (by decide), h .sse3 .sse2 (by decide)⟩

/-- The best instruction set of the compiler flags is selected, the code of exactly the enabled instruction sets is
compiled, and with any SIMD instruction set exactly the enabled extra instructions are used. -/
theorem C102_default {c : Cc} (h : CcClosed c) (h36 : c.clang36 = false) :
    ∃ s x, select c none = some s ∧ s.current = some x ∧ IsBest c .avx2 x ∧
      (levelUsed s .scalar = true ↔ x = .scalar) ∧
      (∀ y, y ≠ .scalar → levelUsed s y = ccHas c y) ∧
      (∀ e, extUsed s e = (x != .scalar && ccExt c e)) ∧ s.vex = c.avx := by
  obtain ⟨h1, h2, h3, h4, h5, h6⟩ := chain h
  clear h
  obtain ⟨avx2, avx, sse42, sse41, ssse3, sse3, sse2, fma4, xop, f16c, popcnt, sse4a, fma, bmi2, clang36, icc⟩ := c
  simp only at h1 h2 h3 h4 h5 h6 h36
  subst h36
  cases sse2 <;> cases sse3 <;> cases ssse3 <;> cases sse41 <;> cases sse42 <;> cases avx <;> cases avx2 <;>
    simp only [imp_false, Bool.false_eq_true, not_true_eq_false, not_false_eq_true, forall_const, false_imp_iff] at h1 h2 h3 h4 h5 h6 <;>
    refine ⟨_, _, rfl, rfl, ⟨by decide, rfl, fun y => by cases y <;> simp [ccHas, Implementation.num]⟩, by simp [levelUsed, selDefault], fun y hy => ?_,
      fun e => ?_, rfl⟩ <;>
    first
    | (cases y <;> first | rfl | exact absurd rfl hy)
    | (cases e <;> simp [extUsed, ccExt, selDefault, Cc.popcntMacro])

/-- Compiled with -mavx2 -mfma -mbmi2 -mpopcnt. -/
def exHaswell : Cc :=
  { avx2 := true, avx := true, sse42 := true, sse41 := true, ssse3 := true, sse3 := true, sse2 := true, fma := true,
    bmi2 := true, popcnt := true }
example : CcClosed exHaswell ∧ exHaswell.clang36 = false :=
  ⟨by intro x y; cases x <;> cases y <;> decide, rfl⟩
example : (select exHaswell none).bind Sel.current = some .avx2 := by decide

/-- clang 3.6 gets SSE4.2 instead of AVX. -/
theorem C102_clang36 {c : Cc} (h : CcClosed c) (h36 : c.clang36 = true) (ha : c.avx = true) :
    ∃ s, select c none = some s ∧ s.current = some .sse42 ∧ levelUsed s .avx = false ∧ levelUsed s .avx2 = false := by
  obtain ⟨h1, h2, h3, h4, h5, h6⟩ := chain h
  obtain ⟨avx2, avx, sse42, sse41, ssse3, sse3, sse2, fma4, xop, f16c, popcnt, sse4a, fma, bmi2, clang36, icc⟩ := c
  simp only at h1 h2 h3 h4 h5 h6 h36 ha
  subst h36 ha
  cases avx2 <;> exact ⟨_, rfl, rfl, rfl, rfl⟩

/-! ### With Vc_IMPL -/

/-- A request for an instruction set other than the unspecific `SSE` selects this instruction set whatever the
compiler flags, compiles the code of this and the lower ones, and uses the requested extra instructions, and POPCNT
also if the compiler flags enable it. -/
theorem C102_requested (c : Cc) {l : List ImplTok} {b : ImplBase} {exts : List ImplExt} {x : Implementation}
    (h : WellFormed l b exts) (hx : requested b = some x) (h36 : c.clang36 = false) :
    ∃ s, select c (some l) = some s ∧ s.current = some x ∧
      (levelUsed s .scalar = true ↔ x = .scalar) ∧
      (∀ y, y ≠ .scalar → (levelUsed s y = true ↔ y.num ≤ x.num)) ∧
      (∀ e, extUsed s e = true ↔ e ∈ exts ∨ (e = .popcnt ∧ x ≠ .scalar ∧ ccExt c .popcnt = true)) ∧
      s.vex = c.avx := by
  obtain ⟨hm, he⟩ := value_wf h
  unfold select selFinish
  simp only
  rw [h36]
  unfold selImpl
  simp only [hm, he]
  cases b <;> simp only [requested, Option.some.injEq, reduceCtorEq] at hx <;> subst hx <;>
    refine ⟨_, rfl, rfl, by simp [levelUsed, ImplBase.code], fun y hy => ?_, fun e => ?_, rfl⟩ <;>
    first
    | (cases y <;> simp [levelUsed, Implementation.num, ImplBase.code] at hy ⊢; done)
    | (cases e <;> simp [extUsed, ccExt, ImplBase.code, Cc.popcntMacro, or_comm])

/-- `-DVc_IMPL=FMA+AVX`. -/
example : WellFormed [.ext .fma, .base .avx] .avx [.fma] := ⟨List.Perm.swap _ _ _, by decide⟩
example : (select {} (some [.ext .fma, .base .avx])).map (fun s => (s.current, s.fma)) = some (some .avx, true) := by
  decide

/-- A request for `SSE` selects the best SSE version the compiler flags allow. -/
theorem C102_requested_sse_partial {c : Cc} {l : List ImplTok} {exts : List ImplExt} (h : WellFormed l .sse exts)
    (hc : CcClosed c) (h2 : c.sse2 = true) :
    ∃ s x, select c (some l) = some s ∧ s.current = some x ∧ IsBest c .sse42 x ∧
      (∀ e, extUsed s e = true ↔ e ∈ exts ∨ (e = .popcnt ∧ ccExt c .popcnt = true)) := by
  obtain ⟨hm, he⟩ := value_wf h
  obtain ⟨-, -, h3, h4, h5, h6⟩ := chain hc
  unfold select selFinish
  simp only
  unfold selImpl
  simp only [hm, he]
  obtain ⟨avx2, avx, sse42, sse41, ssse3, sse3, sse2, fma4, xop, f16c, popcnt, sse4a, fma, bmi2, clang36, icc⟩ := c
  simp only at h2 h3 h4 h5 h6
  subst h2
  clear hc
  cases sse3 <;> cases ssse3 <;> cases sse41 <;> cases sse42 <;>
    simp only [imp_false, Bool.false_eq_true, not_true_eq_false, not_false_eq_true, forall_const, false_imp_iff] at h3 h4 h5 h6 <;>
    cases clang36 <;>
    refine ⟨_, _, rfl, rfl, ⟨by decide, rfl, fun y => by cases y <;> simp [ccHas, Implementation.num]⟩,
      fun e => ?_⟩ <;>
    (cases e <;> simp [extUsed, ccExt, ImplBase.code, Cc.popcntMacro, or_comm])

example : WellFormed [.base .sse, .ext .xop, .ext .fma4] .sse [.xop, .fma4] ∧ exHaswell.sse2 = true ∧
    (select exHaswell (some [.base .sse, .ext .xop, .ext .fma4])).bind Sel.current = some .sse42 :=
  ⟨⟨List.Perm.refl _, by decide⟩, rfl, by decide⟩

/-- A request for `SSE` is an error if the compiler flags do not enable SSE2; nothing is selected silently. -/
theorem C102_sse_needs_sse2 {c : Cc} {l : List ImplTok} {exts : List ImplExt} (h : WellFormed l .sse exts)
    (h2 : c.sse2 = false) : select c (some l) = none := by
  obtain ⟨hm, he⟩ := value_wf h
  unfold select selFinish
  simp only
  unfold selImpl
  simp only [hm, he]
  simp [ImplBase.code, h2]

example : WellFormed [.base .sse, .ext .popcnt] .sse [.popcnt] ∧ ({} : Cc).sse2 = false :=
  ⟨⟨List.Perm.refl _, by decide⟩, rfl⟩

/-- The documentation says that `SSE` means SSE4.1 if the headers cannot figure out the version; it is an error. -/
theorem C102_sse_fallback_violated :
    ¬ ∀ c : Cc, c.sse2 = false → c.sse3 = false → c.ssse3 = false → c.sse41 = false → c.sse42 = false →
      (select c (some [.base .sse])).bind Sel.current = some .sse41 := by
  intro h
  exact absurd (h {} rfl rfl rfl rfl rfl) (by decide)

/-- The documented value MIC is no name the headers know: whatever the compiler, it is an error. -/
theorem C102_mic_violated (c : Cc) : select c (some [.other]) = none := by
  simp [select, selFinish, selImpl, implValue, ImplTok.code, implMasked, implHas, ImplBase.code]

/-- `Vc_IMPL` without any instruction set is an error, except that SSE4a alone means SSE3. -/
theorem C102_no_base (c : Cc) {exts : List ImplExt} (h : exts.Nodup) :
    (ImplExt.sse4a ∉ exts → select c (some (exts.map .ext)) = none) ∧
    (ImplExt.sse4a ∈ exts → ∃ s, select c (some (exts.map .ext)) = some s ∧ s.current = some .sse3) := by
  have hv := sum_exts exts
  simp only [count_bit h] at hv
  obtain ⟨h0, h1⟩ := codes0 (decide (.xop ∈ exts)) (decide (.fma4 ∈ exts)) (decide (.f16c ∈ exts))
    (decide (.popcnt ∈ exts)) (decide (.sse4a ∈ exts)) (decide (.fma ∈ exts)) (decide (.bmi2 ∈ exts))
  rw [← hv] at h0 h1
  constructor
  · intro hn
    unfold select selFinish selImpl
    simp [h0, h1, hn, ImplBase.code]
  · intro hn
    refine ⟨(selFinish c (selImpl c (implValue (exts.map .ext)))).get ?_, ?_, ?_⟩ <;>
      unfold selFinish selImpl <;> simp [select, selFinish, selImpl, h0, h1, hn, ImplBase.code, Sel.current]

example : ImplExt.sse4a ∉ [ImplExt.fma, .xop] ∧ [ImplExt.fma, .xop].Nodup := by decide

/-- Two instruction sets are not always rejected as an invalid value: SSE2+SSE4_1 compiles AVX2 code. -/
theorem C102_two_bases_violated :
    ¬ ∀ (c : Cc) (b b' : ImplBase), b ≠ b' → select c (some [.base b, .base b']) = none := by
  intro h
  exact absurd (h {} .sse2 .sse41 (by decide)) (by decide)

example : (select {} (some [.base .sse2, .base .sse41])).bind Sel.current = some .avx2 := by decide

/-! ### CurrentImplementation -/

private theorem bits_table : ∀ x : Fin 9, ∀ sse4a xop fma4 popcnt fma bmi2 vex : Bool,
    let n := x.val
      + (if sse4a then 0x10000 + (if xop then 0x4000 + (if fma4 then 0x2000 else 0) else 0) else 0)
      + (if popcnt then 0x8000 else 0) + (if fma then 0x20000 else 0) + (if bmi2 then 0x80000 else 0)
      + (if vex then 0x40000 else 0)
    n < 2 ^ 20 ∧ n % 2 ^ 12 = x.val ∧ n.testBit 12 = false ∧ n.testBit 13 = (sse4a && xop && fma4) ∧
    n.testBit 14 = (sse4a && xop) ∧ n.testBit 15 = popcnt ∧ n.testBit 16 = sse4a ∧ n.testBit 17 = fma ∧
    n.testBit 18 = vex ∧ n.testBit 19 = bmi2 := by
  decide +kernel

/-- `CurrentImplementation` names exactly the extra instructions that are used, if F16C (for which there is no code)
is left out, XOP comes with SSE4a, and FMA4 with both. -/
theorem C102_features_partial (s : Sel) (x : Implementation) :
    s.features x < 2 ^ 32 ∧ s.features x % 2 ^ 12 = x.num ∧
    (∀ e, (s.features x).testBit (extBit e) = true → extUsed s e = true) ∧
    (∀ e, extUsed s e = true → e ≠ .f16c → (e = .xop → s.sse4a = true) →
      (e = .fma4 → s.sse4a = true ∧ s.xop = true) → (s.features x).testBit (extBit e) = true) ∧
    (s.features x).testBit 18 = s.vex := by
  have hn : x.num < 9 := by cases x <;> decide
  obtain ⟨h0, h1, h2, h3, h4, h5, h6, h7, h8, h9⟩ :=
    bits_table ⟨x.num, hn⟩ s.sse4a s.xop s.fma4 s.popcnt s.fma s.bmi2 s.vex
  refine ⟨Nat.lt_trans h0 (by decide), h1, fun e he => ?_, fun e he hf hxo hf4 => ?_, h8⟩
  · cases e <;> simp only [extBit] at he <;> simp only [extUsed]
    · have := h4.symm.trans he; simp at this; exact this.2
    · have := h3.symm.trans he; simp at this; exact this.2
    · have := h2.symm.trans he; simp at this
    · exact h5.symm.trans he
    · exact h6.symm.trans he
    · exact h7.symm.trans he
    · exact h9.symm.trans he
  · cases e <;> simp only [extUsed] at he <;> simp only [extBit]
    · exact h4.trans (by simp [he, hxo rfl])
    · exact h3.trans (by simp [he, hf4 rfl])
    · exact absurd rfl hf
    · exact h5.trans he
    · exact h6.trans he
    · exact h7.trans he
    · exact h9.trans he

example : (select exHaswell none).map (fun s => s.features .avx2) = some (7 + 0x8000 + 0x20000 + 0x40000 + 0x80000) := by
  decide

/-- Compiled with -mfma4. -/
def exFma4 : Cc :=
  { avx := true, sse42 := true, sse41 := true, ssse3 := true, sse3 := true, sse2 := true, sse4a := true,
    fma4 := true }

/-- The documented example -DVc_IMPL=SSE+XOP+FMA4 uses XOP and FMA4 but names neither, with all SSE versions enabled;
so does -mfma4 (which enables SSE4a and AVX) without Vc_IMPL for FMA4. -/
theorem C102_features_violated :
    (∃ s, select { sse42 := true, sse41 := true, ssse3 := true, sse3 := true, sse2 := true }
        (some [.base .sse, .ext .xop, .ext .fma4]) = some s ∧ s.current = some .sse42 ∧
      extUsed s .xop = true ∧ extUsed s .fma4 = true ∧
      (s.features .sse42).testBit (extBit .xop) = false ∧ (s.features .sse42).testBit (extBit .fma4) = false) ∧
    (∃ s, select exFma4 none = some s ∧ s.current = some .avx ∧
      extUsed s .fma4 = true ∧ (s.features .avx).testBit (extBit .fma4) = false) :=
  ⟨⟨_, rfl, by decide, by decide, by decide, by decide, by decide⟩, _, rfl, by decide, by decide, by decide⟩

/-- If `currentImplementationSupported()` then the CPU and the operating system support the selected instruction set
and the extra instructions that are used, with the same exceptions. -/
theorem C102_supported_partial (cpu : Cpu) (s : Sel) (x : Implementation)
    (h : implementationTSupported cpu (CpuId.initCommon cpu) (s.features x) = true) :
    isImplementationSupported cpu (CpuId.initCommon cpu) x = true ∧
    (∀ e, extUsed s e = true → e ≠ .f16c → (e = .xop → s.sse4a = true) →
      (e = .fma4 → s.sse4a = true ∧ s.xop = true) → cpuHas cpu (extBit e) = true) ∧
    (s.vex = true → cpuHas cpu 18 = true) := by
  obtain ⟨h0, h1, -, h3, h4⟩ := C102_features_partial s x
  obtain ⟨ha, hb⟩ := (C50_feature_bits cpu x _ h0 h1).1 h
  refine ⟨ha, fun e he hf hxo hf4 => hb _ (by cases e <;> decide) (h3 e he hf hxo hf4), fun hv => ?_⟩
  exact hb 18 (by decide) (h4.trans hv)

/-- The example CPU supports SSE4.2 with POPCNT. -/
example : ∃ s, select { sse2 := true, popcnt := true } (some [.base .sse42]) = some s ∧
    implementationTSupported exCpu (CpuId.initCommon exCpu) (s.features .sse42) = true ∧ extUsed s .popcnt = true :=
  ⟨_, rfl, by decide, by decide⟩

/-- The example CPU has no XOP, and yet `currentImplementationSupported()` is true for the documented example. -/
theorem C102_supported_violated :
    ¬ ∀ (c : Cc) (l : List ImplTok) (s : Sel) (x : Implementation) (cpu : Cpu), select c (some l) = some s →
      s.current = some x → implementationTSupported cpu (CpuId.initCommon cpu) (s.features x) = true →
      extUsed s .xop = true → cpuHas cpu (extBit .xop) = true := by
  intro h
  have := h { sse42 := true, sse41 := true, ssse3 := true, sse3 := true, sse2 := true }
    [.base .sse, .ext .xop, .ext .fma4] _ .sse42 exCpu rfl (by decide) (by decide) (by decide)
  exact absurd this (by decide)

/-! ### The default ABI -/

/-- Whatever is selected: there is a default ABI, its registers belong to the selected instruction set, and the
macros `Vc_FLOAT_V_SIZE` etc. are the numbers of entries of its vectors. -/
theorem C102_abi {c : Cc} {r : Option (List ImplTok)} {s : Sel} (h : select c r = some s) :
    ∃ x d, s.current = some x ∧ s.defaultImpl = some d ∧
      ∀ bytes integral, (bytes, integral) ∈ [(8, false), (4, false), (4, true), (2, true)] →
        ∃ reg, bestAbi integral x = some reg ∧
          (reg = 0 ↔ levelUsed s .scalar = true) ∧
          (reg = 32 → levelUsed s .avx = true ∧ (integral = true → levelUsed s .avx2 = true)) ∧
          (reg = 16 → levelUsed s .sse2 = true) ∧
          vSizeMacro d bytes integral = some (if reg = 0 then 1 else reg / bytes) := by
  obtain ⟨h1, h2, h3⟩ := shape_select h
  have mem : ∀ {P : Nat → Bool → Prop}, P 8 false → P 4 false → P 4 true → P 2 true →
      ∀ bytes integral, (bytes, integral) ∈ [(8, false), (4, false), (4, true), (2, true)] → P bytes integral := by
    intro P a b c d bytes integral hm
    simp only [List.mem_cons, Prod.mk.injEq, List.not_mem_nil, or_false] at hm
    rcases hm with ⟨rfl, rfl⟩ | ⟨rfl, rfl⟩ | ⟨rfl, rfl⟩ | ⟨rfl, rfl⟩ <;> assumption
  by_cases hs : s.scalar = true
  · obtain ⟨a, b, d⟩ := h1 hs
    refine ⟨.scalar, .scalar, by simp [Sel.current, hs], by simp [Sel.defaultImpl, hs, a, b, d], ?_⟩
    apply mem <;> exact ⟨0, by decide, by simp [levelUsed, hs], (fun e => absurd e (by decide)), (fun e => absurd e (by decide)), by decide⟩
  · obtain ⟨hss, hs2⟩ := h3.resolve_left hs
    by_cases ha2 : s.avx2 = true
    · have ha := h2 ha2
      refine ⟨.avx2, .avx2, by simp [Sel.current, hs, ha2], by simp [Sel.defaultImpl, ha2], ?_⟩
      apply mem <;> exact ⟨32, by decide, by simp [levelUsed, hs], by simp [levelUsed, ha, ha2], (fun e => absurd e (by decide)),
        by decide⟩
    · by_cases ha : s.avx = true
      · refine ⟨.avx, .avx, by simp [Sel.current, hs, ha2, ha], by simp [Sel.defaultImpl, ha2, ha], ?_⟩
        apply mem
        · exact ⟨32, by decide, by simp [levelUsed, hs], by simp [levelUsed, ha], (fun e => absurd e (by decide)),
            by decide⟩
        · exact ⟨32, by decide, by simp [levelUsed, hs], by simp [levelUsed, ha], (fun e => absurd e (by decide)),
            by decide⟩
        · exact ⟨16, by decide, by simp [levelUsed, hs], (fun e => absurd e (by decide)),
            by simp [levelUsed, hs2], by decide⟩
        · exact ⟨16, by decide, by simp [levelUsed, hs], (fun e => absurd e (by decide)),
            by simp [levelUsed, hs2], by decide⟩
      · have cur : ∃ x : Implementation, s.current = some x ∧ ∀ i, bestAbi i x = some 16 := by
          unfold Sel.current
          rw [if_neg hs, if_neg ha2, if_neg ha]
          repeat' split
          all_goals first
          | exact ⟨_, rfl, by decide⟩
          | contradiction
        obtain ⟨x, hx, hb⟩ := cur
        refine ⟨x, .sse2, hx, by simp [Sel.defaultImpl, ha2, ha, hss], ?_⟩
        apply mem <;> exact ⟨16, hb _, by simp [levelUsed, hs], (fun e => absurd e (by decide)),
            by simp [levelUsed, hs2], by decide⟩

example : ∃ s, select exHaswell (some [.base .avx]) = some s ∧ s.current = some .avx ∧
    bestAbi true .avx = some 16 ∧ vSizeMacro .avx 4 true = some 4 ∧ vSizeMacro .avx 4 false = some 8 :=
  ⟨_, rfl, by decide, by decide, by decide, by decide⟩

end Vc.Prop
