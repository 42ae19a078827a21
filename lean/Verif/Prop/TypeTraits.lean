import Verif.Model.TypeTraits

/-!
# C109: type traits
-/

namespace Vc.Prop
open Vc.Spec.Traits
open Vc.Model.Traits

/-- Types that can be written in C++: qualifiers of a plain type, inside of at most one reference. -/
inductive Qualified : QTy → Prop
  | ty (t : Ty) : Qualified (.ty t)
  | const (q : QTy) : Qualified q → Qualified (.const q)
  | volatile (q : QTy) : Qualified q → Qualified (.volatile q)

@[inherit_doc Qualified] inductive CppType : QTy → Prop
  | plain (q : QTy) : Qualified q → CppType q
  | ref (q : QTy) : Qualified q → CppType (.ref q)
  | rref (q : QTy) : Qualified q → CppType (.rref q)

private theorem removeCv_base {q : QTy} (h : Qualified q) : removeCv q = .ty q.base := by
  induction h with
  | ty t => rfl
  | const q _ ih => exact ih
  | volatile q _ ih => exact ih

private theorem decay_base {q : QTy} (h : CppType q) : decay q = some q.base := by
  unfold decay
  cases h with
  | plain q h =>
    have : removeReference q = q := by cases h <;> rfl
    rw [this, removeCv_base h]
  | ref q h => simp only [removeReference, removeCv_base h, QTy.base]
  | rref q h => simp only [removeReference, removeCv_base h, QTy.base]

private theorem valid_eq (t : Ar) : isValidVectorArgument t = t.entry := by cases t <;> rfl

/-- `is_simd_vector` and `is_simd_mask` identify vectors and masks, whatever the implementation, qualifiers and references,
and no type is both. -/
theorem C109_kinds (q : QTy) (hq : CppType q) (hi : q.base.Instantiable) :
    (∃ b, isSimdVector q = some b ∧ (b = true ↔ ∃ t n, IsVector q.base t n)) ∧
      (∃ b, isSimdMask q = some b ∧ (b = true ↔ ∃ t n, IsMaskTy q.base t n)) ∧
      ¬ (isSimdVector q = some true ∧ isSimdMask q = some true) := by
  unfold isSimdVector isSimdMask
  rw [decay_base hq]
  generalize q.base = T at hi ⊢
  refine ⟨⟨_, rfl, ?_⟩, ⟨_, rfl, ?_⟩, ?_⟩
  · constructor
    · cases T <;> simp only [isSimdVectorInternal, isSimdArrayInternal, valid_eq, Bool.or_false, Bool.false_or,
        Bool.or_self, Bool.false_eq_true, false_imp_iff] <;> intro h
      · exact ⟨_, _, .native _ _ h⟩
      · exact ⟨_, _, .array _ _ _ h⟩
      · exact ⟨_, _, .fixed _ _ h⟩
    · rintro ⟨t, n, h⟩
      cases h <;> simp [isSimdVectorInternal, isSimdArrayInternal, valid_eq, *]
  · constructor
    · cases T <;> simp only [isSimdMaskInternal, isSimdMaskArrayInternal, valid_eq, Bool.or_false, Bool.false_or,
        Bool.or_self, Bool.false_eq_true, false_imp_iff] <;> intro h
      · exact ⟨_, _, .native _ _ hi⟩
      · exact ⟨_, _, .array _ _ _ h⟩
      · exact ⟨_, _, .fixed _ _ h⟩
    · rintro ⟨t, n, h⟩
      cases h <;> simp [isSimdMaskInternal, isSimdMaskArrayInternal, valid_eq, *]
  · cases T <;> simp [isSimdVectorInternal, isSimdArrayInternal, isSimdMaskInternal, isSimdMaskArrayInternal]

/-- `const float_v &` and a mask. -/
example : isSimdVector (.ref (.const (.ty (.vector .float .sse)))) = some true ∧
    isSimdMask (.ty (.simdMaskArray .short 12 8)) = some true := by decide

/-- What a trait of arithmetic types says about a type: it looks at the type itself or at the entries of a vector. -/
def TraitOf (p : Ar → Prop) (T : Ty) : Prop := ∃ t, (T = .arith t ∨ ∃ n, IsVector T t n) ∧ p t

private theorem entryTrait_iff (std : Ar → Bool) (T : Ty) (hi : T.Instantiable) :
    entryTrait std T = true ↔ TraitOf (fun t => std t = true) T := by
  unfold entryTrait TraitOf
  constructor
  · cases T <;> simp only [isSimdVectorInternal, entryType, valid_eq, Bool.false_eq_true, if_false, false_imp_iff]
    · exact fun h => ⟨_, .inl rfl, h⟩
    · intro h
      split at h
      · exact ⟨_, .inr ⟨_, .native _ _ ‹_›⟩, h⟩
      · cases h
    · exact fun h => ⟨_, .inr ⟨_, .array _ _ _ hi⟩, h⟩
    · intro h
      split at h
      · exact ⟨_, .inr ⟨_, .fixed _ _ ‹_›⟩, h⟩
      · cases h
  · rintro ⟨t, rfl | ⟨n, h⟩, ht⟩
    · simpa [isSimdVectorInternal] using ht
    · cases h <;> simp [isSimdVectorInternal, entryType, valid_eq, *]

/-- `is_integral`, `is_floating_point`, `is_signed`, `is_unsigned` and `is_arithmetic` of a vector are those of its entry
type, of an arithmetic type those of the standard library, and false for everything else, e.g. masks. -/
theorem C109_arithmetic (q : QTy) (hq : CppType q) (hi : q.base.Instantiable) :
    (isIntegral q = some true ↔ TraitOf (fun t => t.floating = false) q.base) ∧
      (isFloatingPoint q = some true ↔ TraitOf (fun t => t.floating = true) q.base) ∧
      (isSigned q = some true ↔ TraitOf (fun t => t.signed = true) q.base) ∧
      (isUnsigned q = some true ↔ TraitOf (fun t => t.floating = false ∧ t.signed = false) q.base) ∧
      (isArithmetic q = some true ↔ TraitOf (fun _ => True) q.base) := by
  unfold isIntegral isFloatingPoint isSigned isUnsigned isArithmetic
  rw [decay_base hq]
  simp only [Option.map_some, Option.some.injEq, Bool.or_eq_true, entryTrait_iff _ _ hi, stdIntegral, stdUnsigned,
    Bool.not_eq_true', Bool.and_eq_true]
  refine ⟨trivial, trivial, trivial, trivial, ?_⟩
  constructor
  · rintro (⟨t, h, -⟩ | ⟨t, h, -⟩) <;> exact ⟨t, h, trivial⟩
  · rintro ⟨t, h, -⟩
    cases hf : t.floating
    · exact .inr ⟨t, h, hf⟩
    · exact .inl ⟨t, h, hf⟩

example : isUnsigned (.rref (.ty (.fixedVector .ushort 5))) = some true ∧ isArithmetic (.ty (.mask .int .avx)) = some false ∧
    isSigned (.const (.ty (.arith .uchar))) = some false ∧ isFloatingPoint (.ty (.simdArray .double 3 1)) = some true := by decide

/-- `entry_type_of` is the entry type of vectors and the type without qualifiers for everything else. -/
theorem C109_entry_type (q : QTy) (hq : CppType q) (hi : q.base.Instantiable) :
    (∀ t n, IsVector q.base t n → entryTypeOf q = some (.arith t)) ∧
      ((¬ ∃ t n, IsVector q.base t n) → entryTypeOf q = some q.base) := by
  obtain ⟨⟨b, h1, h2⟩, -, -⟩ := C109_kinds q hq hi
  unfold entryTypeOf
  rw [decay_base hq, h1]
  simp only [Option.bind_eq_bind, Option.bind_some]
  constructor
  · intro t n h
    rw [if_pos (h2.mpr ⟨t, n, h⟩)]
    cases hT : q.base <;> rw [hT] at h <;> cases h <;> rfl
  · intro h
    rw [if_neg fun e => h (h2.mp e)]
    rfl

example : entryTypeOf (.ref (.ty (.simdArray .short 7 4))) = some (.arith .short) ∧
    entryTypeOf (.ref (.const (.ty (.other 3)))) = some (.other 3) := by decide

/-- `simd_vector_size` is the number of entries of a vector or mask and zero for all other types that do not have a
static function `size()`. -/
theorem C109_size_partial (q : QTy) (hq : CppType q) (hi : q.base.Instantiable) :
    (∀ t n, IsVector q.base t n ∨ IsMaskTy q.base t n → simdVectorSize q = some n) ∧
      ((¬ ∃ t n, IsVector q.base t n ∨ IsMaskTy q.base t n) → (∀ k, q.base ≠ .indexSequence k) →
        simdVectorSize q = some 0) := by
  unfold simdVectorSize
  rw [decay_base hq]
  generalize q.base = T at hi ⊢
  constructor
  · rintro t n (h | h) <;> cases h <;> rfl
  · intro h hk
    cases T with
    | arith t => rfl
    | other k => rfl
    | indexSequence k => exact absurd rfl (hk k)
    | vector t a => exact absurd ⟨_, _, .inl (.native t a hi)⟩ h
    | mask t a => exact absurd ⟨_, _, .inr (.native t a hi)⟩ h
    | simdArray t n m => exact absurd ⟨_, _, .inl (.array t n m hi)⟩ h
    | simdMaskArray t n m => exact absurd ⟨_, _, .inr (.array t n m hi)⟩ h
    | fixedVector t n => exact absurd ⟨_, _, .inl (.fixed t n hi)⟩ h
    | fixedMask t n => exact absurd ⟨_, _, .inr (.fixed t n hi)⟩ h

example : simdVectorSize (.const (.ty (.vector .ushort .avx))) = some 16 ∧ simdVectorSize (.ty (.arith .float)) = some 0 := by
  decide

/-- Violated: "0 if T is not a SIMD type"; sequences of integers have a static function `size()`, too. -/
theorem C109_size_violated : ¬ ∀ q : QTy, CppType q → q.base.Instantiable →
    (¬ ∃ t n, IsVector q.base t n ∨ IsMaskTy q.base t n) → simdVectorSize q = some 0 := by
  intro h
  have := h (.ty (.indexSequence 3)) (.plain _ (.ty _)) trivial (by rintro ⟨t, n, h | h⟩ <;> cases h)
  exact absurd this (by decide)

example : CppType (.ref (.const (.ty (.vector .float .sse)))) ∧ (Ty.vector .float .sse).Instantiable :=
  ⟨.ref _ (.const _ (.ty _)), rfl⟩

end Vc.Prop
