import Verif.Spec.TypeTraits

/-!
# Type traits (Vc/traits/type_traits.h, Vc/traits/entry_type_of.h)

Instances of a template `is_..._internal` are chosen as the most special partial specialization that matches; a class
derived from `SimdArray` does not match a specialization for `SimdArray`.
-/

namespace Vc.Model.Traits
open Vc.Spec.Traits

/-- `decay<T>` (/repo/Vc/traits/decay.h:35): removes the reference, then the qualifiers on top. References to references and
qualified references do not exist in C++, so a type is a sequence of qualifiers inside of at most one reference. -/
def removeCv : QTy → QTy
  | .const q | .volatile q => removeCv q
  | q => q

def removeReference : QTy → QTy
  | .ref q | .rref q => q
  | q => q

/-- A type without top-level qualifiers and references is a plain type in C++ (pointers and arrays are `other`). -/
def decay (q : QTy) : Option Ty :=
  match removeCv (removeReference q) with
  | .ty t => some t
  | _ => none

/-- `is_valid_vector_argument<T>` (/repo/Vc/traits/type_traits.h:64-71). -/
def isValidVectorArgument : Ar → Bool
  | .double => true
  | .float => true
  | .int => true
  | .uint => true
  | .short => true
  | .ushort => true
  | _ => false

/-- `is_simd_vector_internal<T>` (/repo/Vc/traits/type_traits.h:74, /repo/Vc/scalar/types.h:74-76, /repo/Vc/sse/types.h:72-74,
/repo/Vc/avx/types.h:111-113, /repo/Vc/common/simdarrayfwd.h:132-134). -/
def isSimdVectorInternal : Ty → Bool
  | .vector t _ => isValidVectorArgument t
  | .fixedVector t _ => isValidVectorArgument t
  | _ => false

/-- `is_simd_mask_internal<T>` (/repo/Vc/traits/type_traits.h:73, /repo/Vc/scalar/types.h:71-72, /repo/Vc/sse/types.h:76-77,
/repo/Vc/avx/types.h:115-116, /repo/Vc/common/simdarrayfwd.h:136-138). -/
def isSimdMaskInternal : Ty → Bool
  | .mask _ _ => true
  | .fixedMask t _ => isValidVectorArgument t
  | _ => false

/-- `is_simdarray_internal<T>` (/repo/Vc/common/simdarrayfwd.h:158-165). -/
def isSimdArrayInternal : Ty → Bool
  | .simdArray t _ _ => isValidVectorArgument t
  | .fixedVector t _ => isValidVectorArgument t
  | _ => false

/-- `is_simd_mask_array_internal<T>` (/repo/Vc/common/simdarrayfwd.h:167-175). -/
def isSimdMaskArrayInternal : Ty → Bool
  | .simdMaskArray t _ _ => isValidVectorArgument t
  | .fixedMask t _ => isValidVectorArgument t
  | _ => false

/-- `T::EntryType`. -/
def entryType : Ty → Option Ar
  | .vector t _ | .simdArray t _ _ | .fixedVector t _ => some t
  | _ => none

/-- `is_integral_internal<T>` etc. for the trait `std` of the standard library
(/repo/Vc/traits/type_traits.h:79-92, /repo/Vc/common/simdarrayfwd.h:177-197). `std` is false for classes. -/
def entryTrait (std : Ar → Bool) (T : Ty) : Bool :=
  if isSimdVectorInternal T then
    match entryType T with
    | some t => std t
    | none => false
  else
    match T with
    | .simdArray t _ _ => std t
    | .arith t => std t
    | _ => false

/-- `std::is_integral`, `std::is_floating_point`, `std::is_signed`, `std::is_unsigned`. -/
def stdIntegral (t : Ar) : Bool := !t.floating
@[inherit_doc stdIntegral] def stdUnsigned (t : Ar) : Bool := !t.floating && !t.signed

/-- `vector_size_internal<T>` (/repo/Vc/traits/type_traits.h:102-108): `T::size()` if there is a static function. -/
def vectorSizeInternal : Ty → Nat
  | .vector t a | .mask t a => a.entries t
  | .simdArray _ n _ | .simdMaskArray _ n _ | .fixedVector _ n | .fixedMask _ n => n
  | .indexSequence k => k
  | .arith _ | .other _ => 0

/-- `is_simd_vector<T>` (/repo/Vc/traits/type_traits.h:127-133). -/
def isSimdVector (q : QTy) : Option Bool := (decay q).map fun T => isSimdVectorInternal T || isSimdArrayInternal T

/-- `is_simd_mask<T>` (/repo/Vc/traits/type_traits.h:116-121). -/
def isSimdMask (q : QTy) : Option Bool := (decay q).map fun T => isSimdMaskInternal T || isSimdMaskArrayInternal T

/-- `is_integral<T>`, `is_floating_point<T>`, `is_signed<T>`, `is_unsigned<T>`, `is_arithmetic<T>`
(/repo/Vc/traits/type_traits.h:94-100, 161-165). -/
def isIntegral (q : QTy) : Option Bool := (decay q).map (entryTrait stdIntegral)
@[inherit_doc isIntegral] def isFloatingPoint (q : QTy) : Option Bool := (decay q).map (entryTrait Ar.floating)
@[inherit_doc isIntegral] def isSigned (q : QTy) : Option Bool := (decay q).map (entryTrait Ar.signed)
@[inherit_doc isIntegral] def isUnsigned (q : QTy) : Option Bool := (decay q).map (entryTrait stdUnsigned)
@[inherit_doc isIntegral] def isArithmetic (q : QTy) : Option Bool :=
  (decay q).map fun T => entryTrait Ar.floating T || entryTrait stdIntegral T

/-- `simd_vector_size<T>` (/repo/Vc/traits/type_traits.h:155-159). -/
def simdVectorSize (q : QTy) : Option Nat := (decay q).map vectorSizeInternal

/-- `entry_type_of<T>`, `scalar_type<T>` (/repo/Vc/traits/entry_type_of.h:35-53, /repo/Vc/traits/type_traits.h:167-169). -/
def entryTypeOf (q : QTy) : Option Ty := do
  let T ← decay q
  if ← isSimdVector q then return .arith (← entryType T) else return T

end Vc.Model.Traits
