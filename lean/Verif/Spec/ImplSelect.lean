import Verif.Model.ImplSelect

/-!
What the selection of the implementation should be.
-/

namespace Vc.Spec

open Vc.Model

/-- The instruction set is enabled by the compiler flags. -/
def ccHas (c : Cc) : Implementation → Bool
  | .scalar => true | .sse2 => c.sse2 | .sse3 => c.sse3 | .ssse3 => c.ssse3 | .sse41 => c.sse41
  | .sse42 => c.sse42 | .avx => c.avx | .avx2 => c.avx2 | .mic => false

/-- Every set includes its predecessors: what compilers predefine for the flags -msse2, …, -mavx2. -/
def CcClosed (c : Cc) : Prop :=
  ∀ x y : Implementation, y.num ≤ x.num → ccHas c x = true → ccHas c y = true

/-- `x` is the best instruction set of the compiler flags not above `top`. -/
def IsBest (c : Cc) (top x : Implementation) : Prop :=
  x.num ≤ top.num ∧ ccHas c x = true ∧ ∀ y : Implementation, y.num ≤ top.num → ccHas c y = true → y.num ≤ x.num

/-- Code guarded by the macro of the instruction set is compiled. -/
def levelUsed (s : Sel) : Implementation → Bool
  | .scalar => s.scalar | .sse2 => s.sse2 | .sse3 => s.sse3 | .ssse3 => s.ssse3 | .sse41 => s.sse41
  | .sse42 => s.sse42 | .avx => s.avx | .avx2 => s.avx2 | .mic => false

/-- The same for the extra instructions. -/
def extUsed (s : Sel) : ImplExt → Bool
  | .xop => s.xop | .fma4 => s.fma4 | .f16c => s.f16c | .popcnt => s.popcnt | .sse4a => s.sse4a | .fma => s.fma
  | .bmi2 => s.bmi2

/-- The extra instructions enabled by the compiler flags (ICC: POPCNT comes with SSE4.2 and SSE4a). -/
def ccExt (c : Cc) : ImplExt → Bool
  | .xop => c.xop | .fma4 => c.fma4 | .f16c => c.f16c
  | .popcnt => c.popcnt || (c.icc && (c.sse42 || c.sse4a))
  | .sse4a => c.sse4a | .fma => c.fma | .bmi2 => c.bmi2

/-- The flag of `enum ExtraInstructions` is `1 << i`. -/
def extBit : ImplExt → Nat
  | .f16c => 12 | .fma4 => 13 | .xop => 14 | .popcnt => 15 | .sse4a => 16 | .fma => 17 | .bmi2 => 19

/-- The implementation a name of `Vc_IMPL` asks for; `SSE` asks for the best SSE version. -/
def requested : ImplBase → Option Implementation
  | .scalar => some .scalar | .sse => none | .sse2 => some .sse2 | .sse3 => some .sse3 | .ssse3 => some .ssse3
  | .sse41 => some .sse41 | .sse42 => some .sse42 | .avx => some .avx | .avx2 => some .avx2

/-- `Vc_IMPL` is one instruction set and some extra instructions, in any order. -/
def WellFormed (l : List ImplTok) (b : ImplBase) (exts : List ImplExt) : Prop :=
  l.Perm (.base b :: exts.map .ext) ∧ exts.Nodup

end Vc.Spec
