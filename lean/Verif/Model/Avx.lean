import Verif.Model.SortNet
import Verif.Model.Interleave

/-!
256-bit registers: what the integer operations of the AVX implementation consist of.

With AVX2 an integer operation is one instruction on the whole register.  Without it, the macros of
/repo/Vc/avx/intrinsics.h:250-300 apply the 128-bit instruction to both halves.
-/

namespace Vc.Model

/-- `Vc_AVX_TO_SSE_1`, `Vc_AVX_TO_SSE_1i`, `Vc_AVX_TO_SSE_256_128` without AVX2: a unary operation (or one
whose second operand is the same for both halves) on the two halves
(/repo/Vc/avx/intrinsics.h:265-272,290-306). -/
def split1 (f : M128 → M128) (a : M256) : M256 := concat128 (f (lo128 a)) (f (hi128 a))

/-- `Vc_AVX_TO_SSE_2_NEW` without AVX2: a binary operation on the two halves
(/repo/Vc/avx/intrinsics.h:280-288). -/
def split2 (f : M128 → M128 → M128) (a b : M256) : M256 :=
  concat128 (f (lo128 a) (lo128 b)) (f (hi128 a) (hi128 b))

/-- The functions of namespace AVX these macros define: with AVX2 the instruction for 256 bits. -/
def avx1 (avx2 : Bool) (f256 : M256 → M256) (f128 : M128 → M128) (a : M256) : M256 :=
  if avx2 then f256 a else split1 f128 a
def avx2op (avx2 : Bool) (f256 : M256 → M256 → M256) (f128 : M128 → M128 → M128) (a b : M256) : M256 :=
  if avx2 then f256 a b else split2 f128 a b

/-- `_mm256_packs_epi32` (`v = 16`), `_mm256_packs_epi16` (`v = 8`): per half. -/
def packs256 (v : Nat) (x y : M256) : M256 :=
  concat128 (packs v (lo128 x) (lo128 y)) (packs v (hi128 x) (hi128 y))

/-- `_mm256_permute4x64_epi64`. -/
def permute4x64Imm (x : M256) (imm : Nat) : M256 := ofLanes 64 fun i => lane 64 x (sel4 imm i)

/-- `Mem::permute4x64<Dst0, Dst1, Dst2, Dst3>` (/repo/Vc/avx/shuffle.h:144-148).  `none`: static assertion. -/
def permute4x64 (d0 d1 d2 d3 : Nat) (x : M256) : Option M256 :=
  if d0 ≤ 3 ∧ d1 ≤ 3 ∧ d2 ≤ 3 ∧ d3 ≤ 3 then some (permute4x64Imm x (d0 + d1 * 4 + d2 * 16 + d3 * 64)) else none

end Vc.Model
