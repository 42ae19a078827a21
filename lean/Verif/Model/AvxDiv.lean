import Verif.Model.FloatCvt
import Verif.Model.SseDiv

/-!
Division and remainder of the AVX2 integer vectors.
-/

namespace Vc.Model

open Vc.Spec

/-- `_mm256_div_ps`, `_mm256_div_pd`. -/
def divPs256 (x y : M256) : M256 := map2 32 (fDiv f32) x y
def divPd256 (x y : M256) : M256 := map2 64 (fDiv f64) x y

/-- `Detail::div(a, b, int)` (/repo/Vc/avx/detail.h:722-730). -/
def avxDivInt (a b : M256) : M256 :=
  let lo1 := cvtepi32Pd256 (lo128 a)
  let lo2 := cvtepi32Pd256 (lo128 b)
  let hi1 := cvtepi32Pd256 (hi128 a)
  let hi2 := cvtepi32Pd256 (hi128 b)
  concat128 (cvttpd256 (divPd256 lo1 lo2)) (cvttpd256 (divPd256 hi1 hi2))

/-- `Detail::div(a, b, uint)` (/repo/Vc/avx/detail.h:731-750). -/
def avxDivUint (avx2 : Bool) (a b : M256) : M256 :=
  let aa := avx2op avx2 (addEpi 32) (addEpi 32) a (set1 32 0x80000000#32)
  let bb := avx2op avx2 (addEpi 32) (addEpi 32) b (set1 32 0x80000000#32)
  let loa := map2 64 (fAdd f64) (cvtepi32Pd256 (lo128 aa)) (set1 64 two31d)
  let hia := map2 64 (fAdd f64) (cvtepi32Pd256 (hi128 aa)) (set1 64 two31d)
  let lob := map2 64 (fAdd f64) (cvtepi32Pd256 (lo128 bb)) (set1 64 two31d)
  let hib := map2 64 (fAdd f64) (cvtepi32Pd256 (hi128 bb)) (set1 64 two31d)
  blendvIntr 32 (concat128 (cvttpd256 (divPd256 loa lob)) (cvttpd256 (divPd256 hia hib))) a
    (avx2op avx2 (cmpeqEpi 32) (cmpeqEpi 32) b (set1 32 1#32))

/-- `Detail::div(a, b, short)` (/repo/Vc/avx/detail.h:751-758). -/
def avxDivShort (avx2 : Bool) (a b : M256) : M256 :=
  let lo := divPs256 (cvtShortFloatAvx avx2 (lo128 a)) (cvtShortFloatAvx avx2 (lo128 b))
  let hi := divPs256 (cvtShortFloatAvx avx2 (hi128 a)) (cvtShortFloatAvx avx2 (hi128 b))
  concat128 (cvtFloatShortAvx avx2 lo) (cvtFloatShortAvx avx2 hi)

/-- `32767.f`. -/
def f32767 : BitVec 32 := 0x46fffe00#32

/-- `operator/` of AVX2::ushort_v (/repo/Vc/avx/vector.tcc:118-136); `isNotEmpty` asks whether a sign bit is set
(/repo/Vc/avx/mask.tcc:86-94, `_mm256_testz_ps`). -/
def avxDivUshort (avx2 : Bool) (B : CmpBuild) (a b : M256) : M256 :=
  let lo := divPs256 (cvtUshortFloatAvx avx2 (lo128 a)) (cvtUshortFloatAvx avx2 (lo128 b))
  let hi := divPs256 (cvtUshortFloatAvx avx2 (hi128 a)) (cvtUshortFloatAvx avx2 (hi128 b))
  let threshold : M256 := set1 32 f32767
  let loShort := if movemask 32 (vFGt B f32 32 lo threshold) ≠ 0 then cvtFloatUshortAvx avx2 B lo
    else cvtFloatShortAvx avx2 lo
  let hiShort := if movemask 32 (vFGt B f32 32 hi threshold) ≠ 0 then cvtFloatUshortAvx avx2 B hi
    else cvtFloatShortAvx avx2 hi
  concat128 loShort hiShort

/-- `operator/` of the AVX2 integer vectors (/repo/Vc/avx/vector.tcc:113-117). -/
def avxDiv (avx2 : Bool) (B : CmpBuild) (sgn : Bool) (w : Nat) (a b : M256) : M256 :=
  if w = 16 then (if sgn then avxDivShort avx2 a b else avxDivUshort avx2 B a b)
  else (if sgn then avxDivInt a b else avxDivUint avx2 a b)

/-- `Detail::add`, `sub`, `mul` of the AVX2 integer vectors (/repo/Vc/avx/detail.h:694-717). -/
def avxAdd (avx2 : Bool) (w : Nat) : M256 → M256 → M256 := avx2op avx2 (addEpi w) (addEpi w)
def avxSub (avx2 : Bool) (w : Nat) : M256 → M256 → M256 := avx2op avx2 (subEpi w) (subEpi w)
def avxMul (avx2 : Bool) (w : Nat) : M256 → M256 → M256 := avx2op avx2 (mulloEpi w) (mulloEpi w)

/-- `operator%`: `a - a / b * b` (/repo/Vc/avx/vector.tcc:137-142). -/
def avxMod (avx2 : Bool) (B : CmpBuild) (sgn : Bool) (w : Nat) (a b : M256) : M256 :=
  avxSub avx2 w a (avxMul avx2 w (avxDiv avx2 B sgn w a b) b)

end Vc.Model
