import Verif.Model.Masked

/-!
`Vc::fma`, compiled without FMA instructions.  (With `Vc_IMPL_FMA4`, and on AVX with `Vc_IMPL_FMA`, it is a single
instruction; SSE does not look at `Vc_IMPL_FMA`.)
-/

namespace Vc.Model

open Vc.Spec

/-- One product and sum in double precision. -/
def mulAddPd {n : Nat} (a b c : BitVec n) : BitVec n := map2 64 (fAdd f64) (map2 64 (fMul f64) a b) c

/-- `fma` of SSE::float_v (/repo/Vc/sse/vectorhelper.h:237-247). -/
def sseFmaPs (v1 v2 v3 : M128) : M128 :=
  let v1_0 := cvtpsPd v1
  let v1_1 := cvtpsPd (movehl v1 v1)
  let v2_0 := cvtpsPd v2
  let v2_1 := cvtpsPd (movehl v2 v2)
  let v3_0 := cvtpsPd v3
  let v3_1 := cvtpsPd (movehl v3 v3)
  movelh (cvtpdPs (mulAddPd v1_0 v2_0 v3_0)) (cvtpdPs (mulAddPd v1_1 v2_1 v3_1))

/-- `fma` of AVX::float_v (/repo/Vc/avx/detail.h:846-856). -/
def avxFmaPs (a b c : M256) : M256 :=
  let v1_0 := cvtpsPd256 (lo128 a)
  let v1_1 := cvtpsPd256 (hi128 a)
  let v2_0 := cvtpsPd256 (lo128 b)
  let v2_1 := cvtpsPd256 (hi128 b)
  let v3_0 := cvtpsPd256 (lo128 c)
  let v3_1 := cvtpsPd256 (hi128 c)
  concat128 (cvtpdPs256 (mulAddPd v1_0 v2_0 v3_0)) (cvtpdPs256 (mulAddPd v1_1 v2_1 v3_1))

/-- `c_general::highMaskDouble` (/repo/src/const.cpp:175,286). -/
def highMaskDouble : BitVec 64 := 0xfffffffff8000000#64

/-- `fma` of SSE::double_v (`blend := blendv_pd`, /repo/Vc/sse/vectorhelper.h:148-167) and of AVX::double_v
(`blend := _mm256_blendv_pd`, /repo/Vc/avx/detail.h:866-881). -/
def fmaPd {n : Nat} (K : FConst n) (blend : BitVec n → BitVec n → BitVec n → BitVec n) (v1 v2 v3 : BitVec n) :
    BitVec n :=
  let h1 := v1 &&& set1 64 highMaskDouble
  let h2 := v2 &&& set1 64 highMaskDouble
  let l1 := map2 64 (fSub f64) v1 h1
  let l2 := map2 64 (fSub f64) v2 h2
  let ll := map2 64 (fMul f64) l1 l2
  let lh := map2 64 (fAdd f64) (map2 64 (fMul f64) l1 h2) (map2 64 (fMul f64) h1 l2)
  let hh := map2 64 (fMul f64) h1 h2
  let lh_lt_v3 := vFLt f64 64 (vFAbs K lh) (vFAbs K v3)
  let b := blend v3 lh lh_lt_v3
  let c := blend lh v3 lh_lt_v3
  map2 64 (fAdd f64) (map2 64 (fAdd f64) ll b) (map2 64 (fAdd f64) c hh)

def sseFmaPd (I : Isa) : M128 → M128 → M128 → M128 := fmaPd sseDouble (blendv I 64)
def avxFmaPd : M256 → M256 → M256 → M256 := fmaPd avxDouble (blendvIntr 64)

/-- `fma` of the SSE integer vectors (/repo/Vc/sse/vectorhelper.h:316,405,473-474,569). -/
def sseFmaInt (I : Isa) (w : Nat) (a b c : M128) : M128 := addEpi w (vMul I w a b) c

/-- `fma` of the AVX2 integer vectors (/repo/Vc/avx/detail.h:884-887). -/
def avxFmaInt (avx2 : Bool) (w : Nat) (a b c : M256) : M256 := avxAdd avx2 w (avxMul avx2 w a b) c

end Vc.Model
