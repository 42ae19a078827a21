import Verif.Model.Asin

/-!
`rsqrt` and `reciprocal` of `double_v`, and of all floating-point vectors of the `Scalar` implementation.

`float_v` of SSE and AVX uses the instructions `rsqrtps` and `rcpps`, which are approximations and differ between
processors; they are not modelled.
-/

namespace Vc.Model

open Vc.Spec

/-- The number 1 (`one()`, or `EntryType one = 1`). -/
def oneBits (F : Fmt) (w : Nat) : BitVec w := mkFloat F w false ((2 ^ (F.e - 1) - 1) * 2 ^ F.m)

/-- `reciprocal` of `double_v` (/repo/Vc/sse/vectorhelper.h:175-177, /repo/Vc/avx/vectorhelper.h:139-141). -/
def vReciprocal {n : Nat} (x : BitVec n) : BitVec n := map2 64 (fDiv f64) (set1 64 (oneBits f64 64)) x

/-- `rsqrt` of `double_v` (/repo/Vc/sse/vectorhelper.h:172-174, /repo/Vc/avx/vectorhelper.h:136-138). -/
def vRsqrt {n : Nat} (x : BitVec n) : BitVec n := map2 64 (fDiv f64) (set1 64 (oneBits f64 64)) (vSqrt f64 64 x)

/-- `reciprocal` of `Scalar::Vector` (/repo/Vc/scalar/math.h:206-209). -/
def sReciprocal (F : Fmt) {w : Nat} (x : BitVec w) : BitVec w := fDiv F (oneBits F w) x

/-- `rsqrt` of `Scalar::Vector` (/repo/Vc/scalar/math.h:80-83); `std::sqrt` is assumed to be the correctly rounded root, as
IEEE-754 requires. -/
def sRsqrt (F : Fmt) {w : Nat} (x : BitVec w) : BitVec w := fDiv F (oneBits F w) (fSqrt F x)

end Vc.Model
