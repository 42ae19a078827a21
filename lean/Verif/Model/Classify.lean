import Verif.Model.Reg
import Verif.Model.SimdArray
import Verif.Spec.Float

/-!
# fpclassify (Vc/common/math.h:39-50)

`std::fpclassify` belongs to the C library; it is described by the fields of the number. The constants are
those of the GNU C library (FP_NAN, FP_INFINITE, FP_ZERO, FP_SUBNORMAL, FP_NORMAL).
-/

namespace Vc.Model
open Vc.Spec (Fmt)

def fpNan : Nat := 0
def fpInfinite : Nat := 1
def fpZero : Nat := 2
def fpSubnormal : Nat := 3
def fpNormal : Nat := 4

/-- `std::fpclassify` (C library). -/
def stdFpclassify (F : Fmt) {w : Nat} (x : BitVec w) : Nat :=
  let mant := x.toNat % 2 ^ F.m
  let expo := x.toNat / 2 ^ F.m % 2 ^ F.e
  if expo = 2 ^ F.e - 1 then (if mant = 0 then fpInfinite else fpNan)
  else if expo = 0 then (if mant = 0 then fpZero else fpSubnormal)
  else fpNormal

/-- `fpclassify(const Vector<T, Abi> &)`: the generator constructor of `SimdArray<int, size()>`
(/repo/Vc/common/math.h:41-46). -/
def vFpclassify (CI : Cfg) (F : Fmt) {n : Nat} (w : Nat) (x : BitVec n) : Option (SA Nat) :=
  SA.gen CI (n / w) fun i => some (stdFpclassify F (lane w x i))

/-- `fpclassify(const SimdArray<T, N> &)` (/repo/Vc/common/math.h:47-50); `C` are the sizes for `T`, `CI` those
for `int`. -/
def SA.fpclassify (C CI : Cfg) (F : Fmt) {w : Nat} (n : Nat) (x : SA (BitVec w)) : Option (SA Nat) :=
  SA.gen CI n fun i => (x.get C (i : Int)).map (stdFpclassify F)

end Vc.Model
