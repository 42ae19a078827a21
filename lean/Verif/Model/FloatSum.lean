import Verif.Model.AvxInt
import Verif.Model.Recip
import Verif.Model.SimdArrayOps

/-!
Sums and products of the entries of floating-point vectors.  `sum()` and `product()` of float_v and double_v are
`hSumPs`, `hSumPd` (SSE), `aHReducePs` and `aHReducePd` (AVX) with the addition or multiplication of the entries.
-/

namespace Vc.Model
open Vc.Spec Vc.Lemma

/-- `float_v::sum(m)` (/repo/Vc/sse/vector.tcc:444-449). -/
def sumMaskedPs (I : Isa) (x m : M128) : BitVec 32 := hSumPs (fAdd f32) (vAssign I 32 0#128 x m)

/-- `double_v::sum(m)` (/repo/Vc/sse/vector.tcc:444-449). -/
def sumMaskedPd (I : Isa) (x m : M128) : BitVec 64 := hSumPd (fAdd f64) (vAssign I 64 0#128 x m)

/-- `float_v::product(m)` (/repo/Vc/sse/vector.tcc:438-443). -/
def productMaskedPs (I : Isa) (x m : M128) : BitVec 32 :=
  hSumPs (fMul f32) (vAssign I 32 (set1 32 (oneBits f32 32)) x m)

/-- `double_v::product(m)` (/repo/Vc/sse/vector.tcc:438-443). -/
def productMaskedPd (I : Isa) (x m : M128) : BitVec 64 :=
  hSumPd (fMul f64) (vAssign I 64 (set1 64 (oneBits f64 64)) x m)

/-- `float_v::sum(m)` (/repo/Vc/avx/vector.tcc:619-624). -/
def aSumMaskedPs (x m : M256) : BitVec 32 := aHReducePs (fAdd f32) (avxAssign true 32 0#256 x m)

/-- `double_v::sum(m)` (/repo/Vc/avx/vector.tcc:619-624). -/
def aSumMaskedPd (x m : M256) : BitVec 64 := aHReducePd (fAdd f64) (avxAssign true 64 0#256 x m)

/-- `float_v::product(m)` (/repo/Vc/avx/vector.tcc:613-618). -/
def aProductMaskedPs (x m : M256) : BitVec 32 :=
  aHReducePs (fMul f32) (avxAssign true 32 (set1 32 (oneBits f32 32)) x m)

/-- `double_v::product(m)` (/repo/Vc/avx/vector.tcc:613-618). -/
def aProductMaskedPd (x m : M256) : BitVec 64 :=
  aHReducePd (fMul f64) (avxAssign true 64 (set1 64 (oneBits f64 64)) x m)

/-- `sum(m)` of the scalar vector (/repo/Vc/scalar/vector.h:243). -/
def sSumMasked {w : Nat} (x : BitVec w) (m : Bool) : BitVec w := if m then x else 0#w

/-- `product(m)` of the scalar vector (/repo/Vc/scalar/vector.h:236-242). -/
def sProductMasked (F : Fmt) {w : Nat} (x : BitVec w) (m : Bool) : BitVec w := if m then x else oneBits F w

/-- `sum()`, `product()` of a SimdArray (/repo/Vc/common/simdarray.h:412-424, 1062-1082), where `nat` is the reduction of
a native vector: the halves of equal size are combined first, other halves are reduced and combined. -/
def SA.reduceBy {α : Type} (nat : List α → Option α) (C : Cfg) (op : α → α → α) (n : Nat) (x : SA α) : Option α :=
  match x with
  | .atom l => if C.atomic n then nat l else none
  | .node a b =>
    if C.atomic n then none
    else if _h : 2 ≤ n then
      if leftSize n = rightSize n then do
        let c ← a.zipWith op b
        reduceBy nat C op (leftSize n) c
      else do
        let r0 ← reduceBy nat C op (leftSize n) a
        let r1 ← reduceBy nat C op (rightSize n) b
        return op r0 r1
    else none
termination_by n
decreasing_by
  all_goals first
    | exact leftSize_lt _h
    | exact rightSize_lt _h

end Vc.Model
