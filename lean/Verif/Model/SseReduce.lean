import Verif.Model.SseShuffle
import Verif.Model.SseMask
import Verif.Model.Float

/-!
Reductions of the SSE vectors: `min()`, `max()`, `sum()`, `product()`, with and without mask, and
`partialSum()`.
-/

namespace Vc.Model

open Vc.Spec

/-- Horizontal `min`, `max`, `add` and (with SSE4.1) `mul` of int_v and uint_v with the two-operand
version `op` (/repo/Vc/sse/vectorhelper.h:327-350, 380-403). -/
def hReduce32 (op : M128 → M128 → M128) (a : M128) : BitVec 32 :=
  let a := op a (shuffleEpi32 a (mmShuffle 1 0 3 2))
  let a := op a (shuffleloEpi16 a (mmShuffle 1 0 3 2))
  lane 32 a 0

/-- Horizontal `min`, `max`, `add` and `mul` of short_v and ushort_v
(/repo/Vc/sse/vectorhelper.h:480-506, 575-602); the conversion to the entry type keeps the low 16 bit. -/
def hReduce16 (op : M128 → M128 → M128) (a : M128) : BitVec 16 :=
  let a := op a (shuffleEpi32 a (mmShuffle 1 0 3 2))
  let a := op a (shuffleloEpi16 a (mmShuffle 1 0 3 2))
  let a := op a (shuffleloEpi16 a (mmShuffle 1 1 1 1))
  lane 16 a 0

/-- The reductions of the integer vectors by entry width. -/
def hReduce (w : Nat) (op : M128 → M128 → M128) (a : M128) : BitVec w :=
  if w = 32 then (hReduce32 op a).setWidth w else (hReduce16 op a).setWidth w

/-- `min()` (/repo/Vc/sse/vector.h:348). -/
def vHMin (I : Isa) (sgn : Bool) (w : Nat) (a : M128) : BitVec w := hReduce w (vMin I sgn w) a

/-- `max()` (/repo/Vc/sse/vector.h:349). -/
def vHMax (I : Isa) (sgn : Bool) (w : Nat) (a : M128) : BitVec w := hReduce w (vMax I sgn w) a

/-- `sum()` (/repo/Vc/sse/vector.h:351). -/
def vHSum (w : Nat) (a : M128) : BitVec w := hReduce w (addEpi w) a

/-- A product of two `int`; `none` if it overflows. -/
def mulInt (a b : BitVec 32) : Option (BitVec 32) :=
  if -2 ^ 31 ≤ a.toInt * b.toInt ∧ a.toInt * b.toInt < 2 ^ 31 then some (a * b) else none

/-- `product()` (/repo/Vc/sse/vector.h:350); int_v and uint_v without SSE4.1:
/repo/Vc/sse/vector.tcc:415-425, where the products of `int` may overflow (`none`). -/
def vHProduct (I : Isa) (sgn : Bool) (w : Nat) (a : M128) : Option (BitVec w) :=
  if w = 32 ∧ I.sse41 = false then
    if sgn then do
      let p ← mulInt (lane 32 a 0) (lane 32 a 1)
      let q ← mulInt (lane 32 a 2) (lane 32 a 3)
      let r ← mulInt p q
      pure (r.setWidth w)
    else some (((lane 32 a 0 * lane 32 a 1) * (lane 32 a 2 * lane 32 a 3)).setWidth w)
  else some (hReduce w (vMul I w) a)

/-- `numeric_limits<V>::max()` of the integer vectors (/repo/Vc/sse/limits.h:37-83). -/
def vLimitMax (sgn : Bool) (w : Nat) : M128 :=
  if sgn then srliEpi w (BitVec.allOnes 128) 1 else BitVec.allOnes 128

/-- `numeric_limits<V>::min()` of the integer vectors (/repo/Vc/sse/limits.h:37-83). -/
def vLimitMin (sgn : Bool) (w : Nat) : M128 := if sgn then setmin w else 0#128

/-- `tmp(m) = x` (/repo/Vc/sse/vector.h:322-325): `HV::blend`, which is `blendv_ps`, `blendv_pd` or
`blendv_epi8` by entry type (`w = 32`, `64`, `8`). -/
def vAssign (I : Isa) (w : Nat) (tmp x m : M128) : M128 := blendv I w tmp x m

/-- `min(m)` of the integer vectors (/repo/Vc/sse/vector.tcc:426-431). -/
def vHMinMasked (I : Isa) (sgn : Bool) (w : Nat) (x m : M128) : BitVec w :=
  vHMin I sgn w (vAssign I 8 (vLimitMax sgn w) x m)

/-- `max(m)` of the integer vectors (/repo/Vc/sse/vector.tcc:432-437). -/
def vHMaxMasked (I : Isa) (sgn : Bool) (w : Nat) (x m : M128) : BitVec w :=
  vHMax I sgn w (vAssign I 8 (vLimitMin sgn w) x m)

/-- `product(m)` of the integer vectors (/repo/Vc/sse/vector.tcc:438-443). -/
def vHProductMasked (I : Isa) (sgn : Bool) (w : Nat) (x m : M128) : Option (BitVec w) :=
  vHProduct I sgn w (vAssign I 8 (set1 w 1#w) x m)

/-- `sum(m)` of the integer vectors (/repo/Vc/sse/vector.tcc:444-449). -/
def vHSumMasked (I : Isa) (w : Nat) (x m : M128) : BitVec w :=
  vHSum w (vAssign I 8 0#128 x m)

/-- Horizontal `min`, `max` of float_v (/repo/Vc/sse/vectorhelper.h:270-279); the `_ss` instruction works
on lane 0. -/
def hReducePs (op : BitVec 32 → BitVec 32 → BitVec 32) (a : M128) : BitVec 32 :=
  let a := map2 32 op a (movehl a a)
  op (lane 32 a 0) (lane 32 (shufflePs a a (mmShuffle 1 1 1 1)) 0)

/-- Horizontal `add`, `mul` of float_v (/repo/Vc/sse/vectorhelper.h:280-289). -/
def hSumPs (op : BitVec 32 → BitVec 32 → BitVec 32) (a : M128) : BitVec 32 :=
  let a := map2 32 op a (shufflePs a a (mmShuffle 0 1 2 3))
  op (lane 32 a 0) (lane 32 (shufflePs a a (mmShuffle 3 2 0 1)) 0)

/-- Horizontal `min`, `max` of double_v (/repo/Vc/sse/vectorhelper.h:192-199). -/
def hReducePd (op : BitVec 64 → BitVec 64 → BitVec 64) (a : M128) : BitVec 64 :=
  op (lane 64 a 0) (lane 64 (unpackhi 64 a a) 0)

/-- Horizontal `add`, `mul` of double_v (/repo/Vc/sse/vectorhelper.h:200-207). -/
def hSumPd (op : BitVec 64 → BitVec 64 → BitVec 64) (a : M128) : BitVec 64 :=
  op (lane 64 a 0) (lane 64 (shufflePd a a 1) 0)

/-- `numeric_limits<float_v>::max()` and `min()`: there is no specialization in
/repo/Vc/sse/limits.h; the one in /repo/Vc/limits:38-52 (`included`) takes `numeric_limits<float>`, otherwise the
primary template of the standard library returns a value-initialized vector, which is zero. -/
def fLimitMax (F : Fmt) (w : Nat) (included : Bool) : M128 :=
  if included then set1 w (mkFloat F w false (infMag F - 1)) else 0#128

def fLimitMin (F : Fmt) (w : Nat) (included : Bool) : M128 :=
  if included then set1 w (mkFloat F w false (2 ^ F.m)) else 0#128

/-- `float_v::min(m)` (/repo/Vc/sse/vector.tcc:426-431). -/
def minMaskedPs (I : Isa) (included : Bool) (x m : M128) : BitVec 32 :=
  hReducePs (fMin f32) (vAssign I 32 (fLimitMax f32 32 included) x m)

/-- `double_v::min(m)` (/repo/Vc/sse/vector.tcc:426-431). -/
def minMaskedPd (I : Isa) (included : Bool) (x m : M128) : BitVec 64 :=
  hReducePd (fMin f64) (vAssign I 64 (fLimitMax f64 64 included) x m)

/-- `float_v::max(m)` (/repo/Vc/sse/vector.tcc:432-437). -/
def maxMaskedPs (I : Isa) (included : Bool) (x m : M128) : BitVec 32 :=
  hReducePs (fMax f32) (vAssign I 32 (fLimitMin f32 32 included) x m)

/-- `double_v::max(m)` (/repo/Vc/sse/vector.tcc:432-437). -/
def maxMaskedPd (I : Isa) (included : Bool) (x m : M128) : BitVec 64 :=
  hReducePd (fMax f64) (vAssign I 64 (fLimitMin f64 64 included) x m)

end Vc.Model
