import Verif.Model.AvxDiv
import Verif.Spec.IntOp

/-!
Operators of the native vectors and masked compound assignment: `x(mask) op= y` and `where(mask) | x op= y`.

Undefined behaviour (a trapping division, a shift count out of range) is the outcome `none`.
-/

namespace Vc.Model

open Vc.Spec

/-- `generate` with a function that can be undefined: it is called for every lane
(/repo/Vc/sse/vector.tcc:645-698, /repo/Vc/avx/vector.tcc:147-200). -/
def generate {n : Nat} (w : Nat) (g : Nat → Option (BitVec w)) : Option (BitVec n) :=
  if (List.range (n / w)).all (fun i => (g i).isSome) then some (ofLanes w fun i => (g i).getD 0) else none

/-- `a << b` and `a >> b` of two entries, after promotion to `int`; undefined if the count is negative or at
least 32. -/
def shlLane (sgn : Bool) {w : Nat} (a b : BitVec w) : Option (BitVec w) :=
  if 0 ≤ val sgn b ∧ val sgn b < 32 then some (a <<< (val sgn b).toNat) else none
def shrLane (sgn : Bool) {w : Nat} (a b : BitVec w) : Option (BitVec w) :=
  if 0 ≤ val sgn b ∧ val sgn b < 32 then
    some (if sgn then a.sshiftRight (val sgn b).toNat else a >>> (val sgn b).toNat) else none

/-- `_mm_sllv_epi32`, `_mm_srav_epi32`, `_mm_srlv_epi32` (AVX2): counts are unsigned, from 32 on everything is
shifted out. -/
def sllvEpi32 {n : Nat} : BitVec n → BitVec n → BitVec n := map2 32 fun a b => a <<< b.toNat
def sravEpi32 {n : Nat} : BitVec n → BitVec n → BitVec n := map2 32 fun a b => a.sshiftRight b.toNat
def srlvEpi32 {n : Nat} : BitVec n → BitVec n → BitVec n := map2 32 fun a b => a >>> b.toNat

/-- The operators of the SSE integer vectors (/repo/Vc/sse/vector.tcc:110-165); vector shifts
/repo/Vc/sse/vector.h:307-308, with AVX2 /repo/Vc/sse/vector.tcc:290-293 (the variant for XOP is not modelled);
shifts by an `int` /repo/Vc/sse/vector.tcc:298-313, /repo/Vc/sse/vectorhelper.h:318-323,431-436,461-466,562-567. -/
def sseIntOp (I : Isa) (avx2 sgn : Bool) (w : Nat) (op : IntOp) (x y : M128) : Option M128 :=
  match op with
  | .add => some (addEpi w x y)
  | .sub => some (subEpi w x y)
  | .mul => some (vMul I w x y)
  | .div => if w = 16 then some (vDiv16 I sgn x y) else vDiv32 sgn x y
  | .mod => if w = 16 then some (vMod16 I sgn x y) else vMod32 I sgn x y
  | .and => some (x &&& y)
  | .or => some (x ||| y)
  | .xor => some (x ^^^ y)
  | .shl => if avx2 ∧ w = 32 then some (sllvEpi32 x y) else generate w fun i => shlLane sgn (lane w x i) (lane w y i)
  | .shr =>
    if avx2 ∧ w = 32 then some (if sgn then sravEpi32 x y else srlvEpi32 x y)
    else generate w fun i => shrLane sgn (lane w x i) (lane w y i)
  | .shlBy k => some (slliEpi w x k)
  | .shrBy k => some (if sgn then sraiEpi w x k else srliEpi w x k)

/-- The operators of the AVX2 integer vectors (/repo/Vc/avx/vector.tcc:80-145, shifts 336-385,
/repo/Vc/avx/detail.h:625-660,888-916). -/
def avxIntOp (avx2 : Bool) (B : CmpBuild) (sgn : Bool) (w : Nat) (op : IntOp) (x y : M256) : Option M256 :=
  match op with
  | .add => some (avxAdd avx2 w x y)
  | .sub => some (avxSub avx2 w x y)
  | .mul => some (avxMul avx2 w x y)
  | .div => some (avxDiv avx2 B sgn w x y)
  | .mod => some (avxMod avx2 B sgn w x y)
  | .and => some (x &&& y)
  | .or => some (x ||| y)
  | .xor => some (x ^^^ y)
  | .shl => if w = 32 then some (sllvEpi32 x y) else generate w fun i => shlLane sgn (lane w x i) (lane w y i)
  | .shr =>
    if w = 32 then some (if sgn then sravEpi32 x y else srlvEpi32 x y)
    else generate w fun i => shrLane sgn (lane w x i) (lane w y i)
  | .shlBy k => some (avx1 avx2 (slliEpi w · k) (slliEpi w · k) x)
  | .shrBy k =>
    some (if sgn then avx1 avx2 (sraiEpi w · k) (sraiEpi w · k) x else avx1 avx2 (srliEpi w · k) (srliEpi w · k) x)

/-- `Vector<T, Sse>::assign` (/repo/Vc/sse/vector.h:322-325); the mask is looked at in steps of `v` bits: 8 for
the integer vectors, the entry size for float_v and double_v (/repo/Vc/sse/vectorhelper.h:64,86,107). -/
def sseAssign (I : Isa) (v : Nat) (x y m : M128) : M128 := blendv I v x y m

/-- `AVX::blendv_epi8` (/repo/Vc/avx/intrinsics.h:406-413,426-429). -/
def avxBlendv8 (avx2 : Bool) (x y m : M256) : M256 :=
  if avx2 then blendvIntr 8 x y m
  else concat128 (blendvIntr 8 (lo128 x) (lo128 y) (lo128 m)) (blendvIntr 8 (hi128 x) (hi128 y) (hi128 m))

/-- `Vector<T, Avx>::assign` (/repo/Vc/avx/vector.h:389-391, /repo/Vc/avx/detail.h:680-683). -/
def avxAssign (avx2 : Bool) (v : Nat) (x y m : M256) : M256 :=
  if v = 8 then avxBlendv8 avx2 x y m else blendvIntr v x y m

/-- `x(mask) op= y` (/repo/Vc/common/writemaskedvector.h:82-97): first the operation on the whole vector, then
the masked assignment.  `where(mask) | x op= y` does the same (/repo/Vc/sse/vector.h:462-482,
/repo/Vc/avx/vector.h:505-526). -/
def sseMasked (I : Isa) (avx2 sgn : Bool) (w : Nat) (op : IntOp) (x y m : M128) : Option M128 := do
  let r ← sseIntOp I avx2 sgn w op x y
  pure (sseAssign I 8 x r m)
def avxMasked (avx2 : Bool) (B : CmpBuild) (sgn : Bool) (w : Nat) (op : IntOp) (x y m : M256) : Option M256 := do
  let r ← avxIntOp avx2 B sgn w op x y
  pure (avxAssign avx2 8 x r m)

/-- `++x(mask)`, `x(mask)++` and `--x(mask)`, `x(mask)--` of the integer vectors
(/repo/Vc/common/writemaskedvector.h:55-81): the one is cleared in the inactive lanes
(/repo/Vc/sse/vector.tcc:234-237, /repo/Vc/avx/vector.tcc:291-294). -/
def sseIncr (w : Nat) (x m : M128) : M128 := addEpi w x (m &&& set1 w 1)
def sseDecr (w : Nat) (x m : M128) : M128 := subEpi w x (m &&& set1 w 1)
def avxIncr (avx2 : Bool) (w : Nat) (x m : M256) : M256 := avxAdd avx2 w x (m &&& set1 w 1)
def avxDecr (avx2 : Bool) (w : Nat) (x m : M256) : M256 := avxSub avx2 w x (m &&& set1 w 1)

/-- `++x(mask)` and `--x(mask)` of float_v and double_v. -/
def fIncr {n : Nat} (K : FConst n) (F : Fmt) (w : Nat) (x m : BitVec n) : BitVec n := map2 w (fAdd F) x (m &&& K.one)
def fDecr {n : Nat} (K : FConst n) (F : Fmt) (w : Nat) (x m : BitVec n) : BitVec n := map2 w (fSub F) x (m &&& K.one)

/-- The arithmetic operators of float_v and double_v (/repo/Vc/sse/vector.tcc:125-137,
/repo/Vc/avx/detail.h:694-721). -/
inductive FloatOp where
  | add | sub | mul | div

def FloatOp.lane (op : FloatOp) (F : Fmt) {w : Nat} : BitVec w → BitVec w → BitVec w :=
  match op with
  | .add => fAdd F
  | .sub => fSub F
  | .mul => fMul F
  | .div => fDiv F

/-- `x(mask) op= y` of float_v and double_v. -/
def sseFloatMasked (I : Isa) (F : Fmt) (w : Nat) (op : FloatOp) (x y m : M128) : M128 :=
  sseAssign I w x (map2 w (op.lane F) x y) m
def avxFloatMasked (avx2 : Bool) (F : Fmt) (w : Nat) (op : FloatOp) (x y m : M256) : M256 :=
  avxAssign avx2 w x (map2 w (op.lane F) x y) m

/-- An operator on two entries in C++ (/repo/Vc/scalar/operators.h:74-99, /repo/Vc/scalar/vector.h:195-198).
`int` overflows are undefined, too; entries of 16 bits are promoted. -/
def scalarIntOp (sgn : Bool) {w : Nat} (op : IntOp) (a b : BitVec w) : Option (BitVec w) :=
  let fits (n : Int) : Option (BitVec w) :=
    if sgn ∧ w = 32 ∧ ¬(-2147483648 ≤ n ∧ n < 2147483648) then none else some (BitVec.ofInt w n)
  match op with
  | .add => fits (val sgn a + val sgn b)
  | .sub => fits (val sgn a - val sgn b)
  | .mul => fits (val sgn a * val sgn b)
  | .div => if val sgn b = 0 then none else fits ((val sgn a).tdiv (val sgn b))
  | .mod => if val sgn b = 0 then none else (fits ((val sgn a).tdiv (val sgn b))).map fun _ =>
      BitVec.ofInt w ((val sgn a).tmod (val sgn b))
  | .and => some (a &&& b)
  | .or => some (a ||| b)
  | .xor => some (a ^^^ b)
  | .shl => shlLane sgn a b
  | .shr => shrLane sgn a b
  | .shlBy k => if k < 32 then some (a <<< k) else none
  | .shrBy k => if k < 32 then some (if sgn then a.sshiftRight k else a >>> k) else none

/-- `x(mask) op= y` of the Scalar vectors: the common WriteMaskedVector (/repo/Vc/scalar/vector.h:206-208,224). -/
def scalarMasked (sgn : Bool) {w : Nat} (op : IntOp) (x y : BitVec w) (m : Bool) : Option (BitVec w) := do
  let r ← scalarIntOp sgn op x y
  pure (if m then r else x)

/-- `where(mask) | x op= y` of the Scalar vectors (/repo/Vc/scalar/vector.h:320-340) and with a bool as mask
(/repo/Vc/common/where.h:150-180): nothing is evaluated if the mask is not set. -/
def scalarWhere (sgn : Bool) {w : Nat} (op : IntOp) (x y : BitVec w) (m : Bool) : Option (BitVec w) :=
  if m then scalarIntOp sgn op x y else some x

end Vc.Model
