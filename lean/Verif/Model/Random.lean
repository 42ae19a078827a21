import Verif.Model.FloatOps

/-!
`Vector::Random()`: the generator state and the conversion to floating-point numbers.
-/

namespace Vc.Model

open Vc.Spec

/-- `Common::RandomState`, an array of 16 words (/repo/src/const.cpp:239-244); entry `k ≥ 16` stands for
memory behind the array. -/
abbrev RState := Nat → BitVec 32

/-- A vector load from the state array. -/
def rload {n : Nat} (s : RState) (off : Nat) : BitVec n := ofLanes 32 fun i => s (off + i)

/-- A vector store to the state array. -/
def rstore {n : Nat} (s : RState) (off : Nat) (v : BitVec n) : RState := fun k =>
  if off ≤ k ∧ k < off + n / 32 then lane 32 v (k - off) else s k

/-- Two state words read as uint64. -/
def rload64 (s : RState) (off : Nat) : BitVec 64 := s (off + 1) ++ s off

/-- Two state words written as uint64. -/
def rstore64 (s : RState) (off : Nat) (v : BitVec 64) : RState := fun k =>
  if k = off then v.setWidth 32 else if k = off + 1 then (v >>> 32).setWidth 32 else s k

/-- The SSE `_doRandomStep` (/repo/Vc/sse/vector.tcc:483-495): new state and `state0`. -/
def randomStepSse (I : Isa) (s : RState) : RState × M128 :=
  let state0 : M128 := rload s 0
  let state1 : M128 := rload s 4
  let s := rstore s 4 (addEpi 32 (vMul I 32 state1 (set1 32 0xdeece66d#32)) (set1 32 11#32))
  let s := rstore s 0
    (addEpi 32 (vMul I 32 state0 (set1 32 0xdeece66d#32)) (set1 32 11#32) ^^^ srliEpi 32 state1 16)
  (s, state0)

/-- The AVX2 `_doRandomStep` (/repo/Vc/avx/vector.tcc:667-674). -/
def randomStepAvx2 (s : RState) : RState × M256 :=
  let state0 : M256 := rload s 0
  let state1 : M256 := rload s 8
  let s := rstore s 8 (addEpi 32 (mulloEpi 32 state1 (set1 32 0xdeece66d#32)) (set1 32 11#32))
  let s := rstore s 0
    (addEpi 32 (mulloEpi 32 state0 (set1 32 0xdeece66d#32)) (set1 32 11#32) ^^^ srliEpi 32 state1 16)
  (s, state0)

/-- `AVX::concat` (/repo/Vc/avx/casts.h). -/
def concat128 (a b : M128) : M256 := b ++ a

/-- The AVX `_doRandomStep` without AVX2 (/repo/Vc/avx/vector.tcc:676-691). -/
def randomStepAvx (I : Isa) (s : RState) : RState × M256 :=
  let state0 : M128 := rload s 0
  let state1 : M128 := rload s 4
  let state2 : M128 := rload s 8
  let state3 : M128 := rload s 12
  let s := rstore s 8 (addEpi 32 (vMul I 32 state2 (set1 32 0xdeece66d#32)) (set1 32 11#32))
  let s := rstore s 12 (addEpi 32 (vMul I 32 state3 (set1 32 0xdeece66d#32)) (set1 32 11#32))
  let s := rstore s 0
    (addEpi 32 (vMul I 32 state0 (set1 32 0xdeece66d#32)) (set1 32 11#32) ^^^ srliEpi 32 state2 16)
  let s := rstore s 4
    (addEpi 32 (vMul I 32 state1 (set1 32 0xdeece66d#32)) (set1 32 11#32) ^^^ srliEpi 32 state3 16)
  (s, concat128 state0 state1)

/-- The scalar `_doRandomStep` (/repo/Vc/scalar/vector.tcc:137-149). -/
def randomStepScalar (s : RState) : RState × BitVec 32 :=
  let state0 : BitVec 32 := s 0
  let state1 : BitVec 32 := s 1
  let s : RState := fun k => if k = 1 then state1 * 0xdeece66d#32 + 11#32 else s k
  let s : RState := fun k => if k = 0 then (state0 * 0xdeece66d#32 + 11#32) ^^^ (state1 >>> 16) else s k
  (s, state0)

/-- `SSE::float_v::Random()` (/repo/Vc/sse/vector.tcc:504-509). -/
def randomFloatSse (I : Isa) (s : RState) : RState × M128 :=
  let r := randomStepSse I s
  (r.1, map2 32 (fSub f32) (srliEpi 32 r.2 2 ||| sseFloat.one) sseFloat.one)

/-- `SSE::double_v::Random()` (/repo/Vc/sse/vector.tcc:511-520). -/
def randomDoubleSse (s : RState) : RState × M128 :=
  let state0 := rload64 s 8
  let state1 := rload64 s 10
  let state : M128 := rload s 8
  let s := rstore64 s 8 (state0 * 0x5deece66d#64 + 11#64)
  let s := rstore64 s 10 (state1 * 0x5deece66d#64 + 11#64)
  (s, map2 64 (fSub f64) (srliEpi 64 state 12 ||| sseDouble.one) sseDouble.one)

/-- `AVX2::float_v::Random()` (/repo/Vc/avx/vector.tcc:702-706), with the `_doRandomStep` in use. -/
def randomFloatAvx (step : RState → RState × M256) (s : RState) : RState × M256 :=
  let r := step s
  (r.1, map2 32 (fSub f32) (srliEpi 32 r.2 2 ||| avxFloat.one) avxFloat.one)

/-- `AVX2::double_v::Random()` (/repo/Vc/avx/vector.tcc:708-718). -/
def randomDoubleAvx (s : RState) : RState × M256 :=
  let state : M256 := rload s 0
  let upd (s : RState) (k : Nat) : RState := rstore64 s k (rload64 s k * 0x5deece66d#64 + 11#64)
  (upd (upd (upd (upd s 0) 2) 4) 6, map2 64 (fSub f64) (srliEpi 64 state 12 ||| avxDouble.one) avxDouble.one)

/-- `Scalar::float_v::Random()` (/repo/Vc/scalar/vector.tcc:157-164). -/
def randomFloatScalar (s : RState) : RState × BitVec 32 :=
  let r := randomStepScalar s
  let x := (r.2 &&& 0x0fffffff#32) ||| 0x3f800000#32
  (r.1, fSub f32 x 0x3f800000#32)

/-- `Scalar::double_v::Random()` (/repo/Vc/scalar/vector.tcc:165-174). -/
def randomDoubleScalar (s : RState) : RState × BitVec 64 :=
  let state0 := rload64 s 8
  let state0 := (state0 * 0x5deece66d#64 + 11#64) &&& 0x000fffffffffffff#64
  let s := rstore64 s 8 state0
  let x := state0 ||| 0x3ff0000000000000#64
  (s, fSub f64 x 0x3ff0000000000000#64)

/-- A call of one of the `Random()` functions; `uint` stands for all integer vectors. -/
inductive RCall where
  | scalarUint | scalarFloat | scalarDouble
  | sseUint (I : Isa) | sseFloat (I : Isa) | sseDouble
  | avx2Uint | avx2Float | avxFloat (I : Isa) | avxDouble

/-- The entries a call returns. -/
inductive ROut where
  | uint (v : List (BitVec 32))
  | float (v : List (BitVec 32))
  | double (v : List (BitVec 64))

/-- The first `c` lanes of a register. -/
def lanes {n : Nat} (w c : Nat) (x : BitVec n) : List (BitVec w) := (List.range c).map (lane w x)

/-- One call. -/
def rcall (s : RState) : RCall → RState × ROut
  | .scalarUint => let r := randomStepScalar s; (r.1, .uint [r.2])
  | .scalarFloat => let r := randomFloatScalar s; (r.1, .float [r.2])
  | .scalarDouble => let r := randomDoubleScalar s; (r.1, .double [r.2])
  | .sseUint I => let r := randomStepSse I s; (r.1, .uint (lanes 32 4 r.2))
  | .sseFloat I => let r := randomFloatSse I s; (r.1, .float (lanes 32 4 r.2))
  | .sseDouble => let r := randomDoubleSse s; (r.1, .double (lanes 64 2 r.2))
  | .avx2Uint => let r := randomStepAvx2 s; (r.1, .uint (lanes 32 8 r.2))
  | .avx2Float => let r := randomFloatAvx randomStepAvx2 s; (r.1, .float (lanes 32 8 r.2))
  | .avxFloat I => let r := randomFloatAvx (randomStepAvx I) s; (r.1, .float (lanes 32 8 r.2))
  | .avxDouble => let r := randomDoubleAvx s; (r.1, .double (lanes 64 4 r.2))

/-- A program that makes calls one after the other: the final state and all results. -/
def rrun (s : RState) : List RCall → RState × List ROut
  | [] => (s, [])
  | c :: cs => let r := rcall s c; let q := rrun r.1 cs; (q.1, r.2 :: q.2)

end Vc.Model
