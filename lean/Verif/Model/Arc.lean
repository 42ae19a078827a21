import Verif.Model.Trig

/-!
`atan` and `atan2` of the floating-point vectors.

The `Scalar` versions call the C library and are not modelled.  As in `Exp`, every operator is one correctly rounded
operation.  The code has no branches, so it is written in an arithmetic that is that of a vector or of one number
(`Verif/Lemma/ArcLane.lean`).
-/

namespace Vc.Model

open Vc.Spec

/-- The operations the code uses: `α` are the vectors and `μ` the masks. -/
structure ArcOps (w : Nat) (α μ : Type) extends Arith w α where
  abs : α → α
  neg : α → α
  copysign : α → α → α
  lt : α → α → μ
  gt : α → α → μ
  ge : α → α → μ
  eq : α → α → μ
  isnan : α → μ
  isfinite : α → μ
  isneg : α → μ
  notM : μ → μ
  andM : μ → μ → μ
  orM : μ → μ → μ
  set : α → μ → α → α      -- `x(mask) = y`
  setZero : α → μ → α
  setQnan : α → μ → α
  xorNot : α → α → α       -- `x ^ ~y`

/-- What differs between the vector types: the constants, how `>` and `>=` compare, `isnegative` and the masked
assignment. -/
structure ArcEnv (n : Nat) where
  K : FConst n
  B : CmpBuild
  isneg : BitVec n → BitVec n
  blend : BitVec n → BitVec n → BitVec n → BitVec n

/-- Vectors; `setZero` and `setQnan` are /repo/Vc/sse/vector.tcc:229-232,243-254 and
/repo/Vc/avx/vector.tcc:287-290,300-311. -/
def vArc {n : Nat} (E : ArcEnv n) (F : Fmt) (w : Nat) : ArcOps w (BitVec n) (BitVec n) where
  toArith := vArith F w n
  abs := vFAbs E.K
  neg := vFNegate E.K
  copysign := vCopysign E.K
  lt := vFLt F w
  gt := vFGt E.B F w
  ge := vFGe E.B F w
  eq := vFEq F w
  isnan := vIsNaN F w
  isfinite := vIsFinite F w
  isneg := E.isneg
  notM k := ~~~k
  andM a b := a &&& b
  orM a b := a ||| b
  set x k y := E.blend x y k
  setZero x k := andnot k x
  setQnan x k := x ||| k
  xorNot x y := x ^^^ ~~~y

section
variable {α μ : Type}

/-- `atan` of float (/repo/src/trigonometric.cpp:476-505, /repo/src/const.cpp:112,122,125-128,136-137). -/
def atanF (O : ArcOps 32 α μ) (v : α) : α :=
  let x := O.abs v
  let hi := O.gt x (O.c 0x401a827a#32)
  let lo := O.andM (O.gt x (O.c 0x3ed413cd#32)) (O.notM hi)
  let y := O.c 0#32
  let y := O.set y hi (O.c 0x3fc90fdb#32)
  let y := O.set y lo (O.c 0x3f490fdb#32)
  let x := O.set x hi (O.div (O.neg (O.c 0x3f800000#32)) x)
  let x := O.set x lo (O.div (O.sub x (O.c 0x3f800000#32)) (O.add x (O.c 0x3f800000#32)))
  let x2 := O.mul x x
  let p := O.sub (O.mul (O.c 0x3da4f0d1#32) x2) (O.c 0x3e0e1b85#32)
  let p := O.add (O.mul p x2) (O.c 0x3e4c925f#32)
  let p := O.sub (O.mul p x2) (O.c 0x3eaaaa2a#32)
  let y := O.add y (O.add (O.mul (O.mul p x2) x) x)
  let y := O.set y (O.lt v (O.c 0#32)) (O.neg y)
  O.setQnan y (O.isnan v)

/-- `atan` of double (/repo/src/trigonometric.cpp:506-534, /repo/src/const.cpp:53,64,67-80). -/
def atanD (O : ArcOps 64 α μ) (v : α) : α :=
  let sign := O.lt v (O.c 0#64)
  let x := O.abs v
  let finite := O.isfinite v
  let ret := O.c 0x3ff921fb54442d18#64
  let y := O.c 0#64
  let large := O.gt x (O.c 0x4003504f333f9de6#64)
  let gt06 := O.gt x (O.c 0x3fe51eb851eb851f#64)
  let tmp := O.div (O.sub x (O.c 0x3ff0000000000000#64)) (O.add x (O.c 0x3ff0000000000000#64))
  let tmp := O.set tmp large (O.div (O.neg (O.c 0x3ff0000000000000#64)) x)
  let x := O.set x gt06 tmp
  let y := O.set y gt06 (O.c 0x3fe921fb54442d18#64)
  let y := O.set y large (O.c 0x3ff921fb54442d18#64)
  let z := O.mul x x
  let p := horner O.toArith z (O.c 0xbfec007fa1f72594#64)
    [0xc03028545b6b807a#64, 0xc052c08c36880273#64, 0xc05eb8bf2d05ba25#64, 0xc0503669fd28ec8e#64]
  let q := horner O.toArith z (O.add z (O.c 0x4038dbc45b14603c#64))
    [0x4064a0dd43b8fa25#64, 0x407b0e18d2e2be3b#64, 0x407e563f13b049ea#64, 0x4068519efbbd62ec#64]
  let z := O.div (O.mul z p) q
  let z := O.add (O.mul x z) x
  let more := O.c 0x3c91a62633145c07#64
  let more := O.set more (O.notM large) (O.mul more (O.c 0x3fe0000000000000#64))
  let z := O.set z gt06 (O.add z more)
  let ret := O.set ret finite (O.add y z)
  let ret := O.set ret sign (O.neg ret)
  O.setQnan ret (O.isnan v)

/-- `atan2` (/repo/src/trigonometric.cpp:535-609): the two versions differ in the constants and in `atan` only. -/
def atan2With {w : Nat} (O : ArcOps w α μ) (pi pi2 pi4 one : BitVec w) (atan : α → α) (y x : α) : α :=
  let zero := O.c 0#w
  let xZero := O.eq x zero
  let yZero := O.eq y zero
  let xMinusZero := O.andM xZero (O.isneg x)
  let yNeg := O.lt y zero
  let xInf := O.notM (O.isfinite x)
  let yInf := O.notM (O.isfinite y)
  let a := O.copysign (O.c pi) y
  let a := O.setZero a (O.ge x zero)
  let x' := O.set x yInf (O.copysign (O.c one) x)
  let a := O.add a (atan (O.div y x'))
  let a := O.setZero a (O.andM xZero yZero)
  let a := O.set a xMinusZero (O.add a (O.copysign (O.c pi) y))
  let a := O.set a (O.andM xZero yNeg) (O.neg (O.c pi2))
  let a := O.set a (O.andM xInf yInf) (O.add a (O.copysign (O.c pi4) (O.xorNot x y)))
  let a := O.set a (O.eq a zero) (O.copysign a y)
  O.setQnan a (O.orM (O.isnan y) (O.isnan x))

/-- `atan2` of float (/repo/src/trigonometric.cpp:535-577). -/
def atan2F (O : ArcOps 32 α μ) (y x : α) : α :=
  atan2With O 0x40490fdb#32 0x3fc90fdb#32 0x3f490fdb#32 0x3f800000#32 (atanF O) y x

/-- `atan2` of double (/repo/src/trigonometric.cpp:578-609). -/
def atan2D (O : ArcOps 64 α μ) (y x : α) : α :=
  atan2With O 0x400921fb54442d18#64 0x3ff921fb54442d18#64 0x3fe921fb54442d18#64 0x3ff0000000000000#64 (atanD O) y x
end

/-! ### Instruction sets -/

def arcSseF (I : Isa) : ArcEnv 128 := ⟨sseFloat, .sse, vIsNegativePs sseFloat, blendv I 32⟩
def arcSseD (I : Isa) : ArcEnv 128 := ⟨sseDouble, .sse, vIsNegativePd sseDouble, blendv I 64⟩
def arcAvxF (B : CmpBuild) : ArcEnv 256 := ⟨avxFloat, B, vIsNegativePs avxFloat, blendvIntr 32⟩
def arcAvxD (B : CmpBuild) : ArcEnv 256 := ⟨avxDouble, B, vIsNegativePd avxDouble, blendvIntr 64⟩

end Vc.Model
