import Verif.Model.Arc
import Verif.Lemma.TrigLane
import Verif.Lemma.ExpF2
import Verif.Prop.FloatBits

/-!
`atan` and `atan2`, lane by lane.
-/

set_option linter.unusedSectionVars false

namespace Vc.Lemma
open Vc.Model Vc.Spec Vc.Prop

/-- How a build compares two numbers with `>=`. -/
def geL (B : CmpBuild) (F : Fmt) {w : Nat} (a b : BitVec w) : Bool :=
  match B with
  | .sse => !fLt F a b
  | .avxGcc => fLe F b a
  | .avx => !fLt F a b

theorem lane_geL (B : CmpBuild) {n : Nat} (F : Fmt) (w : Nat) (x y : BitVec n) {i : Nat} (hi : w * (i + 1) ≤ n) :
    lane w (vFGe B F w x y) i = laneMask (geL B F (lane w x i) (lane w y i)) := by
  unfold vFGe geL
  cases B <;> exact lane_map2 _ _ _ hi

/-- The sign of the second, everything else of the first number. -/
def copysignL {w : Nat} (m s : BitVec w) : BitVec w := (s &&& BitVec.ofNat w (2 ^ (w - 1))) ||| (m &&& (BitVec.allOnes w >>> 1))

/-- One number. -/
def sArc (B : CmpBuild) (F : Fmt) (w : Nat) : ArcOps w (BitVec w) Bool where
  toArith := sArith F w
  abs := absL
  neg x := x ^^^ BitVec.ofNat w (2 ^ (w - 1))
  copysign := copysignL
  lt := fLt F
  gt := gtL B F
  ge := geL B F
  eq := fEq F
  isnan := isNaN F
  isfinite := isFinite F
  isneg := fneg F
  notM k := !k
  andM a b := a && b
  orM a b := a || b
  set x k y := if k then y else x
  setZero x k := if k then 0#w else x
  setQnan x k := if k then BitVec.allOnes w else x
  xorNot x y := x ^^^ ~~~y

/-- What the parts of a vector type do. -/
structure ArcOk {n : Nat} (E : ArcEnv n) (F : Fmt) (w : Nat) : Prop where
  plat : Platform F n w E.K
  isneg : ∀ x i, w * (i + 1) ≤ n → lane w (E.isneg x) i = laneMask (fneg F (lane w x i))
  blend : BlendOk w E.blend
  absM : ∀ i, w * (i + 1) ≤ n → lane w E.K.absMask i = BitVec.allOnes w >>> 1
  sgnM : ∀ i, w * (i + 1) ≤ n → lane w E.K.signMask i = BitVec.ofNat w (2 ^ (w - 1))

theorem arcOk_sseF (I : Isa) : ArcOk (arcSseF I) f32 32 where
  plat := .sseFloat
  isneg x i hi := C46_isnegative_float .sseFloat x hi
  blend := blendOk_sse I (by decide)
  absM i hi := by show lane 32 sseFloat.absMask i = _; unfold sseFloat; rw [lane_set1 _ hi]; rfl
  sgnM i hi := by show lane 32 sseFloat.signMask i = _; unfold sseFloat; rw [lane_set1 _ hi]; rfl

theorem arcOk_sseD (I : Isa) : ArcOk (arcSseD I) f64 64 where
  plat := .sseDouble
  isneg x i hi := C46_isnegative_double .sseDouble x hi
  blend := blendOk_sse I (by decide)
  absM i hi := by show lane 64 sseDouble.absMask i = _; unfold sseDouble; rw [lane_set1 _ hi]; rfl
  sgnM i hi := by show lane 64 sseDouble.signMask i = _; unfold sseDouble; rw [lane_set1 _ hi]; rfl

theorem arcOk_avxF (B : CmpBuild) : ArcOk (arcAvxF B) f32 32 where
  plat := .avxFloat
  isneg x i hi := C46_isnegative_float .avxFloat x hi
  blend := blendOk_avx (by decide)
  absM i hi := by show lane 32 avxFloat.absMask i = _; unfold avxFloat; rw [lane_set1 _ hi]; rfl
  sgnM i hi := by show lane 32 avxFloat.signMask i = _; unfold avxFloat; rw [lane_set1 _ hi]; rfl

theorem arcOk_avxD (B : CmpBuild) : ArcOk (arcAvxD B) f64 64 where
  plat := .avxDouble
  isneg x i hi := C46_isnegative_double .avxDouble x hi
  blend := blendOk_avx (by decide)
  absM i hi := by show lane 64 avxDouble.absMask i = _; unfold avxDouble; rw [lane_set1 _ hi]; rfl
  sgnM i hi := by show lane 64 avxDouble.signMask i = _; unfold avxDouble; rw [lane_set1 _ hi]; rfl

/-! ### Each operation -/

/-- Lane `i` of the vector is the number. -/
def RV {n : Nat} (w i : Nat) (x : BitVec n) (a : BitVec w) : Prop := lane w x i = a
/-- Lane `i` of the mask is the Boolean. -/
def RM {n : Nat} (w i : Nat) (k : BitVec n) (b : Bool) : Prop := lane w k i = laneMask b

section
variable {n w i : Nat} {E : ArcEnv n} {F : Fmt} (h : ArcOk E F w) (hi : w * (i + 1) ≤ n)
include h hi
variable {x y : BitVec n} {a b : BitVec w} {k l : BitVec n} {p q : Bool}

theorem RV.c (v : BitVec w) : RV w i ((vArc E F w).c v) ((sArc E.B F w).c v) := lane_c F _ hi
theorem RV.add (hx : RV w i x a) (hy : RV w i y b) : RV w i ((vArc E F w).add x y) ((sArc E.B F w).add a b) := by
  unfold RV at *; subst hx hy; exact lane_add F _ _ hi
theorem RV.sub (hx : RV w i x a) (hy : RV w i y b) : RV w i ((vArc E F w).sub x y) ((sArc E.B F w).sub a b) := by
  unfold RV at *; subst hx hy; exact lane_sub F _ _ hi
theorem RV.mul (hx : RV w i x a) (hy : RV w i y b) : RV w i ((vArc E F w).mul x y) ((sArc E.B F w).mul a b) := by
  unfold RV at *; subst hx hy; exact lane_mul F _ _ hi
theorem RV.div (hx : RV w i x a) (hy : RV w i y b) : RV w i ((vArc E F w).div x y) ((sArc E.B F w).div a b) := by
  unfold RV at *; subst hx hy; exact lane_div F _ _ hi
theorem RV.horner (hx : RV w i x a) (hy : RV w i y b) (cs : List (BitVec w)) :
    RV w i (horner (vArc E F w).toArith x y cs) (horner (sArc E.B F w).toArith a b cs) := by
  unfold RV at *; subst hx hy; exact lane_horner F _ _ _ hi
theorem RV.abs (hx : RV w i x a) : RV w i ((vArc E F w).abs x) ((sArc E.B F w).abs a) := by
  unfold RV at *; subst hx
  show lane w (vFAbs E.K x) i = absL _
  unfold vFAbs absL; rw [lane_and, h.absM i hi]
theorem RV.neg (hx : RV w i x a) : RV w i ((vArc E F w).neg x) ((sArc E.B F w).neg a) := by
  unfold RV at *; subst hx
  show lane w (vFNegate E.K x) i = _
  unfold vFNegate; rw [lane_xor, h.sgnM i hi]; rfl
theorem RV.copysign (hx : RV w i x a) (hy : RV w i y b) : RV w i ((vArc E F w).copysign x y) ((sArc E.B F w).copysign a b) := by
  unfold RV at *; subst hx hy
  show lane w (vCopysign E.K x y) i = copysignL _ _
  unfold vCopysign copysignL; rw [lane_or, lane_and, lane_and, h.sgnM i hi, h.absM i hi]
theorem RV.xorNot (hx : RV w i x a) (hy : RV w i y b) : RV w i ((vArc E F w).xorNot x y) ((sArc E.B F w).xorNot a b) := by
  unfold RV at *; subst hx hy
  show lane w (x ^^^ ~~~y) i = _
  rw [lane_xor, lane_not _ hi]; rfl
theorem RM.lt (hx : RV w i x a) (hy : RV w i y b) : RM w i ((vArc E F w).lt x y) ((sArc E.B F w).lt a b) := by
  unfold RV at *; subst hx hy; exact lane_map2 (fun a b => laneMask (fLt F a b)) _ _ hi
theorem RM.eq (hx : RV w i x a) (hy : RV w i y b) : RM w i ((vArc E F w).eq x y) ((sArc E.B F w).eq a b) := by
  unfold RV at *; subst hx hy; exact lane_map2 (fun a b => laneMask (fEq F a b)) _ _ hi
theorem RM.gt (hx : RV w i x a) (hy : RV w i y b) : RM w i ((vArc E F w).gt x y) ((sArc E.B F w).gt a b) := by
  unfold RV at *; subst hx hy; exact lane_vFGt E.B F w _ _ hi
theorem RM.ge (hx : RV w i x a) (hy : RV w i y b) : RM w i ((vArc E F w).ge x y) ((sArc E.B F w).ge a b) := by
  unfold RV at *; subst hx hy; exact lane_geL E.B F w _ _ hi
theorem RM.isnan (hx : RV w i x a) : RM w i ((vArc E F w).isnan x) ((sArc E.B F w).isnan a) := by
  unfold RV at *; subst hx; exact C46_isnan h.plat _ hi
theorem RM.isfinite (hx : RV w i x a) : RM w i ((vArc E F w).isfinite x) ((sArc E.B F w).isfinite a) := by
  unfold RV at *; subst hx; exact C46_isfinite h.plat _ hi
theorem RM.isneg (hx : RV w i x a) : RM w i ((vArc E F w).isneg x) ((sArc E.B F w).isneg a) := by
  unfold RV at *; subst hx; exact h.isneg _ _ hi
theorem RM.notM (hk : RM w i k p) : RM w i ((vArc E F w).notM k) ((sArc E.B F w).notM p) := by
  unfold RM at *
  show lane w (~~~k) i = laneMask (!p)
  rw [lane_not _ hi, hk]
  cases p <;> simp [laneMask]
theorem RM.andM (hk : RM w i k p) (hl : RM w i l q) : RM w i ((vArc E F w).andM k l) ((sArc E.B F w).andM p q) := by
  unfold RM at *
  show lane w (k &&& l) i = laneMask (p && q)
  rw [lane_and, hk, hl, laneMask_and]
theorem RM.orM (hk : RM w i k p) (hl : RM w i l q) : RM w i ((vArc E F w).orM k l) ((sArc E.B F w).orM p q) := by
  unfold RM at *
  show lane w (k ||| l) i = laneMask (p || q)
  rw [lane_or, hk, hl, laneMask_or]
theorem RV.set (hx : RV w i x a) (hk : RM w i k p) (hy : RV w i y b) : RV w i ((vArc E F w).set x k y) ((sArc E.B F w).set a p b) := by
  unfold RV RM at *; subst hx hy
  exact h.blend _ _ _ _ _ hi hk
theorem RV.setZero (hx : RV w i x a) (hk : RM w i k p) : RV w i ((vArc E F w).setZero x k) ((sArc E.B F w).setZero a p) := by
  unfold RV RM at *; subst hx
  show lane w (andnot k x) i = if p then _ else _
  rw [lane_andnot _ _ hi, hk]
  cases p <;> simp [laneMask]
theorem RV.setQnan (hx : RV w i x a) (hk : RM w i k p) : RV w i ((vArc E F w).setQnan x k) ((sArc E.B F w).setQnan a p) := by
  unfold RV RM at *; subst hx
  show lane w (x ||| k) i = if p then _ else _
  rw [lane_or, hk]
  cases p <;> simp [laneMask]
end

/-! ### The functions -/

theorem atanF_lane {n i : Nat} {E : ArcEnv n} (h : ArcOk E f32 32) (hi : 32 * (i + 1) ≤ n) {v : BitVec n} {a : BitVec 32}
    (hv : RV 32 i v a) : RV 32 i (atanF (vArc E f32 32) v) (atanF (sArc E.B f32 32) a) := by
  have C := RV.c h hi
  have x0 := RV.abs h hi hv
  have hi' := RM.gt h hi x0 (C 0x401a827a#32)
  have lo := RM.andM h hi (RM.gt h hi x0 (C 0x3ed413cd#32)) (RM.notM h hi hi')
  have y := RV.set h hi (RV.set h hi (C 0#32) hi' (C 0x3fc90fdb#32)) lo (C 0x3f490fdb#32)
  have x1 := RV.set h hi x0 hi' (RV.div h hi (RV.neg h hi (C 0x3f800000#32)) x0)
  have x := RV.set h hi x1 lo (RV.div h hi (RV.sub h hi x1 (C 0x3f800000#32)) (RV.add h hi x1 (C 0x3f800000#32)))
  have x2 := RV.mul h hi x x
  have p := RV.sub h hi (RV.mul h hi (C 0x3da4f0d1#32) x2) (C 0x3e0e1b85#32)
  have p := RV.add h hi (RV.mul h hi p x2) (C 0x3e4c925f#32)
  have p := RV.sub h hi (RV.mul h hi p x2) (C 0x3eaaaa2a#32)
  have y := RV.add h hi y (RV.add h hi (RV.mul h hi (RV.mul h hi p x2) x) x)
  have y := RV.set h hi y (RM.lt h hi hv (C 0#32)) (RV.neg h hi y)
  exact RV.setQnan h hi y (RM.isnan h hi hv)

theorem atanD_lane {n i : Nat} {E : ArcEnv n} (h : ArcOk E f64 64) (hi : 64 * (i + 1) ≤ n) {v : BitVec n} {a : BitVec 64}
    (hv : RV 64 i v a) : RV 64 i (atanD (vArc E f64 64) v) (atanD (sArc E.B f64 64) a) := by
  have C := RV.c h hi
  have sign := RM.lt h hi hv (C 0#64)
  have x0 := RV.abs h hi hv
  have finite := RM.isfinite h hi hv
  have large := RM.gt h hi x0 (C 0x4003504f333f9de6#64)
  have gt06 := RM.gt h hi x0 (C 0x3fe51eb851eb851f#64)
  have tmp := RV.div h hi (RV.sub h hi x0 (C 0x3ff0000000000000#64)) (RV.add h hi x0 (C 0x3ff0000000000000#64))
  have tmp := RV.set h hi tmp large (RV.div h hi (RV.neg h hi (C 0x3ff0000000000000#64)) x0)
  have x := RV.set h hi x0 gt06 tmp
  have y := RV.set h hi (C 0#64) gt06 (C 0x3fe921fb54442d18#64)
  have y := RV.set h hi y large (C 0x3ff921fb54442d18#64)
  have z := RV.mul h hi x x
  have p := RV.horner h hi z (C 0xbfec007fa1f72594#64)
    [0xc03028545b6b807a#64, 0xc052c08c36880273#64, 0xc05eb8bf2d05ba25#64, 0xc0503669fd28ec8e#64]
  have q := RV.horner h hi z (RV.add h hi z (C 0x4038dbc45b14603c#64))
    [0x4064a0dd43b8fa25#64, 0x407b0e18d2e2be3b#64, 0x407e563f13b049ea#64, 0x4068519efbbd62ec#64]
  have z := RV.div h hi (RV.mul h hi z p) q
  have z := RV.add h hi (RV.mul h hi x z) x
  have more := C 0x3c91a62633145c07#64
  have more := RV.set h hi more (RM.notM h hi large) (RV.mul h hi more (C 0x3fe0000000000000#64))
  have z := RV.set h hi z gt06 (RV.add h hi z more)
  have ret := RV.set h hi (C 0x3ff921fb54442d18#64) finite (RV.add h hi y z)
  have ret := RV.set h hi ret sign (RV.neg h hi ret)
  exact RV.setQnan h hi ret (RM.isnan h hi hv)

theorem atan2_lane {n w i : Nat} {F : Fmt} {E : ArcEnv n} (h : ArcOk E F w) (hi : w * (i + 1) ≤ n) (pi pi2 pi4 one : BitVec w)
    {at1 : BitVec n → BitVec n} {at2 : BitVec w → BitVec w} (ha : ∀ {v a}, RV w i v a → RV w i (at1 v) (at2 a))
    {y x : BitVec n} {b a : BitVec w} (hy : RV w i y b) (hx : RV w i x a) :
    RV w i (atan2With (vArc E F w) pi pi2 pi4 one at1 y x) (atan2With (sArc E.B F w) pi pi2 pi4 one at2 b a) := by
  have C := RV.c h hi
  have xZero := RM.eq h hi hx (C 0#w)
  have yZero := RM.eq h hi hy (C 0#w)
  have xMinusZero := RM.andM h hi xZero (RM.isneg h hi hx)
  have yNeg := RM.lt h hi hy (C 0#w)
  have xInf := RM.notM h hi (RM.isfinite h hi hx)
  have yInf := RM.notM h hi (RM.isfinite h hi hy)
  have r := RV.copysign h hi (C pi) hy
  have r := RV.setZero h hi r (RM.ge h hi hx (C 0#w))
  have x' := RV.set h hi hx yInf (RV.copysign h hi (C one) hx)
  have r := RV.add h hi r (ha (RV.div h hi hy x'))
  have r := RV.setZero h hi r (RM.andM h hi xZero yZero)
  have r := RV.set h hi r xMinusZero (RV.add h hi r (RV.copysign h hi (C pi) hy))
  have r := RV.set h hi r (RM.andM h hi xZero yNeg) (RV.neg h hi (C pi2))
  have r := RV.set h hi r (RM.andM h hi xInf yInf) (RV.add h hi r (RV.copysign h hi (C pi4) (RV.xorNot h hi hx hy)))
  have r := RV.set h hi r (RM.eq h hi r (C 0#w)) (RV.copysign h hi r hy)
  exact RV.setQnan h hi r (RM.orM h hi (RM.isnan h hi hy) (RM.isnan h hi hx))

end Vc.Lemma
