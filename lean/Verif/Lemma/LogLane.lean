import Verif.Model.Log
import Verif.Lemma.ExpF2
import Verif.Prop.FloatExp

/-!
`log`, `log10`, `log2`, lane by lane.
-/

namespace Vc.Lemma
open Vc.Model Vc.Spec

/-- One number instead of a vector. -/
def sArith (F : Fmt) (w : Nat) : Arith w (BitVec w) := ⟨fAdd F, fSub F, fMul F, fDiv F, id⟩

theorem lane_add (F : Fmt) {w n : Nat} (x y : BitVec n) {i : Nat} (hi : w * (i + 1) ≤ n) :
    lane w ((vArith F w n).add x y) i = (sArith F w).add (lane w x i) (lane w y i) := lane_map2 _ _ _ hi
theorem lane_sub (F : Fmt) {w n : Nat} (x y : BitVec n) {i : Nat} (hi : w * (i + 1) ≤ n) :
    lane w ((vArith F w n).sub x y) i = (sArith F w).sub (lane w x i) (lane w y i) := lane_map2 _ _ _ hi
theorem lane_mul (F : Fmt) {w n : Nat} (x y : BitVec n) {i : Nat} (hi : w * (i + 1) ≤ n) :
    lane w ((vArith F w n).mul x y) i = (sArith F w).mul (lane w x i) (lane w y i) := lane_map2 _ _ _ hi
theorem lane_div (F : Fmt) {w n : Nat} (x y : BitVec n) {i : Nat} (hi : w * (i + 1) ≤ n) :
    lane w ((vArith F w n).div x y) i = (sArith F w).div (lane w x i) (lane w y i) := lane_map2 _ _ _ hi
theorem lane_c (F : Fmt) {w n : Nat} (x : BitVec w) {i : Nat} (hi : w * (i + 1) ≤ n) :
    lane w ((vArith F w n).c x) i = (sArith F w).c x := lane_set1 _ hi

theorem lane_horner (F : Fmt) {w n : Nat} (x y : BitVec n) (cs : List (BitVec w)) {i : Nat} (hi : w * (i + 1) ≤ n) :
    lane w (horner (vArith F w n) x y cs) i = horner (sArith F w) (lane w x i) (lane w y i) cs := by
  unfold horner
  induction cs generalizing y with
  | nil => rfl
  | cons c cs ih =>
    simp only [List.foldl_cons]
    rw [ih, lane_add F _ _ hi, lane_mul F _ _ hi, lane_c F _ hi]

theorem lane_logEnd (F : Fmt) {w n : Nat} (K : LogConst w) (base : LogBase) (x x2 y e : BitVec n) {i : Nat}
    (hi : w * (i + 1) ≤ n) : lane w (logEnd (vArith F w n) K base x x2 y e) i =
      logEnd (sArith F w) K base (lane w x i) (lane w x2 i) (lane w y i) (lane w e i) := by
  cases base <;> simp only [logEnd, lane_add F _ _ hi, lane_sub F _ _ hi, lane_mul F _ _ hi, lane_c F _ hi]

theorem lane_logSeriesF {n : Nat} (base : LogBase) (x e : BitVec n) {i : Nat} (hi : 32 * (i + 1) ≤ n) :
    lane 32 (logSeriesF (vArith f32 32 n) base x e) i = logSeriesF (sArith f32 32) base (lane 32 x i) (lane 32 e i) := by
  simp only [logSeriesF, lane_logEnd f32 _ _ _ _ _ _ hi, lane_mul f32 _ _ hi, lane_c f32 _ hi, lane_horner f32 _ _ _ hi]

theorem lane_logSeriesD {n : Nat} (base : LogBase) (x e : BitVec n) {i : Nat} (hi : 64 * (i + 1) ≤ n) :
    lane 64 (logSeriesD (vArith f64 64 n) base x e) i = logSeriesD (sArith f64 64) base (lane 64 x i) (lane 64 e i) := by
  simp only [logSeriesD, lane_logEnd f64 _ _ _ _ _ _ hi, lane_mul f64 _ _ hi, lane_div f64 _ _ hi, lane_add f64 _ _ hi,
    lane_c f64 _ hi, lane_horner f64 _ _ _ hi]

/-- The argument of `exponent`. -/
def logX1 (F : Fmt) {w : Nat} (K : LogConst w) (x : BitVec w) : BitVec w :=
  if fLe F x K.min then fMul F x K.p54 else x

/-- The exponent of the mantissa in `[1, 2)`. -/
def logE1 (F : Fmt) {w : Nat} (K : LogConst w) (expo : BitVec w → BitVec w) (x : BitVec w) : BitVec w :=
  if fLe F x K.min then fSub F (expo (logX1 F K x)) K.c54 else expo (logX1 F K x)

/-- The mantissa in `[1/2, 1)`. -/
def logM1 {w : Nat} (K : LogConst w) (x1 : BitVec w) : BitVec w := (~~~K.expMask &&& x1) ||| K.half

/-- The first argument of the series. -/
def logM2 (F : Fmt) {w : Nat} (K : LogConst w) (m : BitVec w) : BitVec w :=
  fSub F (if fLt F m K.invSqrt2 then fAdd F m m else m) K.one

/-- The second argument of the series. -/
def logE2 (F : Fmt) {w : Nat} (K : LogConst w) (m e : BitVec w) : BitVec w :=
  if fLt F m K.invSqrt2 then e else fAdd F e K.one

/-- One lane. -/
def logL (F : Fmt) {w : Nat} (K : LogConst w) (expo : BitVec w → BitVec w) (series : BitVec w → BitVec w → BitVec w)
    (x : BitVec w) : BitVec w :=
  if fEq F x 0#w then K.negInf
  else series (logM2 F K (logM1 K (logX1 F K x))) (logE2 F K (logM1 K (logX1 F K x)) (logE1 F K expo x)) |||
    laneMask (fLt F x 0#w)

/-- Masked assignment, one lane. -/
def BlendOk {n : Nat} (w : Nat) (blend : BitVec n → BitVec n → BitVec n → BitVec n) : Prop :=
  ∀ (x y m : BitVec n) (i : Nat) (p : Bool), w * (i + 1) ≤ n → lane w m i = laneMask p →
    lane w (blend x y m) i = if p then lane w y i else lane w x i

theorem lane_vFLe' {n : Nat} (F : Fmt) (w : Nat) (x y : BitVec n) {i : Nat} (hi : w * (i + 1) ≤ n) :
    lane w (vFLe F w x y) i = laneMask (fLe F (lane w x i) (lane w y i)) :=
  lane_map2 (fun a b => laneMask (fLe F a b)) x y hi

theorem lane_vFEq' {n : Nat} (F : Fmt) (w : Nat) (x y : BitVec n) {i : Nat} (hi : w * (i + 1) ≤ n) :
    lane w (vFEq F w x y) i = laneMask (fEq F (lane w x i) (lane w y i)) :=
  lane_map2 (fun a b => laneMask (fEq F a b)) x y hi

section
variable {n w : Nat} {F : Fmt} {K : LogConst w} {blend : BitVec n → BitVec n → BitVec n → BitVec n} {i : Nat}

theorem lane_logDenormal (x : BitVec n) (hi : w * (i + 1) ≤ n) :
    lane w (logDenormal F w K x) i = laneMask (fLe F (lane w x i) K.min) := by
  unfold logDenormal; rw [lane_vFLe' _ _ _ _ hi, lane_set1 _ hi]

theorem lane_logScaled (hb : BlendOk w blend) (x : BitVec n) (hi : w * (i + 1) ≤ n) :
    lane w (logScaled F w K blend x) i = logX1 F K (lane w x i) := by
  unfold logScaled vFMul
  rw [hb _ _ _ _ _ hi (lane_logDenormal x hi), lane_map2 _ _ _ hi, lane_set1 _ hi]
  rfl

theorem lane_logMant (x : BitVec n) (hi : w * (i + 1) ≤ n) : lane w (logMant K x) i = logM1 K (lane w x i) := by
  unfold logMant
  rw [lane_or, lane_andnot _ _ hi, lane_set1 _ hi, lane_set1 _ hi]
  rfl

theorem lane_vLog (hb : BlendOk w blend) {series : BitVec n → BitVec n → BitVec n}
    {ser : BitVec w → BitVec w → BitVec w} (hs : ∀ a b, lane w (series a b) i = ser (lane w a i) (lane w b i))
    {expo : BitVec w → BitVec w} (x e1 : BitVec n) (hi : w * (i + 1) ≤ n)
    (he : lane w e1 i = expo (logX1 F K (lane w x i))) :
    lane w (vLog F w K blend series x (logScaled F w K blend x) e1) i = logL F K expo ser (lane w x i) := by
  unfold vLog
  simp only
  have hz : ∀ a : BitVec n, lane w (vFEq F w a 0#n) i = laneMask (fEq F (lane w a i) 0#w) := fun a => by
    rw [lane_vFEq' _ _ _ _ hi, lane_zero]
  have hm : lane w (logMant K (logScaled F w K blend x)) i = logM1 K (logX1 F K (lane w x i)) := by
    rw [lane_logMant _ hi, lane_logScaled hb _ hi]
  have hsm : lane w (vFLt F w (logMant K (logScaled F w K blend x)) (set1 w K.invSqrt2)) i =
      laneMask (fLt F (logM1 K (logX1 F K (lane w x i))) K.invSqrt2) := by
    rw [lane_vFLt _ _ _ _ hi, hm, lane_set1 _ hi]
  have hns : lane w (~~~vFLt F w (logMant K (logScaled F w K blend x)) (set1 w K.invSqrt2)) i =
      laneMask (!fLt F (logM1 K (logX1 F K (lane w x i))) K.invSqrt2) := by
    rw [lane_not _ hi, hsm, not_laneMask]
  rw [hb _ _ _ _ _ hi (hz x), lane_or, hs, lane_vFLt _ _ _ _ hi, lane_set1 _ hi, lane_zero]
  unfold logL logM2 logE2 logE1 vFSub vFAdd
  rw [lane_map2 _ _ _ hi, hb _ _ _ _ _ hi hsm, lane_map2 _ _ _ hi, hm, lane_set1 _ hi,
    hb _ _ _ _ _ hi hns, lane_map2 _ _ _ hi, lane_set1 _ hi, hb _ _ _ _ _ hi (lane_logDenormal x hi),
    lane_map2 _ _ _ hi, lane_set1 _ hi, he]
  cases fLt F (logM1 K (logX1 F K (lane w x i))) K.invSqrt2 <;> simp

end

/-- `exponent` of one number, all but the scalar version. -/
def expoF (x : BitVec 32) : BitVec 32 := cvtI2F f32 32 (x >>> 23 - 0x7f#32)
def expoD (x : BitVec 64) : BitVec 64 := cvtI2F f64 64 ((x >>> 52).setWidth 32 - 0x3ff#32)

theorem lane_exponentPs (v : M128) {i : Nat} (hi : i < 4) : lane 32 (vExponentPs v) i = expoF (lane 32 v i) := by
  have hr : 32 * (i + 1) ≤ 128 := by omega
  unfold vExponentPs cvtepi32PsN subEpi srliEpi
  rw [lane_map1 _ _ hr, lane_map2 _ _ _ hr, lane_map1 _ _ hr, lane_set1 _ hr]
  rfl

theorem lane_exponentPsAvx (v : M256) {i : Nat} (hi : i < 8) : lane 32 (vExponentPsAvx v) i = expoF (lane 32 v i) := by
  have hr : 32 * (i + 1) ≤ 256 := by omega
  have e := lane_split1 (w := 32) (k := 4) (f := fun a => subEpi 32 (srliEpi 32 a 23) (set1 32 0x7f#32))
    (g := fun z => z >>> 23 - 0x7f#32) rfl (fun a j hj => by
      show Model.lane 32 (subEpi 32 (srliEpi 32 a 23) (set1 32 0x7f#32)) j = Model.lane 32 a j >>> 23 - 0x7f#32
      unfold subEpi srliEpi
      rw [lane_map2 _ _ _ (by omega), lane_map1 _ _ (by omega), lane_set1 _ (by omega)]) v (i := i) (by omega)
  unfold split1 at e
  unfold vExponentPsAvx cvtepi32PsN
  rw [lane_map1 _ _ hr, e]
  rfl

theorem lane_exponentPd (v : M128) {i : Nat} (hi : i < 2) : lane 64 (vExponentPd v) i = expoD (lane 64 v i) := by
  have hr : 64 * (i + 1) ≤ 128 := by omega
  unfold vExponentPd cvtepi32Pd
  rw [lane_ofLanes _ hr, lane_shuffleEpi32 _ _ (by omega)]
  have e : Model.lane 32 (subEpi 32 (srliEpi 64 v 52) (set1 32 0x3ff#32)) (sel4 0x08 i) =
      (Model.lane 64 v i >>> 52).setWidth 32 - 0x3ff#32 := by
    have := lane_expo64 v hi
    match i, hi with
    | 0, _ => exact this
    | 1, _ => exact this
  rw [e]
  rfl

theorem lane_exponentPdAvx (v : M256) : ∃ r, vExponentPdAvx v = some r ∧ ∀ i, i < 4 → lane 64 r i = expoD (lane 64 v i) := by
  refine ⟨_, rfl, fun i hi => ?_⟩
  have hr : 64 * (i + 1) ≤ 256 := by omega
  unfold cvtepi32Pd256
  rw [lane_ofLanes _ hr, lane_shufflePs _ _ _ hi]
  have lo : ∀ q, q < 2 → Model.lane 32 (subEpi 32 (srliEpi 64 (lo128 v) 52) (set1 32 0x3ff#32)) (2 * q) =
      (Model.lane 64 v q >>> 52).setWidth 32 - 0x3ff#32 := fun q hq => by
    rw [lane_expo64 _ hq, lane_lo128 (k := 2) rfl _ hq]
  have hi' : ∀ q, q < 2 → Model.lane 32 (subEpi 32 (srliEpi 64 (hi128 v) 52) (set1 32 0x3ff#32)) (2 * q) =
      (Model.lane 64 v (2 + q) >>> 52).setWidth 32 - 0x3ff#32 := fun q hq => by
    rw [lane_expo64 _ hq, lane_hi128 (k := 2) rfl _ hq]
  have fin : ∀ z, z = (Model.lane 64 v i >>> 52).setWidth 32 - 0x3ff#32 → cvtI2F f64 64 z = expoD (lane 64 v i) := by
    rintro z rfl; rfl
  match i, hi with
  | 0, _ => exact fin _ (lo 0 (by decide))
  | 1, _ => exact fin _ (lo 1 (by decide))
  | 2, _ => exact fin _ (hi' 0 (by decide))
  | 3, _ => exact fin _ (hi' 1 (by decide))

theorem blendOk_sse (I : Isa) {w : Nat} (hw : 0 < w) : BlendOk w (blendv I w) := fun x y m i p hi hm =>
  lane_blendv I (v := w) (c := 1) (by omega) hw hi x y m hm

theorem blendOk_avx {n w : Nat} (hw : 0 < w) : BlendOk w (blendvIntr (n := n) w) := fun x y m i p hi hm => by
  rw [lane_blendvIntr _ _ _ hi, hm]
  cases p
  · simp [laneMask]
  · simp [laneMask, BitVec.msb_allOnes hw]

theorem lane_logSseF (I : Isa) (base : LogBase) (x : M128) {i : Nat} (hi : i < 4) :
    lane 32 (logSseF I base x) i = logL f32 logConstF expoF (logSeriesF (sArith f32 32) base) (lane 32 x i) := by
  have hr : 32 * (i + 1) ≤ 128 := by omega
  refine lane_vLog (blendOk_sse I (by decide)) (fun a b => lane_logSeriesF base a b hr) x _ hr ?_
  rw [lane_exponentPs _ hi, lane_logScaled (blendOk_sse I (by decide)) _ hr]

theorem lane_logAvxF (base : LogBase) (x : M256) {i : Nat} (hi : i < 8) :
    lane 32 (logAvxF base x) i = logL f32 logConstF expoF (logSeriesF (sArith f32 32) base) (lane 32 x i) := by
  have hr : 32 * (i + 1) ≤ 256 := by omega
  refine lane_vLog (blendOk_avx (by decide)) (fun a b => lane_logSeriesF base a b hr) x _ hr ?_
  rw [lane_exponentPsAvx _ hi, lane_logScaled (blendOk_avx (by decide)) _ hr]

theorem lane_logSseD (I : Isa) (base : LogBase) (x : M128) {i : Nat} (hi : i < 2) :
    lane 64 (logSseD I base x) i = logL f64 logConstD expoD (logSeriesD (sArith f64 64) base) (lane 64 x i) := by
  have hr : 64 * (i + 1) ≤ 128 := by omega
  refine lane_vLog (blendOk_sse I (by decide)) (fun a b => lane_logSeriesD base a b hr) x _ hr ?_
  rw [lane_exponentPd _ hi, lane_logScaled (blendOk_sse I (by decide)) _ hr]

theorem lane_logAvxD (base : LogBase) (x : M256) : ∃ r, logAvxD base x = some r ∧ ∀ i, i < 4 →
    lane 64 r i = logL f64 logConstD expoD (logSeriesD (sArith f64 64) base) (lane 64 x i) := by
  obtain ⟨e, he, hl⟩ := lane_exponentPdAvx (logScaled f64 64 logConstD (blendvIntr 64) x)
  unfold logAvxD
  simp only
  rw [he]
  refine ⟨_, rfl, fun i hi => ?_⟩
  have hr : 64 * (i + 1) ≤ 256 := by omega
  refine lane_vLog (blendOk_avx (by decide)) (fun a b => lane_logSeriesD base a b hr) x _ hr ?_
  rw [hl i hi, lane_logScaled (blendOk_avx (by decide)) _ hr]

end Vc.Lemma
