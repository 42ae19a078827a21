import Verif.Lemma.ArcLane
import Verif.Lemma.TrigEnd
import Verif.Spec.Arc

/-!
`atan` and `atan2` of zeros, infinities and NaNs.
-/

namespace Vc.Lemma
open Vc.Model Vc.Spec Vc.Prop

/-- A magnitude with a sign. -/
def sc {w : Nat} (s : Bool) (c : BitVec w) : BitVec w := if s then c ||| sgn w else c

section
variable {F : Fmt} {w : Nat}

theorem sgn_def (w : Nat) : sgn w = BitVec.ofNat w (2 ^ (w - 1)) := by rfl

theorem copysignL_eq (h : FmtW F w) (c y : BitVec w) : copysignL c y = sc (fneg F y) (absL c) := by
  unfold copysignL sc
  have e : y &&& BitVec.ofNat w (2 ^ (w - 1)) = if fneg F y then sgn w else 0#w := by
    have e2 : BitVec.ofNat w (2 ^ (w - 1)) = BitVec.twoPow w (w - 1) := by
      apply BitVec.eq_of_toNat_eq; rw [BitVec.toNat_twoPow, BitVec.toNat_ofNat]
    rw [sgn_def, e2, BitVec.and_twoPow]
    have : y.getLsbD (w - 1) = fneg F y := by
      rw [fneg_msb h.width, BitVec.msb_eq_getLsbD_last]
    rw [this]
  rw [e]
  cases fneg F y
  · simp [absL]
  · simp only [if_true]
    rw [BitVec.or_comm]; rfl

theorem fneg_xorNot (h : FmtW F w) (x y : BitVec w) : fneg F (x ^^^ ~~~y) = (fneg F x == fneg F y) := by
  rw [fneg_xor]
  have : fneg F (~~~y) = !fneg F y := by
    rw [fneg_msb h.width, fneg_msb h.width, BitVec.msb_not]
    have := h.width
    simp; omega
  rw [this]
  cases fneg F x <;> cases fneg F y <;> rfl

/-- `atan2` from the classes of its operands and the value of `atan`: `z` means zero, `s` negative, `f` finite. -/
def atan2Post (F : Fmt) (w : Nat) (pi pi2 pi4 : BitVec w) (zx sx fx zy sy fy : Bool) (t : BitVec w) : BitVec w :=
  let a := if !sx || zx then 0#w else sc sy pi
  let a := fAdd F a t
  let a := if zx && zy then 0#w else a
  let a := if zx && sx then fAdd F a (sc sy pi) else a
  let a := if zx && (sy && !zy) then pi2 ^^^ sgn w else a
  let a := if !fx && !fy then fAdd F a (sc (sx == sy) pi4) else a
  if fEq F a 0#w then sc sy (absL a) else a

theorem zero_class (h : FmtW F w) {x : BitVec w} (hx : isNaN F x = false) :
    fEq F x 0#w = decide (fmag F x = 0) ∧ fLt F x 0#w = (fneg F x && !decide (fmag F x = 0)) ∧
    ∀ B, geL B F x 0#w = (!fneg F x || decide (fmag F x = 0)) := by
  have z : fval F (0#w) = 0 ∧ isNaN F (0#w) = false := by cases h <;> decide +kernel
  have e1 : fEq F x 0#w = decide (fmag F x = 0) := by
    unfold fEq; rw [hx, z.1, z.2]; simp [fval_eq_zero]
  have e2 : fLt F x 0#w = (fneg F x && !decide (fmag F x = 0)) := by
    unfold fLt; rw [hx, z.1, z.2]
    have := (magVal_eq_zero F (fmag F x))
    unfold fval
    cases fneg F x
    · simp
    · simp
      by_cases h0 : fmag F x = 0
      · simp [h0, magVal_zero]
      · simp [h0]; exact Nat.pos_of_ne_zero fun c => h0 (this.mp c)
  have e3 : fLe F 0#w x = (!fneg F x || decide (fmag F x = 0)) := by
    unfold fLe; rw [hx, z.1, z.2]
    have := (magVal_eq_zero F (fmag F x))
    unfold fval
    cases fneg F x
    · simp
    · simp
      by_cases h0 : fmag F x = 0
      · simp [h0, magVal_zero]
      · simp [h0]; exact fun c => h0 (this.mp c)
  refine ⟨e1, e2, fun B => ?_⟩
  cases B <;> unfold geL <;> simp only [e2, e3] <;> cases fneg F x <;> cases decide (fmag F x = 0) <;> rfl

theorem atan2_post (h : FmtW F w) (B : CmpBuild) (pi pi2 pi4 one : BitVec w) (hc : absL pi = pi ∧ absL pi4 = pi4)
    (atan : BitVec w → BitVec w) {y x : BitVec w} (hy : isNaN F y = false) (hx : isNaN F x = false) :
    atan2With (sArc B F w) pi pi2 pi4 one atan y x =
    atan2Post F w pi pi2 pi4 (decide (fmag F x = 0)) (fneg F x) (isFinite F x) (decide (fmag F y = 0)) (fneg F y) (isFinite F y)
      (atan (fDiv F y (if isFinite F y then x else copysignL one x))) := by
  obtain ⟨x1, x2, x3⟩ := zero_class h hx
  obtain ⟨y1, y2, y3⟩ := zero_class h hy
  unfold atan2With
  simp only [sArc, sArith, id, x1, y1, y2, x3, copysignL_eq h, fneg_xorNot h, hc.1, hc.2, hx, hy]
  have e : (if (!isFinite F y) = true then sc (fneg F x) (absL one) else x) = (if isFinite F y = true then x else sc (fneg F x) (absL one)) := by
    cases isFinite F y <;> rfl
  rw [e]
  rfl
/-! ### Quotients of zeros and infinities -/

theorem isInf_of {x : BitVec w} (hx : isNaN F x = false) : isInf F x = !isFinite F x := by
  unfold isNaN at hx; unfold isInf isFinite
  have := of_decide_eq_false hx
  by_cases e : fmag F x = infMag F
  · simp [e]
  · have : fmag F x < infMag F := by omega
    simp [this]; omega

theorem fDiv_zero_left {y x : BitVec w} (hy : fmag F y = 0) (hI : isInf F y = false) (hN : isNaN F y = false)
    (hx : isNaN F x = false) (h0 : fmag F x ≠ 0) : fDiv F y x = mkFloat F w (fneg F y != fneg F x) 0 := by
  unfold fDiv
  simp only [hN, hx, hI, Bool.false_eq_true, if_false]
  by_cases e : isInf F x
  · simp [e]
  · have v : fval F x ≠ 0 := fun c => h0 ((fval_eq_zero x).mp c)
    rw [if_neg e, if_neg v, (fval_eq_zero y).mpr hy]
    rw [Int.natAbs_zero, Nat.zero_mul, roundMag_zero]

theorem fDiv_zero_right {y x : BitVec w} (hy : fmag F y ≠ 0) (hI : isInf F y = false) (hN : isNaN F y = false)
    (h0 : fmag F x = 0) (hI' : isInf F x = false) (hN' : isNaN F x = false) :
    fDiv F y x = mkFloat F w (fneg F y != fneg F x) (infMag F) := by
  have v : fval F y ≠ 0 := fun c => hy ((fval_eq_zero y).mp c)
  unfold fDiv
  simp only [hN, hN', hI, hI', Bool.false_eq_true, if_false, (fval_eq_zero x).mpr h0, v, if_true]

theorem fDiv_inf_right {y x : BitVec w} (hI : isInf F y = false) (hN : isNaN F y = false)
    (hI' : isInf F x = true) (hN' : isNaN F x = false) : fDiv F y x = mkFloat F w (fneg F y != fneg F x) 0 := by
  unfold fDiv
  simp only [hN, hN', hI, hI', Bool.false_eq_true, if_false, if_true]

theorem fDiv_inf_left {y x : BitVec w} (hI : isInf F y = true) (hN : isNaN F y = false)
    (hI' : isInf F x = false) (hN' : isNaN F x = false) : fDiv F y x = mkFloat F w (fneg F y != fneg F x) (infMag F) := by
  unfold fDiv
  simp only [hN, hN', hI, hI', Bool.false_eq_true, if_false, if_true]

/-- What the cases need of the constants and of `atan`; all of it is computed. -/
structure Atan2Ok (F : Fmt) (w : Nat) (T : PiTable) (pi pi2 pi4 one : BitVec w) (atan : BitVec w → BitVec w) : Prop where
  abs : absL pi = pi ∧ absL pi4 = pi4
  zero : ∀ s, atan (mkFloat F w s 0) = 0#w
  inf : ∀ s, atan (mkFloat F w s (infMag F)) = mkFloat F w s T.half
  one : ∀ s, fneg F (sc s (absL one)) = s ∧ isNaN F (sc s (absL one)) = false ∧ isInf F (sc s (absL one)) = false
  yZero : ∀ sx fx sy, atan2Post F w pi pi2 pi4 false sx fx true sy true 0#w = mkFloat F w sy (if sx then T.pi else 0)
  xZero : ∀ sx sy fy, atan2Post F w pi pi2 pi4 true sx true false sy fy (mkFloat F w (sy != sx) T.half) = mkFloat F w sy T.half
  xInf : ∀ sx sy, atan2Post F w pi pi2 pi4 false sx false false sy true 0#w = mkFloat F w sy (if sx then T.pi else 0)
  yInf : ∀ sx sy, atan2Post F w pi pi2 pi4 false sx true false sy false (mkFloat F w (sy != sx) T.half) = mkFloat F w sy T.half
  both : ∀ sx sy, atan2Post F w pi pi2 pi4 false sx false false sy false (mkFloat F w (sy != sx) T.half) =
    mkFloat F w sy (if sx then T.three else T.quarter)
  zz : ∀ sx sy t, atan2Post F w pi pi2 pi4 true sx true true sy true t = mkFloat F w sy (if sx then T.pi else 0)

theorem atan2_table (h : FmtW F w) (B : CmpBuild) {T : PiTable} {pi pi2 pi4 one : BitVec w} {atan : BitVec w → BitVec w}
    (ok : Atan2Ok F w T pi pi2 pi4 one atan) {y x : BitVec w} {m : Nat} (hm : atan2Table F T y x = some m) :
    atan2With (sArc B F w) pi pi2 pi4 one atan y x = mkFloat F w (fneg F y) m := by
  unfold atan2Table at hm
  have hy : isNaN F y = false := by
    cases e : isNaN F y with
    | false => rfl
    | true => simp [e] at hm
  have hx : isNaN F x = false := by
    cases e : isNaN F x with
    | false => rfl
    | true => simp [e] at hm
  rw [atan2_post h B pi pi2 pi4 one ok.abs atan hy hx]
  have zf : ∀ z : BitVec w, fmag F z = 0 → isFinite F z = true := by
    intro z hz; unfold isFinite; rw [hz]; cases h <;> decide +kernel
  have i1 := isInf_of hy
  have i2 := isInf_of hx
  simp only [hx, hy, Bool.or_self, Bool.false_eq_true, if_false] at hm
  by_cases y0 : fmag F y = 0
  · rw [if_pos y0] at hm
    obtain rfl := Option.some.inj hm
    have fy := zf y y0
    rw [fy] at i1
    by_cases x0 : fmag F x = 0
    · rw [zf x x0, fy, decide_eq_true x0, decide_eq_true y0]; exact ok.zz ..
    · rw [fy, if_pos rfl, fDiv_zero_left y0 i1 hy hx x0, ok.zero, decide_eq_true y0, decide_eq_false x0]
      exact ok.yZero ..
  rw [if_neg y0] at hm
  rw [decide_eq_false y0]
  by_cases x0 : fmag F x = 0
  · rw [if_pos x0] at hm
    obtain rfl := Option.some.inj hm
    have fx := zf x x0
    rw [fx] at i2
    rw [fx, decide_eq_true x0]
    cases fy : isFinite F y with
    | true =>
      rw [fy] at i1
      rw [if_pos rfl, fDiv_zero_right y0 i1 hy x0 i2 hx, ok.inf]; exact ok.xZero ..
    | false =>
      rw [fy] at i1
      obtain ⟨o1, o2, o3⟩ := ok.one (fneg F x)
      rw [if_neg (by simp), copysignL_eq h, fDiv_inf_left i1 hy o3 o2, o1, ok.inf]; exact ok.xZero ..
  rw [if_neg x0] at hm
  rw [decide_eq_false x0]
  cases fy : isFinite F y with
  | false =>
    rw [fy] at i1
    simp only [i1, Bool.not_false, if_true] at hm
    obtain rfl := Option.some.inj hm
    obtain ⟨o1, o2, o3⟩ := ok.one (fneg F x)
    rw [if_neg (by simp), copysignL_eq h, fDiv_inf_left i1 hy o3 o2, o1, ok.inf, i2]
    cases fx : isFinite F x with
    | true => exact ok.yInf ..
    | false => exact ok.both ..
  | true =>
    rw [fy] at i1
    simp only [i1, Bool.not_true, Bool.false_eq_true, if_false] at hm
    rw [if_pos rfl]
    cases fx : isFinite F x with
    | true => rw [fx] at i2; simp [i2] at hm
    | false =>
      rw [fx] at i2
      simp only [i2, Bool.not_false, if_true] at hm
      obtain rfl := Option.some.inj hm
      rw [fDiv_inf_right i1 hy i2 hx, ok.zero]; exact ok.xInf ..
end

def piF : PiTable := ⟨0x40490fdb, 0x3fc90fdb, 0x3f490fdb, 0x4016cbe4⟩
def piD : PiTable := ⟨0x400921fb54442d18, 0x3ff921fb54442d18, 0x3fe921fb54442d18, 0x4002d97c7f3321d2⟩

theorem atan2Ok_F (B : CmpBuild) : Atan2Ok f32 32 piF 0x40490fdb#32 0x3fc90fdb#32 0x3f490fdb#32 0x3f800000#32 (atanF (sArc B f32 32)) where
  abs := by decide +kernel
  zero := by cases B <;> decide +kernel
  inf := by cases B <;> decide +kernel
  one := by decide +kernel
  yZero := by decide +kernel
  xZero := by decide +kernel
  xInf := by decide +kernel
  yInf := by decide +kernel
  both := by decide +kernel
  zz := by
    intro sx sy t
    unfold atan2Post
    simp only [Bool.and_self, if_true]
    revert sx sy; decide +kernel

theorem atan2Ok_D (B : CmpBuild) : Atan2Ok f64 64 piD 0x400921fb54442d18#64 0x3ff921fb54442d18#64 0x3fe921fb54442d18#64
    0x3ff0000000000000#64 (atanD (sArc B f64 64)) where
  abs := by decide +kernel
  zero := by cases B <;> decide +kernel
  inf := by cases B <;> decide +kernel
  one := by decide +kernel
  yZero := by decide +kernel
  xZero := by decide +kernel
  xInf := by decide +kernel
  yInf := by decide +kernel
  both := by decide +kernel
  zz := by
    intro sx sy t
    unfold atan2Post
    simp only [Bool.and_self, if_true]
    revert sx sy; decide +kernel

/-! ### `atan` -/

section
variable {F : Fmt} {w : Nat}
theorem lt_flip (h : FmtW F w) {x : BitVec w} (hx : isNaN F x = false) (h0 : fmag F x ≠ 0) :
    fLt F (x ^^^ sgn w) 0#w = !fLt F x 0#w := by
  have hx' : isNaN F (x ^^^ sgn w) = false := by unfold isNaN at hx ⊢; rw [fmag_flip h]; exact hx
  have m' : fmag F (x ^^^ sgn w) = fmag F x := fmag_flip h x
  rw [(zero_class h hx').2.1, (zero_class h hx).2.1, m', decide_eq_false h0, fneg_flip h]
  simp
end

/-- `atan` of float up to the sign, from the absolute value. -/
def coreF (B : CmpBuild) (x : BitVec 32) : BitVec 32 :=
  let O := sArc B f32 32
  let hi := O.gt x (O.c 0x401a827a#32)
  let lo := O.andM (O.gt x (O.c 0x3ed413cd#32)) (O.notM hi)
  let y := O.c 0#32
  let y := O.set y hi (O.c 0x3fc90fdb#32)
  let y := O.set y lo (O.c 0x3f490fdb#32)
  let x := O.set x hi (O.div (O.neg (O.c 0x3f800000#32)) x)
  let x := O.set x lo (O.div (O.sub x (O.c 0x3f800000#32)) (O.add x (O.c 0x3f800000#32)))
  let x2 := O.mul x x
  let p := O.sub (O.mul (O.c 0x3da4f0d1#32) x2) (O.c 0x3e0e1b85#32)
  let p := O.add (O.mul p x2) (O.c 0x3e4c925f#32)
  let p := O.sub (O.mul p x2) (O.c 0x3eaaaa2a#32)
  O.add y (O.add (O.mul (O.mul p x2) x) x)

/-- `atan` of double up to the sign, from the absolute value. -/
def coreD (B : CmpBuild) (x : BitVec 64) (finite : Bool) : BitVec 64 :=
  let O := sArc B f64 64
  let ret := O.c 0x3ff921fb54442d18#64
  let y := O.c 0#64
  let large := O.gt x (O.c 0x4003504f333f9de6#64)
  let gt06 := O.gt x (O.c 0x3fe51eb851eb851f#64)
  let tmp := O.div (O.sub x (O.c 0x3ff0000000000000#64)) (O.add x (O.c 0x3ff0000000000000#64))
  let tmp := O.set tmp large (O.div (O.neg (O.c 0x3ff0000000000000#64)) x)
  let x := O.set x gt06 tmp
  let y := O.set y gt06 (O.c 0x3fe921fb54442d18#64)
  let y := O.set y large (O.c 0x3ff921fb54442d18#64)
  let z := O.mul x x
  let p := horner O.toArith z (O.c 0xbfec007fa1f72594#64)
    [0xc03028545b6b807a#64, 0xc052c08c36880273#64, 0xc05eb8bf2d05ba25#64, 0xc0503669fd28ec8e#64]
  let q := horner O.toArith z (O.add z (O.c 0x4038dbc45b14603c#64))
    [0x4064a0dd43b8fa25#64, 0x407b0e18d2e2be3b#64, 0x407e563f13b049ea#64, 0x4068519efbbd62ec#64]
  let z := O.div (O.mul z p) q
  let z := O.add (O.mul x z) x
  let more := O.c 0x3c91a62633145c07#64
  let more := O.set more (O.notM large) (O.mul more (O.c 0x3fe0000000000000#64))
  let z := O.set z gt06 (O.add z more)
  O.set ret finite (O.add y z)

theorem atanF_core (B : CmpBuild) (v : BitVec 32) : atanF (sArc B f32 32) v =
    if isNaN f32 v then BitVec.allOnes 32 else if fLt f32 v 0#32 then coreF B (absL v) ^^^ sgn 32 else coreF B (absL v) := rfl

theorem atanD_core (B : CmpBuild) (v : BitVec 64) : atanD (sArc B f64 64) v =
    if isNaN f64 v then BitVec.allOnes 64 else if fLt f64 v 0#64 then coreD B (absL v) (isFinite f64 v) ^^^ sgn 64
    else coreD B (absL v) (isFinite f64 v) := rfl

theorem atanF_nan (B : CmpBuild) {x : BitVec 32} (hx : isNaN f32 x = true) : atanF (sArc B f32 32) x = BitVec.allOnes 32 := by
  rw [atanF_core, if_pos hx]

theorem atanF_odd (B : CmpBuild) {x : BitVec 32} (hx : isNaN f32 x = false) (h0 : fmag f32 x ≠ 0) :
    atanF (sArc B f32 32) (x ^^^ sgn 32) = atanF (sArc B f32 32) x ^^^ sgn 32 := by
  have hx' : isNaN f32 (x ^^^ sgn 32) = false := by unfold isNaN at hx ⊢; rw [fmag_flip .single]; exact hx
  rw [atanF_core, atanF_core, hx, hx', absL_flip (w := 32) (by decide), lt_flip .single hx h0]
  generalize coreF B _ = r
  cases fLt f32 x 0#32
  · simp only [Bool.not_false, Bool.false_eq_true, if_false, if_true]
  · simp only [Bool.not_true, Bool.false_eq_true, if_false, if_true]
    rw [BitVec.xor_assoc, BitVec.xor_self, BitVec.xor_zero]

theorem atanD_nan (B : CmpBuild) {x : BitVec 64} (hx : isNaN f64 x = true) : atanD (sArc B f64 64) x = BitVec.allOnes 64 := by
  rw [atanD_core, if_pos hx]

theorem atanD_odd (B : CmpBuild) {x : BitVec 64} (hx : isNaN f64 x = false) (h0 : fmag f64 x ≠ 0) :
    atanD (sArc B f64 64) (x ^^^ sgn 64) = atanD (sArc B f64 64) x ^^^ sgn 64 := by
  have hx' : isNaN f64 (x ^^^ sgn 64) = false := by unfold isNaN at hx ⊢; rw [fmag_flip .double]; exact hx
  have hf : isFinite f64 (x ^^^ sgn 64) = isFinite f64 x := by unfold isFinite; rw [fmag_flip .double]
  rw [atanD_core, atanD_core, hx, hx', hf, absL_flip (w := 64) (by decide), lt_flip .double hx h0]
  generalize coreD B _ _ = r
  cases fLt f64 x 0#64
  · simp only [Bool.not_false, Bool.false_eq_true, if_false, if_true]
  · simp only [Bool.not_true, Bool.false_eq_true, if_false, if_true]
    rw [BitVec.xor_assoc, BitVec.xor_self, BitVec.xor_zero]

theorem atan2_nan {F : Fmt} {w : Nat} (B : CmpBuild) (pi pi2 pi4 one : BitVec w) (atan : BitVec w → BitVec w) {y x : BitVec w}
    (hx : (isNaN F y || isNaN F x) = true) : atan2With (sArc B F w) pi pi2 pi4 one atan y x = BitVec.allOnes w := by
  unfold atan2With; simp only [sArc, hx, if_true]

end Vc.Lemma
