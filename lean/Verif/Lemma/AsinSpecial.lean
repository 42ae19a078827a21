import Verif.Lemma.AsinLane
import Verif.Lemma.ArcSpecial
import Verif.Lemma.FloatRound3

/-!
`asin` outside its domain, and its structure.
-/

namespace Vc.Lemma
open Vc.Model Vc.Spec Vc.Prop

section
variable {F : Fmt} {w : Nat} {a c : BitVec w}

theorem lt_mag (ha : fneg F a = false) (hc : fneg F c = false) (na : isNaN F a = false) (nc : isNaN F c = false) :
    fLt F a c = decide (fmag F a < fmag F c) := by
  unfold fLt fval
  rw [na, nc, ha, hc]
  simp [magVal_lt_iff]

theorem le_mag (ha : fneg F a = false) (hc : fneg F c = false) (na : isNaN F a = false) (nc : isNaN F c = false) :
    fLe F a c = decide (fmag F a ≤ fmag F c) := by
  unfold fLe fval
  rw [na, nc, ha, hc]
  simp only [Bool.not_false, Bool.true_and, Bool.false_eq_true, if_false]
  congr 1
  rw [eq_iff_iff, Int.ofNat_le, ← not_lt, ← not_lt, magVal_lt_iff]

theorem gt_mag (B : CmpBuild) (ha : fneg F a = false) (hc : fneg F c = false) (na : isNaN F a = false) (nc : isNaN F c = false) :
    gtL B F a c = decide (fmag F c < fmag F a) := by
  cases B
  · exact lt_mag hc ha nc na
  · exact lt_mag hc ha nc na
  · unfold gtL
    rw [le_mag ha hc na nc]
    by_cases h : fmag F a ≤ fmag F c
    · simp [h]
    · simp [h]; omega

theorem gt_nan (B : CmpBuild) (na : isNaN F a = true) (c : BitVec w) : gtL B F a c = match B with | .avx => true | _ => false := by
  cases B <;> unfold gtL fLt fLe <;> simp [na]
end

/-- `asin` of float up to the sign, from the absolute value. -/
def asF (B : CmpBuild) (a : BitVec 32) : BitVec 32 :=
  let O := sArc B f32 32
  let small := O.lt a (O.c 0x38d1b717#32)
  let gt05 := O.gt a (O.c 0x3f000000#32)
  let x := a
  let z := O.mul a a
  let z := O.set z gt05 (O.mul (O.sub (O.c 0x3f800000#32) a) (O.c 0x3f000000#32))
  let x := O.set x gt05 (fSqrt f32 z)
  let p := horner O.toArith z (O.c 0x3d2cb352#32) [0x3cc617e3#32, 0x3d3a3ec7#32, 0x3d9980f6#32, 0x3e2aaae4#32]
  let z := O.add (O.mul (O.mul p z) x) x
  let z := O.set z gt05 (O.sub (O.c 0x3fc90fdb#32) (O.add z z))
  O.set z small a

/-- `asin` of double up to the sign, from the absolute value, not a small one. -/
def asD (B : CmpBuild) (a : BitVec 64) : BitVec 64 :=
  let O := sArc B f64 64
  let large := O.gt a (O.c 0x3fe4000000000000#64)
  let zz := O.sub (O.c 0x3ff0000000000000#64) a
  let r := horner O.toArith zz (O.c 0x3f684fc3988e9f08#64)
    [0xbfe2079259f9290f#64, 0x401bdff5baf33e6a#64, 0xc03991aaac01ab68#64, 0x403c896240f3081d#64]
  let s := horner O.toArith zz (O.add zz (O.c 0xc035f2a2b6bf5d8c#64))
    [0x40626219af6a7f42#64, 0xc077fe08959063ee#64, 0x40756709b0b644be#64]
  let sqrtzz := fSqrt f64 (O.add zz zz)
  let z := O.sub (O.c 0x3fe921fb54442d18#64) sqrtzz
  let z := O.sub z (O.sub (O.mul sqrtzz (O.div (O.mul zz r) s)) (O.c 0x3c91a62633145c07#64))
  let z := O.add z (O.c 0x3fe921fb54442d18#64)
  let a2 := O.mul a a
  let p := horner O.toArith a2 (O.c 0x3f716b9b0bd48ad3#64)
    [0xbfe34341333e5c16#64, 0x4015c74b178a2dd9#64, 0xc0304331de27907b#64, 0x40339007da779259#64, 0xc020656c06ceafd5#64]
  let q := horner O.toArith a2 (O.add a2 (O.c 0xc02d7b590b5e0eab#64))
    [0x40519fc025fe9054#64, 0xc06265bb6d3576d7#64, 0x4061705684ffbf9d#64, 0xc04898220a3607ac#64]
  O.set z (O.notM large) (O.add (O.mul a (O.div (O.mul a2 p) q)) a)

theorem asinF_core (B : CmpBuild) (v : BitVec 32) : asinF (sArc B f32 32) (fSqrt f32) v =
    if gtL B f32 (absL v) 0x3f800000#32 then BitVec.allOnes 32
    else if fLt f32 v 0#32 then asF B (absL v) ^^^ sgn 32 else asF B (absL v) := rfl

theorem asinD_core (B : CmpBuild) (v : BitVec 64) : asinD (sArc B f64 64) (fSqrt f64) v =
    if gtL B f64 (absL v) 0x3ff0000000000000#64 then BitVec.allOnes 64
    else if fLt f64 (absL v) 0x3e45798ee2308c3a#64 then v
    else if fLt f64 v 0#64 then asD B (absL v) ^^^ sgn 64 else asD B (absL v) := rfl

theorem gt_abs {F : Fmt} {w : Nat} (h : FmtW F w) (B : CmpBuild) {x c : BitVec w} (hx : isNaN F x = false)
    (hc : fneg F c = false) (nc : isNaN F c = false) : gtL B F (absL x) c = decide (fmag F c < fmag F x) := by
  rw [gt_mag B (absL_spec h x).1 hc ((isNaN_absL h x).trans hx) nc, (absL_spec h x).2]

theorem lt_abs {F : Fmt} {w : Nat} (h : FmtW F w) {x c : BitVec w} (hx : isNaN F x = false)
    (hc : fneg F c = false) (nc : isNaN F c = false) : fLt F (absL x) c = decide (fmag F x < fmag F c) := by
  rw [lt_mag (absL_spec h x).1 hc ((isNaN_absL h x).trans hx) nc, (absL_spec h x).2]

theorem fLt_nan {F : Fmt} {w : Nat} {a : BitVec w} (na : isNaN F a = true) (c : BitVec w) : fLt F a c = false := by
  unfold fLt; simp [na]

theorem asF_nan {B : CmpBuild} {a : BitVec 32} (hB : ∀ c, gtL B f32 a c = false) (ha : isNaN f32 a = true) :
    isNaN f32 (asF B a) = true := by
  unfold asF
  simp only [sArc, sArith, hB, fLt_nan ha, Bool.false_eq_true, if_false]
  exact fAdd_nan (.inr ha)

theorem asD_nan {B : CmpBuild} {a : BitVec 64} (hB : ∀ c, gtL B f64 a c = false) (ha : isNaN f64 a = true) :
    isNaN f64 (asD B a) = true := by
  unfold asD
  simp only [sArc, sArith, hB, Bool.not_false, if_true]
  exact fAdd_nan (.inr ha)

theorem asinF_nan (B : CmpBuild) {v : BitVec 32} (hv : isNaN f32 v = true) :
    isNaN f32 (asinF (sArc B f32 32) (fSqrt f32) v) = true := by
  have ha := (isNaN_absL .single v).trans hv
  rw [asinF_core, fLt_nan hv]
  cases hg : gtL B f32 (absL v) 0x3f800000#32
  · have : isNaN f32 (asF B (absL v)) = true := by
      refine asF_nan (fun c => ?_) ha
      rw [gt_nan B ha] at hg ⊢
      exact hg
    simpa using this
  · rw [if_pos rfl]; decide +kernel

theorem asinD_nan (B : CmpBuild) {v : BitVec 64} (hv : isNaN f64 v = true) :
    isNaN f64 (asinD (sArc B f64 64) (fSqrt f64) v) = true := by
  have ha := (isNaN_absL .double v).trans hv
  rw [asinD_core, fLt_nan hv, fLt_nan ha]
  cases hg : gtL B f64 (absL v) 0x3ff0000000000000#64
  · have : isNaN f64 (asD B (absL v)) = true := by
      refine asD_nan (fun c => ?_) ha
      rw [gt_nan B ha] at hg ⊢
      exact hg
    simpa using this
  · rw [if_pos rfl]; decide +kernel

theorem asinF_out (B : CmpBuild) {v : BitVec 32} (hv : fmag f32 0x3f800000#32 < fmag f32 v) :
    isNaN f32 (asinF (sArc B f32 32) (fSqrt f32) v) = true := by
  cases hn : isNaN f32 v
  · rw [asinF_core, gt_abs .single B hn (by decide +kernel) (by decide +kernel), decide_eq_true hv, if_pos rfl]
    decide +kernel
  · exact asinF_nan B hn

theorem asinD_out (B : CmpBuild) {v : BitVec 64} (hv : fmag f64 0x3ff0000000000000#64 < fmag f64 v) :
    isNaN f64 (asinD (sArc B f64 64) (fSqrt f64) v) = true := by
  cases hn : isNaN f64 v
  · rw [asinD_core, gt_abs .double B hn (by decide +kernel) (by decide +kernel), decide_eq_true hv, if_pos rfl]
    decide +kernel
  · exact asinD_nan B hn

theorem isNaN_small {F : Fmt} {w : Nat} {v c : BitVec w} (hv : fmag F v ≤ fmag F c) (hc : fmag F c < infMag F) : isNaN F v = false := by
  unfold isNaN; apply decide_eq_false; omega

theorem asF_small (B : CmpBuild) {v : BitVec 32} (hv : fmag f32 v < fmag f32 0x38d1b717#32) : asF B (absL v) = absL v := by
  have hn : isNaN f32 v = false := isNaN_small hv.le (by decide +kernel)
  have e : fLt f32 (absL v) 0x38d1b717#32 = true := by
    rw [lt_abs .single hn (by decide +kernel) (by decide +kernel), decide_eq_true hv]
  unfold asF
  simp only [sArc, sArith, id, e, if_true]

theorem absL_eq {F : Fmt} {w : Nat} (h : FmtW F w) (v : BitVec w) : absL v = if fneg F v then v ^^^ sgn w else v := by
  cases hs : fneg F v
  · rw [if_neg (by simp)]
    exact sm_ext h.width ((absL_spec h v).1.trans hs.symm) (absL_spec h v).2
  · rw [if_pos rfl]
    exact sm_ext h.width ((absL_spec h v).1.trans (by rw [fneg_flip h, hs]; rfl)) ((absL_spec h v).2.trans (fmag_flip h v).symm)

theorem asinF_small (B : CmpBuild) {v : BitVec 32} (hv : fmag f32 v < fmag f32 0x38d1b717#32) (h0 : fmag f32 v ≠ 0 ∨ fneg f32 v = false) :
    asinF (sArc B f32 32) (fSqrt f32) v = v := by
  have hn : isNaN f32 v = false := isNaN_small hv.le (by decide +kernel)
  have o : ¬ fmag f32 0x3f800000#32 < fmag f32 v := by
    have : fmag f32 0x38d1b717#32 < fmag f32 0x3f800000#32 := by decide +kernel
    omega
  rw [asinF_core, gt_abs .single B hn (by decide +kernel) (by decide +kernel), decide_eq_false o, asF_small B hv,
    (zero_class .single hn).2.1, absL_eq .single v]
  cases hs : fneg f32 v
  · simp
  · have : fmag f32 v ≠ 0 := by rcases h0 with h | h <;> simp_all
    simp [this, BitVec.xor_assoc]

theorem asinF_odd (B : CmpBuild) {v : BitVec 32} (hv : fmag f32 v ≤ fmag f32 0x3f800000#32) (h0 : fmag f32 v ≠ 0) :
    asinF (sArc B f32 32) (fSqrt f32) (v ^^^ sgn 32) = asinF (sArc B f32 32) (fSqrt f32) v ^^^ sgn 32 := by
  have hn : isNaN f32 v = false := isNaN_small hv (by decide +kernel)
  have g : gtL B f32 (absL v) 0x3f800000#32 = false := by
    rw [gt_abs .single B hn (by decide +kernel) (by decide +kernel), decide_eq_false (by omega)]
  rw [asinF_core, asinF_core, absL_flip (by decide), g, lt_flip .single hn h0]
  cases fLt f32 v 0#32 <;> simp [BitVec.xor_assoc]

theorem asinD_small (B : CmpBuild) {v : BitVec 64} (hv : fmag f64 v < fmag f64 0x3e45798ee2308c3a#64) :
    asinD (sArc B f64 64) (fSqrt f64) v = v := by
  have hn : isNaN f64 v = false := isNaN_small hv.le (by decide +kernel)
  have o : ¬ fmag f64 0x3ff0000000000000#64 < fmag f64 v := by
    have : fmag f64 0x3e45798ee2308c3a#64 < fmag f64 0x3ff0000000000000#64 := by decide +kernel
    omega
  rw [asinD_core, gt_abs .double B hn (by decide +kernel) (by decide +kernel), decide_eq_false o,
    lt_abs .double hn (by decide +kernel) (by decide +kernel), decide_eq_true hv]
  simp

theorem asinD_odd (B : CmpBuild) {v : BitVec 64} (hv : fmag f64 v ≤ fmag f64 0x3ff0000000000000#64) :
    asinD (sArc B f64 64) (fSqrt f64) (v ^^^ sgn 64) = asinD (sArc B f64 64) (fSqrt f64) v ^^^ sgn 64 := by
  have hn : isNaN f64 v = false := isNaN_small hv (by decide +kernel)
  have g : gtL B f64 (absL v) 0x3ff0000000000000#64 = false := by
    rw [gt_abs .double B hn (by decide +kernel) (by decide +kernel), decide_eq_false (by omega)]
  rw [asinD_core, asinD_core, absL_flip (by decide), g]
  cases hs : fLt f64 (absL v) 0x3e45798ee2308c3a#64
  · have h0 : fmag f64 v ≠ 0 := by
      intro e
      rw [lt_abs .double hn (by decide +kernel) (by decide +kernel), e] at hs
      revert hs; decide +kernel
    rw [lt_flip .double hn h0]
    cases fLt f64 v 0#64 <;> simp [BitVec.xor_assoc]
  · simp

end Vc.Lemma
