import Verif.Lemma.ExpD
import Verif.Lemma.ExpF5
import Verif.Lemma.FloatCvt2

/-!
`exp` of double: lane by lane, and its accuracy.
-/

namespace Vc.Lemma
open Vc.Model Vc.Spec

attribute [local irreducible] LdexpR

/-- Numbers for which `floor` works everywhere. -/
def FloorDom (a : BitVec 64) : Prop := isFinite f64 a = true → |rval f64 a| < 2 ^ 52

/-- What `exp` needs of the operations it calls. -/
structure ExpOpsD {n : Nat} (floor : BitVec n → BitVec n) (cvtt : BitVec n → M128) (ldexp : BitVec n → M128 → BitVec n)
    (blend : BitVec n → BitVec n → BitVec n → BitVec n) : Prop where
  floorOk : ∀ (x : BitVec n) (i : Nat), 64 * (i + 1) ≤ n → FloorDom (lane 64 x i) →
    RoundsTo f64 IsFloor (lane 64 x i) (lane 64 (floor x) i)
  ldexpOk : ∀ (v z : BitVec n) (i : Nat), 64 * (i + 1) ≤ n →
    LdexpR f64 (lane 64 v i) (cvttF2I f64 (lane 64 z i)).toInt (lane 64 (ldexp v (cvtt z)) i)
  blendOk : ∀ (x y m : BitVec n) (i : Nat) (p : Bool), 64 * (i + 1) ≤ n → lane 64 m i = laneMask p →
    lane 64 (blend x y m) i = if p then lane 64 y i else lane 64 x i

theorem floorDom_fval {a : BitVec 64} (h : FloorDom a) (hf : isFinite f64 a = true) :
    (fval f64 a).natAbs < 2 ^ 52 * 2 ^ oneExp f64 := by
  have h1 := h hf
  have hp := one_pos f64
  unfold rval at h1
  rw [abs_div, abs_of_pos hp, div_lt_iff₀ hp] at h1
  have h2 : (((fval f64 a).natAbs : Nat) : ℝ) < ((2 ^ 52 * 2 ^ oneExp f64 : Nat) : ℝ) := by
    rw [Nat.cast_natAbs, Int.cast_abs, Nat.cast_mul, Nat.cast_pow, Nat.cast_pow, Nat.cast_ofNat]; exact h1
  exact_mod_cast h2

/-- The powers of the core library and those of Mathlib. -/
theorem core_pow (N a b : Nat) (h : N < 2 ^ a * 2 ^ b) :
    N < @HPow.hPow Nat Nat Nat (@instHPow Nat Nat instPowNat) 2 a * @HPow.hPow Nat Nat Nat (@instHPow Nat Nat instPowNat) 2 b := h

theorem floorPd_ok (I : Isa) (x : M128) (i : Nat) (hi : 64 * (i + 1) ≤ 128) (hd : FloorDom (lane 64 x i)) :
    RoundsTo f64 IsFloor (lane 64 x i) (lane 64 (vFloorPd I x) i) := by
  have h := Prop.C56_double_partial I x (i := i) (by omega) (.inr fun hf => core_pow _ 52 (oneExp f64) (floorDom_fval hd hf))
  exact h.2.1

theorem ldexpPd_ok (v z : M128) (i : Nat) (hi : 64 * (i + 1) ≤ 128) :
    LdexpR f64 (lane 64 v i) (cvttF2I f64 (lane 64 z i)).toInt
      (lane 64 (ldexpSseD v (lane 32 (cvttpd z) 0) (lane 32 (cvttpd z) 1)) i) := by
  have h := lane_ldexpSseD v (lane 32 (cvttpd z) 0) (lane 32 (cvttpd z) 1) (i := i) (by omega)
  have e : (if i = 0 then lane 32 (cvttpd z) 0 else lane 32 (cvttpd z) 1) = cvttF2I f64 (lane 64 z i) := by
    rcases (by omega : i = 0 ∨ i = 1) with rfl | rfl
    · rw [if_pos rfl, lane_cvttpd _ (by decide)]
    · rw [if_neg (by decide), lane_cvttpd _ (by decide)]
  rwa [e] at h

theorem expOps_sseD (I : Isa) : ExpOpsD (vFloorPd I) cvttpd (fun v e => ldexpSseD v (lane 32 e 0) (lane 32 e 1)) (blendv I 64) where
  floorOk := floorPd_ok I
  ldexpOk := ldexpPd_ok
  blendOk x y m i p hi hm := lane_blendv I (v := 64) (c := 1) rfl (by decide) hi x y m hm

theorem expOps_avxD (avx2 : Bool) : ExpOpsD (vRoundIntr f64 64 .down) cvttpd256 (ldexpAvxD avx2) (blendvIntr 64) where
  floorOk x i hi _ := (Prop.C56_instruction Platform.avxDouble x .down hi).1
  ldexpOk v z i hi := by
    have h := lane_ldexpAvxD avx2 v (cvttpd256 z) (i := i) (by omega)
    rwa [lane_cvttpd256 _ (by omega)] at h
  blendOk x y m i p hi hm := by
    rw [lane_blendvIntr _ _ _ hi, hm]
    cases p <;> rfl

/-- What one lane of `exp` is. -/
def ExpLaneD (B : CmpBuild) (x r : BitVec 64) : Prop :=
  ∃ z t, (FloorDom (expArgDL x) → RoundsTo f64 IsFloor (expArgDL x) z) ∧
    LdexpR f64 (expRatL (expRedDL x z)) (cvttF2I f64 z).toInt t ∧
    r = if fLt f64 x minlog then 0#64 else if gtL B f64 x maxlog then 0x7ff0000000000000#64 else t

theorem lane_expRatD {n : Nat} (x : BitVec n) {i : Nat} (hi : 64 * (i + 1) ≤ n) :
    lane 64 (expRatD x) i = expRatL (lane 64 x i) := by
  unfold expRatD expRatL vFAdd vFMul vFSub vFDiv
  simp only [lane_map2 _ _ _ hi, lane_set1 _ hi]

theorem lane_expArgD {n : Nat} (x : BitVec n) {i : Nat} (hi : 64 * (i + 1) ≤ n) :
    lane 64 (expArgD x) i = expArgDL (lane 64 x i) := by
  unfold expArgD expArgDL vFAdd vFMul
  simp only [lane_map2 _ _ _ hi, lane_set1 _ hi]

theorem lane_expRedD {n : Nat} (x z : BitVec n) {i : Nat} (hi : 64 * (i + 1) ≤ n) :
    lane 64 (expRedD x z) i = expRedDL (lane 64 x i) (lane 64 z i) := by
  unfold expRedD expRedDL vFSub vFMul
  simp only [lane_map2 _ _ _ hi, lane_set1 _ hi]

theorem lane_vExpD {n : Nat} (B : CmpBuild) {floor : BitVec n → BitVec n} {cvtt : BitVec n → M128}
    {ldexp : BitVec n → M128 → BitVec n} {blend : BitVec n → BitVec n → BitVec n → BitVec n}
    (h : ExpOpsD floor cvtt ldexp blend) (x : BitVec n) {i : Nat} (hi : 64 * (i + 1) ≤ n) :
    ExpLaneD B (lane 64 x i) (lane 64 (vExpD B floor cvtt ldexp blend x) i) := by
  refine ⟨lane 64 (floor (expArgD x)) i,
    lane 64 (ldexp (expRatD (expRedD x (floor (expArgD x)))) (cvtt (floor (expArgD x)))) i, ?_, ?_, ?_⟩
  · have := h.floorOk (expArgD x) i hi
    rwa [lane_expArgD _ hi] at this
  · have := h.ldexpOk (expRatD (expRedD x (floor (expArgD x)))) (floor (expArgD x)) i hi
    rwa [lane_expRatD _ hi, lane_expRedD _ _ hi] at this
  · unfold vExpD
    simp only
    rw [lane_andnot _ _ hi, h.blendOk _ _ _ i _ hi (lane_vFGt B f64 64 x _ hi), lane_vFLt _ _ _ _ hi, lane_set1 _ hi,
      lane_set1 _ hi, lane_set1 _ hi, andnot_laneMask]

theorem maxlog_real : isFinite f64 maxlog = true ∧ rval f64 maxlog = 3115560397004393 / 4398046511104 := expD_maxlog
theorem minlog_real : isFinite f64 minlog = true ∧ rval f64 minlog = -(3115560397004393 / 4398046511104) := expD_minlog

/-- No number of the format lies between a negative pattern and the next one. -/
theorem prev_rval {F : Fmt} {w : Nat} {x a b : BitVec w} (hb : fmag F b = fmag F a + 1) (ha : fneg F a = true)
    (hbn : fneg F b = true) (ha0 : 0 < fmag F a) (h : rval F x < rval F a) : rval F x ≤ rval F b := by
  rw [rval_lt] at h
  rw [rval_le]
  by_contra hc
  rw [not_le] at hc
  have h0 : 0 < magVal F (fmag F a) := lt_of_le_of_lt (Nat.zero_le _) ((magVal_lt_iff F).mpr ha0)
  unfold fval at h hc
  rw [ha] at h
  rw [hbn] at hc
  simp only [if_true] at h hc
  cases hx : fneg F x
  · rw [hx] at h
    simp only [Bool.false_eq_true, if_false] at h
    omega
  · rw [hx] at h hc
    simp only [if_true] at h hc
    have h1 := (magVal_lt_iff F).mp (by omega : magVal F (fmag F a) < magVal F (fmag F x))
    have h2 := (magVal_lt_iff F).mp (by omega : magVal F (fmag F x) < magVal F (fmag F b))
    omega

theorem expD_over {x : BitVec 64} (h : rval f64 maxlog < rval f64 x) : 1022 * Real.log 2 < rval f64 x := by
  have h1 := next_rval (F := f64) (b := 0x4086232bdd7abcd3#64) (by decide) (by decide) (by decide) h
  rw [expD_maxlog2.2] at h1
  have := log2_lt
  norm_num at h1 this ⊢
  linarith

theorem expD_under {x : BitVec 64} (h : rval f64 x < rval f64 minlog) : rval f64 x < -1022 * Real.log 2 := by
  have h1 := prev_rval (F := f64) (b := 0xc086232bdd7abcd3#64) (by decide) (by decide) (by decide) (by decide) h
  rw [expD_minlog2.2] at h1
  have := log2_lt
  norm_num at h1 this ⊢
  linarith

/-- The case in which the result is scaled by `ldexp`. -/
theorem expD_scaled {B : CmpBuild} {x r : BitVec 64} (h : ExpLaneD B x r) (hx : isFinite f64 x = true)
    (h1 : rval f64 minlog ≤ rval f64 x) (h2 : rval f64 x ≤ rval f64 maxlog) :
    ∃ (n : Int) (z : BitVec 64), LdexpR f64 z n r ∧ |n| ≤ 1022 ∧ isFinite f64 z = true ∧
      |rval f64 x - n * Real.log 2| ≤ 0.346574 ∧
      |rval f64 z - Real.exp (rval f64 x - n * Real.log 2)| ≤ 1 / 2 ^ 50 * Real.exp (rval f64 x - n * Real.log 2) := by
  have hmax := maxlog_real
  have hmin := minlog_real
  have hX : |rval f64 x| ≤ 708.4 := by
    clear h hx
    rw [hmax.2] at h2; rw [hmin.2] at h1
    rw [abs_le]; constructor
    · norm_num; linarith
    · norm_num; linarith
  obtain ⟨z, t, hz, ht, hr⟩ := h
  rw [fLt_real hx hmin.1, gtL_real B hx hmax.1, decide_eq_false (not_lt.mpr h1), decide_eq_false (not_lt.mpr h2)] at hr
  simp only [Bool.false_eq_true, if_false] at hr
  subst hr
  have hA := expArgDL_apx hx (le_trans hX (by norm_num))
  have hdom : FloorDom (expArgDL x) := by
    intro _
    have h3 := abs_le.mp hA.2
    have h4 := abs_le.mp hX
    rw [abs_lt]
    norm_num at h3 h4 ⊢
    constructor <;> linarith
  obtain ⟨n, zf, zv, f1, f2⟩ := roundsFloor_real (hz hdom) hA.1
  obtain ⟨hn, hr, pf, pe⟩ := expD_mantissa hx hX zf (rval_int zv) f1 f2
  have hn' := abs_le.mp hn
  have hcv := cvtt_int zf zv (le_trans (by decide) hn'.1) (lt_of_le_of_lt hn'.2 (by decide))
  rw [hcv] at ht
  exact ⟨n, expRatL (expRedDL x z), ht, hn, pf, hr, pe⟩

theorem expD_main {B : CmpBuild} {x r : BitVec 64} (h : ExpLaneD B x r) (hx : isFinite f64 x = true)
    (hlo : 2 ^ (-1022 : Int) ≤ Real.exp (rval f64 x)) (hhi : Real.exp (rval f64 x) < 2 ^ (1022 : Int)) :
    isFinite f64 r = true ∧ |rval f64 r - Real.exp (rval f64 x)| ≤ 1 / 2 ^ 50 * Real.exp (rval f64 x) := by
  have l1 := log2_gt
  have l2 := log2_lt
  rw [exp_lt_zpow] at hhi
  rw [zpow_le_exp] at hlo
  push_cast at hhi hlo
  have hX1 : rval f64 x ≤ rval f64 maxlog := by
    by_contra hc
    have := expD_over (not_le.mp hc)
    linarith
  have hX2 : rval f64 minlog ≤ rval f64 x := by
    by_contra hc
    have := expD_under (not_le.mp hc)
    linarith
  obtain ⟨n, z, hr, hn, zf, hR, hz⟩ := expD_scaled h hx hX2 hX1
  have he := exp_add_log2 (rval f64 x) n
  obtain ⟨e1, e2⟩ := exp_range (le_trans hR (by norm_num))
  have hX3 := hX2
  rw [minlog_real.2] at hX3
  have hn1022 : n = -1022 → 1 + 2.7e-14 ≤ Real.exp (rval f64 x - n * Real.log 2) := by
    intro hn
    rw [hn]
    have hd : 2.7e-14 ≤ rval f64 x - ((-1022 : Int) : ℝ) * Real.log 2 := by
      push_cast
      norm_num at l1 hX3 ⊢
      linarith
    refine le_trans ?_ (Real.exp_le_exp.mpr hd)
    have h1 := Real.add_one_le_exp (2.7e-14 : ℝ)
    linarith
  generalize hE : Real.exp (rval f64 x - n * Real.log 2) = E at *
  obtain ⟨z1, z2⟩ := mant_bounds e1 e2 (by norm_num) hz
  have hz' := abs_le.mp hz
  have hb : (bias f64 : Int) = 1023 := by decide
  have h2n : (0 : ℝ) < 2 ^ n := by positivity
  have hn' := abs_le.mp hn
  have key : isFinite f64 r = true ∧ fneg f64 r = false ∧ rval f64 r = rval f64 z * 2 ^ n := by
    refine mant_scale .double hr z1 z2 ?_ ?_
    · rw [hb]
      rcases eq_or_lt_of_le hn'.1 with heq | hlt
      · right
        refine ⟨by omega, ?_⟩
        have := hn1022 heq.symm
        norm_num at this hz' e2 ⊢
        linarith
      · left; omega
    · rw [hb]; left; omega
  refine ⟨key.1, ?_⟩
  rw [key.2.2, he, ← sub_mul, abs_mul, abs_of_pos h2n, ← mul_assoc]
  exact mul_le_mul_of_nonneg_right hz (le_of_lt h2n)

theorem expD_small_main {B : CmpBuild} {x r : BitVec 64} (h : ExpLaneD B x r) (hx : isFinite f64 x = true)
    (hlo : Real.exp (rval f64 x) < 2 ^ (-1022 : Int)) : r = 0#64 := by
  have l1 := log2_gt
  have l2 := log2_lt
  rw [exp_lt_zpow] at hlo
  push_cast at hlo
  have h1 : rval f64 x < rval f64 minlog := by
    rw [minlog_real.2]; norm_num at l1 ⊢; linarith
  obtain ⟨z, t, hz, ht, hr⟩ := h
  rw [fLt_real hx minlog_real.1, decide_eq_true h1] at hr
  exact hr

theorem expD_large_main {B : CmpBuild} {x r : BitVec 64} (h : ExpLaneD B x r) (hx : isFinite f64 x = true)
    (hlo : 2 ^ (1022 : Int) ≤ Real.exp (rval f64 x)) : r = 0x7ff0000000000000#64 := by
  have l1 := log2_gt
  rw [zpow_le_exp] at hlo
  push_cast at hlo
  have h1 : rval f64 maxlog < rval f64 x := by
    rw [maxlog_real.2]; norm_num at l1 ⊢; linarith
  have h2 : ¬rval f64 x < rval f64 minlog := by
    rw [maxlog_real.2] at h1
    rw [minlog_real.2]; norm_num at h1 ⊢; linarith
  obtain ⟨z, t, hz, ht, hr⟩ := h
  rw [fLt_real hx minlog_real.1, gtL_real B hx maxlog_real.1, decide_eq_true h1, decide_eq_false h2] at hr
  simpa using hr

theorem expArgDL_nan {x : BitVec 64} (hx : isNaN f64 x = true) : isNaN f64 (expArgDL x) = true :=
  fAdd_nan (.inl (fMul_nan (.inr hx)))

theorem expRedDL_nan {x : BitVec 64} (hx : isNaN f64 x = true) (z : BitVec 64) : isNaN f64 (expRedDL x z) = true :=
  isNaN_fSub_left (isNaN_fSub_left hx _) _

theorem isNaN_fDiv_left {F : Fmt} {w : Nat} {x : BitVec w} (hx : isNaN F x = true) (y : BitVec w) :
    isNaN F (fDiv F x y) = true := by
  unfold fDiv; simp only [hx, if_true]; exact isNaN_quiet hx

theorem expRatL_nan {x : BitVec 64} (hx : isNaN f64 x = true) : isNaN f64 (expRatL x) = true :=
  fAdd_nan (.inr (fMul_nan (.inr (isNaN_fDiv_left (fMul_nan (.inl hx)) _))))

theorem ldexpR_nan64 {x r : BitVec 64} (h : LdexpR f64 x (-2147483648) r) (hx : isNaN f64 x = true) : r = x := by
  unfold LdexpR at h
  have : fmag f64 x ≠ 0 := by
    intro e; unfold isNaN at hx; rw [e] at hx; exact absurd hx (by decide)
  rw [if_neg this] at h
  obtain ⟨k, hk⟩ := h
  apply BitVec.eq_of_toNat_eq
  have h1 := x.isLt
  have h2 := r.isLt
  have : f64.m = 52 := rfl
  rw [this] at hk
  omega

theorem expD_nan {B : CmpBuild} {x r : BitVec 64} (h : ExpLaneD B x r) (hx : isNaN f64 x = true) (hB : B ≠ .avx) :
    isNaN f64 r = true := by
  obtain ⟨z, t, hz, ht, hr⟩ := h
  rw [fLt_nan hx, gtL_nan hx _ hB] at hr
  simp only [Bool.false_eq_true, if_false] at hr
  subst hr
  have ha := expArgDL_nan hx
  have hd : FloorDom (expArgDL x) := by
    intro hf
    unfold isNaN at ha; unfold isFinite at hf
    have := of_decide_eq_true ha
    have := of_decide_eq_true hf
    omega
  rw [cvtt_nan ((hz hd).2.2 ha)] at ht
  have hn := expRatL_nan (expRedDL_nan hx z)
  rw [ldexpR_nan64 ht hn]
  exact hn

theorem expD_avx_nan {x r : BitVec 64} (h : ExpLaneD .avx x r) (hx : isNaN f64 x = true) : r = 0x7ff0000000000000#64 := by
  obtain ⟨z, t, hz, ht, hr⟩ := h
  rw [fLt_nan hx, gtL_avx_nan hx] at hr
  exact hr

theorem isInf_iff64 {x : BitVec 64} (h : isInf f64 x = true) :
    x = if fneg f64 x then 0xfff0000000000000#64 else 0x7ff0000000000000#64 := by
  have hs := toNat_sm .double x
  unfold isInf at h
  have hm := of_decide_eq_true h
  have e : infMag f64 = 0x7ff0000000000000 := by decide
  rw [hm, e] at hs
  apply BitVec.eq_of_toNat_eq
  rw [hs]
  cases fneg f64 x <;> rfl

theorem expD_inf {B : CmpBuild} {x r : BitVec 64} (h : ExpLaneD B x r) (hx : isInf f64 x = true) :
    r = if fneg f64 x then 0#64 else 0x7ff0000000000000#64 := by
  obtain ⟨z, t, hz, ht, hr⟩ := h
  have e := isInf_iff64 hx
  cases hs : fneg f64 x
  · rw [hs] at e
    simp only [Bool.false_eq_true, if_false] at e ⊢
    rw [hr, e]
    have h1 : fLt f64 0x7ff0000000000000#64 minlog = false := by decide +kernel
    have h2 : gtL B f64 0x7ff0000000000000#64 maxlog = true := by cases B <;> decide +kernel
    rw [h1, h2]; rfl
  · rw [hs] at e
    simp only [if_true] at e ⊢
    rw [hr, e]
    have h1 : fLt f64 0xfff0000000000000#64 minlog = true := by decide +kernel
    rw [h1]; rfl

end Vc.Lemma
