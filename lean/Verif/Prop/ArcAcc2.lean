import Verif.Lemma.Atan2Acc
import Verif.Prop.ArcAcc

/-!
C79: the precision of `atan2`.  The angle is the argument of the complex number with the real part `x` and the imaginary
part `y`.
-/

namespace Vc.Prop
open Vc.Model Vc.Spec Vc.Lemma

theorem atanErr_F (B : CmpBuild) : AtanErr f32 32 piF.half (atanF (sArc B f32 32)) where
  fin x hf := by
    have hw : WithinUlps f32 3 (Real.arctan (rval f32 x)) (atanF (sArc B f32 32) x) := by
      rw [atanF_core, (isFinite_not hf).1, if_neg (by decide)]
      obtain ⟨-, h0, h1, -⟩ := rval_absL .single x
      exact atan_sign .single hf (coreF_within B (h1.trans hf) h0)
    have hb := arctan_bound (rval f32 x)
    refine ⟨hw.1, ?_, ?_⟩
    · have := within_rel (by norm_num) hw; norm_num at this ⊢; exact this
    · have := within_two .single (by norm_num) (lt_of_le_of_lt hb (by norm_num)) hw; norm_num at this ⊢; exact this
  inf := (atan2Ok_F B).inf
  half s := by
    have h1 := pi_gt_d50
    have h2 := pi_lt_d50
    have e : uRel f32 = 1 / 16777216 := by unfold uRel; norm_num [f32]
    rw [e]
    cases s
    · rw [show mkFloat f32 32 false piF.half = 0x3fc90fdb#32 by decide +kernel]
      refine ⟨by decide, ?_⟩
      rw [rval_lit (v := 13176795 / 8388608) false 127 4788187 (-23) (by decide) (by decide) (by decide) (by decide) (by decide) (by norm_num [f32])]
      rw [abs_le]; norm_num at *; constructor <;> linarith
    · rw [show mkFloat f32 32 true piF.half = 0xbfc90fdb#32 by decide +kernel]
      refine ⟨by decide, ?_⟩
      rw [rval_lit (v := -(13176795 / 8388608)) true 127 4788187 (-23) (by decide) (by decide) (by decide) (by decide) (by decide) (by norm_num [f32])]
      rw [abs_le]; norm_num at *; constructor <;> linarith

theorem piSc_F : ∀ s, isFinite f32 (sc s 0x40490fdb#32) = true ∧
    |rval f32 (sc s 0x40490fdb#32) - (if s = true then -Real.pi else Real.pi)| ≤ 1.5 * uRel f32 := by
  have h1 := pi_gt_d50
  have h2 := pi_lt_d50
  have e : uRel f32 = 1 / 16777216 := by unfold uRel; norm_num [f32]
  rw [e]
  intro s
  cases s
  · rw [show sc false 0x40490fdb#32 = 0x40490fdb#32 by decide +kernel]
    refine ⟨by decide, ?_⟩
    rw [rval_lit (v := 13176795 / 4194304) false 128 4788187 (-22) (by decide) (by decide) (by decide) (by decide) (by decide) (by norm_num [f32])]
    rw [abs_le]; norm_num at *; constructor <;> linarith
  · rw [show sc true 0x40490fdb#32 = 0xc0490fdb#32 by decide +kernel]
    refine ⟨by decide, ?_⟩
    rw [rval_lit (v := -(13176795 / 4194304)) true 128 4788187 (-22) (by decide) (by decide) (by decide) (by decide) (by decide) (by norm_num [f32])]
    rw [abs_le]; norm_num at *; constructor <;> linarith

theorem atanErr_D (B : CmpBuild) : AtanErr f64 64 piD.half (atanD (sArc B f64 64)) where
  fin x hf := by
    have hw : WithinUlps f64 3 (Real.arctan (rval f64 x)) (atanD (sArc B f64 64) x) := by
      rw [atanD_core, (isFinite_not hf).1, if_neg (by decide), hf]
      obtain ⟨-, h0, h1, -⟩ := rval_absL .double x
      exact within_mono (atan_sign .double hf (coreD_within B (h1.trans hf) h0)) (by norm_num)
    have hb := arctan_bound (rval f64 x)
    refine ⟨hw.1, ?_, ?_⟩
    · have := within_rel (by norm_num) hw; norm_num at this ⊢; exact this
    · have := within_two .double (by norm_num) (lt_of_le_of_lt hb (by norm_num)) hw; norm_num at this ⊢; exact this
  inf := (atan2Ok_D B).inf
  half s := by
    have h1 := pi_gt_d50
    have h2 := pi_lt_d50
    rw [uRel64]
    cases s
    · rw [show mkFloat f64 64 false piD.half = 0x3ff921fb54442d18#64 by decide +kernel]
      refine ⟨by decide, ?_⟩
      rw [rval_lit (v := 884279719003555 / 562949953421312) false 1023 2570638124657944 (-52) (by decide) (by decide) (by decide) (by decide) (by decide) (by norm_num [f64])]
      rw [abs_le]; norm_num at *; constructor <;> linarith
    · rw [show mkFloat f64 64 true piD.half = 0xbff921fb54442d18#64 by decide +kernel]
      refine ⟨by decide, ?_⟩
      rw [rval_lit (v := -(884279719003555 / 562949953421312)) true 1023 2570638124657944 (-52) (by decide) (by decide) (by decide) (by decide) (by decide) (by norm_num [f64])]
      rw [abs_le]; norm_num at *; constructor <;> linarith

theorem piSc_D : ∀ s, isFinite f64 (sc s 0x400921fb54442d18#64) = true ∧
    |rval f64 (sc s 0x400921fb54442d18#64) - (if s = true then -Real.pi else Real.pi)| ≤ 1.5 * uRel f64 := by
  have h1 := pi_gt_d50
  have h2 := pi_lt_d50
  rw [uRel64]
  intro s
  cases s
  · rw [show sc false 0x400921fb54442d18#64 = 0x400921fb54442d18#64 by decide +kernel]
    refine ⟨by decide, ?_⟩
    rw [rval_lit (v := 884279719003555 / 281474976710656) false 1024 2570638124657944 (-51) (by decide) (by decide) (by decide) (by decide) (by decide) (by norm_num [f64])]
    rw [abs_le]; norm_num at *; constructor <;> linarith
  · rw [show sc true 0x400921fb54442d18#64 = 0xc00921fb54442d18#64 by decide +kernel]
    refine ⟨by decide, ?_⟩
    rw [rval_lit (v := -(884279719003555 / 281474976710656)) true 1024 2570638124657944 (-51) (by decide) (by decide) (by decide) (by decide) (by decide) (by norm_num [f64])]
    rw [abs_le]; norm_num at *; constructor <;> linarith

/-- Float: for finite operands `atan2(y, x)` is the angle of the point `(x, y)` up to a relative error of `2^-21` and
`2^-147`.  Where `y` is a zero and `x` a zero or negative the results are those of `C77_atan2_float`. -/
theorem C79_float {n : Nat} {E : ArcEnv n} (h : ArcVF n E) (y x : BitVec n) {i : Nat} (hi : 32 * (i + 1) ≤ n)
    (hy : isFinite f32 (lane 32 y i) = true) (hx : isFinite f32 (lane 32 x i) = true)
    (hd : rval f32 (lane 32 y i) ≠ 0 ∨ 0 < rval f32 (lane 32 x i)) :
    isFinite f32 (lane 32 (atan2F (vArc E f32 32) y x) i) = true ∧
    |rval f32 (lane 32 (atan2F (vArc E f32 32) y x) i) - Complex.arg ⟨rval f32 (lane 32 x i), rval f32 (lane 32 y i)⟩| ≤
      |Complex.arg ⟨rval f32 (lane 32 x i), rval f32 (lane 32 y i)⟩| * 2 ^ (-21 : Int) + 2 ^ (-147 : Int) := by
  have ok := h.ok
  unfold atan2F
  rw [atan2_lane ok hi _ _ _ _ (fun hv => atanF_lane ok hi hv) (y := y) (x := x) rfl rfl]
  obtain ⟨h1, h2⟩ := atan2_acc .single E.B (atan2Ok_F E.B) (atanErr_F E.B) piSc_F hy hx hd
  refine ⟨h1, le_trans h2 (le_of_eq ?_)⟩
  have e1 : 8 * uRel f32 = (2 : ℝ) ^ (-21 : Int) := by unfold uRel; norm_num [f32]
  have e2 : 8 * uAbs f32 = (2 : ℝ) ^ (-147 : Int) := by
    unfold uAbs
    rw [show (8 : ℝ) = 2 ^ (3 : Int) by norm_num, ← zpow_add₀ (by norm_num)]
    congr 1
  rw [← e1, ← e2]; ring

/-- Witness: a point in the second quadrant whose quotient overflows, the angle is next to `π/2`. -/
example : ArcVF 128 (arcSseF sse2) ∧ isFinite f32 0x7f7fffff#32 = true ∧ isFinite f32 0x80000001#32 = true ∧
    isFinite f32 (fDiv f32 0x7f7fffff#32 0x80000001#32) = false ∧ rval f32 0x7f7fffff#32 ≠ 0 ∧ rval f32 0x80000001#32 < 0 := by
  refine ⟨.sse _, by decide, by decide, by decide +kernel, ?_, ?_⟩
  · rw [Ne, rval_zero_iff]; decide
  · rw [← fneg_real (by rw [Ne, rval_zero_iff]; decide)]; decide

/-- Double: for finite operands `atan2(y, x)` is the angle of the point `(x, y)` up to a relative error of `2^-50` and
`2^-1072`.  Where `y` is a zero and `x` a zero or negative the results are those of `C77_atan2_double`. -/
theorem C79_double {n : Nat} {E : ArcEnv n} (h : ArcVD n E) (y x : BitVec n) {i : Nat} (hi : 64 * (i + 1) ≤ n)
    (hy : isFinite f64 (lane 64 y i) = true) (hx : isFinite f64 (lane 64 x i) = true)
    (hd : rval f64 (lane 64 y i) ≠ 0 ∨ 0 < rval f64 (lane 64 x i)) :
    isFinite f64 (lane 64 (atan2D (vArc E f64 64) y x) i) = true ∧
    |rval f64 (lane 64 (atan2D (vArc E f64 64) y x) i) - Complex.arg ⟨rval f64 (lane 64 x i), rval f64 (lane 64 y i)⟩| ≤
      |Complex.arg ⟨rval f64 (lane 64 x i), rval f64 (lane 64 y i)⟩| * 2 ^ (-50 : Int) + 2 ^ (-1072 : Int) := by
  have ok := h.ok
  unfold atan2D
  rw [atan2_lane ok hi _ _ _ _ (fun hv => atanD_lane ok hi hv) (y := y) (x := x) rfl rfl]
  obtain ⟨h1, h2⟩ := atan2_acc .double E.B (atan2Ok_D E.B) (atanErr_D E.B) piSc_D hy hx hd
  refine ⟨h1, le_trans h2 (le_of_eq ?_)⟩
  have e1 : 8 * uRel f64 = (2 : ℝ) ^ (-50 : Int) := by unfold uRel; norm_num [f64]
  have e2 : 8 * uAbs f64 = (2 : ℝ) ^ (-1072 : Int) := by
    unfold uAbs
    rw [show (8 : ℝ) = 2 ^ (3 : Int) by norm_num, ← zpow_add₀ (by norm_num)]
    congr 1
  rw [← e1, ← e2]; ring

/-- Witness: a point in the third quadrant. -/
example : ArcVD 256 (arcAvxD .avx) ∧ isFinite f64 0xc008000000000000#64 = true ∧ isFinite f64 0xc010000000000000#64 = true ∧
    rval f64 0xc008000000000000#64 ≠ 0 ∧ rval f64 0xc010000000000000#64 < 0 := by
  refine ⟨.avx _, by decide, by decide, ?_, ?_⟩
  · rw [Ne, rval_zero_iff]; decide
  · rw [← fneg_real (by rw [Ne, rval_zero_iff]; decide)]; decide

end Vc.Prop
