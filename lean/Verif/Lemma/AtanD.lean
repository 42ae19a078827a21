import Verif.Lemma.AtanSerD
import Verif.Lemma.AtanF2

/-!
The precision of `atan` of double.
-/

namespace Vc.Lemma
open Vc.Model Vc.Spec

theorem atD_one : isFinite f64 0x3ff0000000000000#64 = true ∧ rval f64 0x3ff0000000000000#64 = 1 := by
  refine ⟨by decide, rval_lit false 1023 0 (-52) (by decide) (by decide) (by decide) (by decide) (by decide) ?_⟩
  norm_num [f64]

theorem atD_mone : isFinite f64 0xbff0000000000000#64 = true ∧ rval f64 0xbff0000000000000#64 = -(1) := by
  refine ⟨by decide, rval_lit true 1023 0 (-52) (by decide) (by decide) (by decide) (by decide) (by decide) ?_⟩
  norm_num [f64]

theorem atD_c4 : isFinite f64 0x3fe921fb54442d18#64 = true ∧ rval f64 0x3fe921fb54442d18#64 = 884279719003555 / 1125899906842624 := by
  refine ⟨by decide, rval_lit false 1022 2570638124657944 (-53) (by decide) (by decide) (by decide) (by decide) (by decide) ?_⟩
  norm_num [f64]

theorem atD_c2 : isFinite f64 0x3ff921fb54442d18#64 = true ∧ rval f64 0x3ff921fb54442d18#64 = 884279719003555 / 562949953421312 := by
  refine ⟨by decide, rval_lit false 1023 2570638124657944 (-52) (by decide) (by decide) (by decide) (by decide) (by decide) ?_⟩
  norm_num [f64]

theorem atD_rem : isFinite f64 0x3c91a62633145c07#64 = true ∧ rval f64 0x3c91a62633145c07#64 = 4967757600021511 / 81129638414606681695789005144064 := by
  refine ⟨by decide, rval_lit false 969 464157972651015 (-106) (by decide) (by decide) (by decide) (by decide) (by decide) ?_⟩
  norm_num [f64]

theorem atD_rem2 : isFinite f64 0x3c81a62633145c07#64 = true ∧ rval f64 0x3c81a62633145c07#64 = 4967757600021511 / 162259276829213363391578010288128 := by
  refine ⟨by decide, rval_lit false 968 464157972651015 (-107) (by decide) (by decide) (by decide) (by decide) (by decide) ?_⟩
  norm_num [f64]

theorem atD_lo : isFinite f64 0x3fe51eb851eb851f#64 = true ∧ rval f64 0x3fe51eb851eb851f#64 = 5944751508129055 / 9007199254740992 := by
  refine ⟨by decide, rval_lit false 1022 1441151880758559 (-53) (by decide) (by decide) (by decide) (by decide) (by decide) ?_⟩
  norm_num [f64]

theorem atD_hi : isFinite f64 0x4003504f333f9de6#64 = true ∧ rval f64 0x4003504f333f9de6#64 = 2718162824974067 / 1125899906842624 := by
  refine ⟨by decide, rval_lit false 1024 932726022577638 (-51) (by decide) (by decide) (by decide) (by decide) (by decide) ?_⟩
  norm_num [f64]


theorem uRel64 : uRel f64 = 1 / 9007199254740992 := by unfold uRel; norm_num [f64]

theorem atD_half : fMul f64 0x3c91a62633145c07#64 0x3fe0000000000000#64 = 0x3c81a62633145c07#64 := by decide +kernel

/-- The series. -/
def atSerD (t : BitVec 64) : BitVec 64 := fAdd f64 (atWD t) t

theorem coreD_eq (B : CmpBuild) {x : BitVec 64} (hf : isFinite f64 x = true) : coreD B x true =
    if rval f64 0x4003504f333f9de6#64 < rval f64 x then
      fAdd f64 0x3ff921fb54442d18#64 (fAdd f64 (atSerD (fDiv f64 0xbff0000000000000#64 x)) 0x3c91a62633145c07#64)
    else if rval f64 0x3fe51eb851eb851f#64 < rval f64 x then
      fAdd f64 0x3fe921fb54442d18#64 (fAdd f64 (atSerD (fDiv f64 (fSub f64 x 0x3ff0000000000000#64) (fAdd f64 x 0x3ff0000000000000#64)))
        0x3c81a62633145c07#64)
    else fAdd f64 0#64 (atSerD x) := by
  have h1 := gtL_real B hf atD_hi.1
  have h2 := gtL_real B hf atD_lo.1
  have h12 : rval f64 0x4003504f333f9de6#64 < rval f64 x → rval f64 0x3fe51eb851eb851f#64 < rval f64 x := by
    rw [atD_hi.2, atD_lo.2]; intro h; linarith
  unfold coreD
  simp only [sArc, sArith, id, h1, h2, atD_half]
  have e1 : (0x3ff0000000000000#64 ^^^ BitVec.ofNat 64 (2 ^ (64 - 1))) = 0xbff0000000000000#64 := by decide
  rw [e1]
  by_cases c1 : rval f64 0x4003504f333f9de6#64 < rval f64 x
  · rw [if_pos c1]
    simp only [decide_eq_true c1, decide_eq_true (h12 c1), Bool.not_true, Bool.false_eq_true, if_false, if_true]
    generalize fDiv f64 0xbff0000000000000#64 x = t
    unfold atSerD atWD
    simp only [horner, List.foldl_cons, List.foldl_nil, id]
  · rw [if_neg c1]
    by_cases c2 : rval f64 0x3fe51eb851eb851f#64 < rval f64 x
    · rw [if_pos c2]
      simp only [decide_eq_true c2, decide_eq_false c1, Bool.not_false, Bool.false_eq_true, if_false, if_true]
      generalize fDiv f64 (fSub f64 x _) (fAdd f64 x _) = t
      unfold atSerD atWD
      simp only [horner, List.foldl_cons, List.foldl_nil, id]
    · rw [if_neg c2]
      simp only [decide_eq_false c2, decide_eq_false c1, Bool.not_false, Bool.false_eq_true, if_false, if_true]
      unfold atSerD atWD
      simp only [horner, List.foldl_cons, List.foldl_nil, id]

theorem atD_pre2 {t : BitVec 64} (hf : isFinite f64 t = true) (h2 : |rval f64 t| ≤ 1 / 2) :
    isFinite f64 (atWD t) = true ∧ |rval f64 (atWD t) + rval f64 t - Real.arctan (rval f64 t)| ≤ 0.7766 * uRel f64 * |rval f64 t| := by
  have h0 := mul_nonneg (uRel_pos f64).le (abs_nonneg (rval f64 t))
  rcases le_total |rval f64 t| (1 / 16) with h | h
  · obtain ⟨⟨f, e⟩, -⟩ := atD_small hf h
    exact ⟨f, le_trans e (by norm_num; linarith)⟩
  · obtain ⟨f, e⟩ := atD2_pre hf h h2
    exact ⟨f, le_trans e (by norm_num)⟩

theorem atD_pre1 {t : BitVec 64} (hf : isFinite f64 t = true) (h2 : |rval f64 t| ≤ 0.2182) :
    isFinite f64 (atWD t) = true ∧ |rval f64 (atWD t) + rval f64 t - Real.arctan (rval f64 t)| ≤ 0.1448 * uRel f64 * |rval f64 t| := by
  have h0 := mul_nonneg (uRel_pos f64).le (abs_nonneg (rval f64 t))
  rcases le_total |rval f64 t| (1 / 16) with h | h
  · obtain ⟨⟨f, e⟩, -⟩ := atD_small hf h
    exact ⟨f, le_trans e (by norm_num; linarith)⟩
  · obtain ⟨f, e⟩ := atD1_pre hf h (le_trans h2 (by norm_num))
    exact ⟨f, le_trans e (by norm_num)⟩

/-- The absolute error of the series. -/
theorem atSerD_abs {t : BitVec 64} {C R g D : ℝ} {k : Int} (hf : isFinite f64 t = true)
    (h : isFinite f64 (atWD t) = true ∧ |rval f64 (atWD t) + rval f64 t - Real.arctan (rval f64 t)| ≤ C * uRel f64 * |rval f64 t|)
    (hC : 0 ≤ C) (hC' : C ≤ 2) (hR : |rval f64 t| ≤ R) (hR1 : R ≤ 1) (hk : KRange f64 k) (hRk : R + 1 / 2 ^ 40 ≤ 2 ^ k)
    (hg : (2 : ℝ) ^ (k - f64.m - 2) ≤ g * uRel f64) (hD : C * R + g ≤ D) :
    isFinite f64 (atSerD t) = true ∧ |rval f64 (atSerD t) - Real.arctan (rval f64 t)| ≤ D * uRel f64 := by
  obtain ⟨w1, w2⟩ := h
  have hu := uRel64
  have hu0 := uRel_pos f64
  have ha := arctan_abs_le (rval f64 t)
  have h1 : C * uRel f64 * |rval f64 t| ≤ C * R * uRel f64 := by
    have := mul_le_mul_of_nonneg_left hR (show 0 ≤ C * uRel f64 by positivity)
    linarith
  have h3 : C * R ≤ 2 := by
    have := mul_le_mul hC' hR1 (le_trans (abs_nonneg _) hR) (by norm_num)
    linarith
  have h4 : C * R * uRel f64 ≤ 1 / 2 ^ 40 := by
    have := mul_le_mul_of_nonneg_right h3 hu0.le
    rw [hu] at this ⊢
    norm_num at this ⊢
    linarith
  have hb : |rval f64 (atWD t) + rval f64 t| ≤ 2 ^ k := by
    have a2 := abs_add_le (rval f64 (atWD t) + rval f64 t - Real.arctan (rval f64 t)) (Real.arctan (rval f64 t))
    rw [sub_add_cancel] at a2
    linarith
  obtain ⟨f, e⟩ := fAdd_err .double hk w1 hf hb
  refine ⟨f, ?_⟩
  have a3 := abs_sub_le (rval f64 (atSerD t)) (rval f64 (atWD t) + rval f64 t) (Real.arctan (rval f64 t))
  have e' : |rval f64 (atSerD t) - (rval f64 (atWD t) + rval f64 t)| ≤ g * uRel f64 := le_trans e hg
  have := mul_le_mul_of_nonneg_right hD hu0.le
  linarith

/-- The last additions. -/
theorem atEndD {c m s : BitVec 64} {p a E g r : ℝ} {k : Int} (hc : isFinite f64 c = true) (hm : isFinite f64 m = true)
    (hs : isFinite f64 s = true) (hp : |rval f64 c + rval f64 m - p| ≤ 0.01 * uRel f64) (hm' : |rval f64 m| ≤ 1 / 2 ^ 40)
    (h : |rval f64 s - a| ≤ E * uRel f64) (hE : E ≤ 10) (ha : |a| + 1 / 2 ^ 30 ≤ 2 ^ k) (hk : KRange f64 k)
    (hg : (2 : ℝ) ^ (k - f64.m - 2) ≤ g * uRel f64) (hg1 : g ≤ 1) (hv : |p + a| ≤ 1.6) (hr : E + g + 1.01 ≤ r) :
    isFinite f64 (fAdd f64 c (fAdd f64 s m)) = true ∧ |rval f64 (fAdd f64 c (fAdd f64 s m)) - (p + a)| ≤ r * uRel f64 := by
  have hu := uRel64
  have hu0 := uRel_pos f64
  have h1 : E * uRel f64 ≤ 1 / 2 ^ 40 := by
    have := mul_le_mul_of_nonneg_right hE hu0.le
    rw [hu] at this ⊢
    norm_num at this ⊢
    linarith
  have h2 : g * uRel f64 ≤ 1 / 2 ^ 40 := by
    have := mul_le_mul_of_nonneg_right hg1 hu0.le
    rw [hu] at this ⊢
    norm_num at this ⊢
    linarith
  have hb : |rval f64 s + rval f64 m| ≤ 2 ^ k := by
    have a2 := abs_add_three (rval f64 s - a) a (rval f64 m)
    rw [sub_add_cancel] at a2
    norm_num at h1 hm' ha
    linarith
  obtain ⟨f, e⟩ := fAdd_err .double hk hs hm hb
  have e1 := le_trans e hg
  generalize fAdd f64 s m = z at *
  have e2 : |rval f64 c + rval f64 z - (p + a)| ≤ (E + g + 0.01) * uRel f64 := by
    rw [show rval f64 c + rval f64 z - (p + a) = (rval f64 c + rval f64 m - p) + (rval f64 s - a) + (rval f64 z - (rval f64 s + rval f64 m)) by ring]
    refine le_trans (abs_add_three _ _ _) ?_
    linarith
  have hb2 : |rval f64 c + rval f64 z| ≤ 2 ^ (1 : Int) := by
    have a2 := abs_add_le (rval f64 c + rval f64 z - (p + a)) (p + a)
    rw [sub_add_cancel] at a2
    rw [hu] at e2 h1 h2
    norm_num at *
    linarith
  obtain ⟨f2, e3⟩ := fAdd_err .double (k := 1) (by decide) hc f hb2
  refine ⟨f2, ?_⟩
  have e3' : |rval f64 (fAdd f64 c z) - (rval f64 c + rval f64 z)| ≤ 1 * uRel f64 := by
    refine le_trans e3 ?_
    rw [hu]; norm_num [f64]
  have a3 := abs_sub_le (rval f64 (fAdd f64 c z)) (rval f64 c + rval f64 z) (p + a)
  have := mul_le_mul_of_nonneg_right hr hu0.le
  norm_num at *
  linarith

theorem pi4D : |rval f64 0x3fe921fb54442d18#64 + rval f64 0x3c81a62633145c07#64 - Real.pi / 4| ≤ 0.01 * uRel f64 := by
  rw [atD_c4.2, atD_rem2.2, uRel64, abs_le]
  have := pi_gt_d50
  have := pi_lt_d50
  constructor <;> norm_num at * <;> linarith

theorem pi2D : |rval f64 0x3ff921fb54442d18#64 + rval f64 0x3c91a62633145c07#64 - Real.pi / 2| ≤ 0.01 * uRel f64 := by
  rw [atD_c2.2, atD_rem.2, uRel64, abs_le]
  have := pi_gt_d50
  have := pi_lt_d50
  constructor <;> norm_num at * <;> linarith

/-- Large arguments. -/
theorem atD_far {x : BitVec 64} (hf : isFinite f64 x = true) (hx : rval f64 0x4003504f333f9de6#64 < rval f64 x) :
    WithinUlps f64 2 (Real.arctan (rval f64 x))
      (fAdd f64 0x3ff921fb54442d18#64 (fAdd f64 (atSerD (fDiv f64 0xbff0000000000000#64 x)) 0x3c91a62633145c07#64)) := by
  rw [atD_hi.2] at hx
  have hu := uRel64
  have hx0 : 0 < rval f64 x := by linarith
  have hρ : |-1 / rval f64 x| ≤ 41422 / 100000 := by
    rw [abs_div, abs_neg, abs_one, abs_of_pos hx0, div_le_iff₀ hx0]; linarith
  obtain ⟨f1, e1⟩ := fDiv_err .double (k := -1) (by decide) atD_mone.1 hf hx0.ne' (by rw [atD_mone.2]; exact le_trans hρ (by norm_num))
  rw [atD_mone.2] at e1
  have e1' : |rval f64 (fDiv f64 0xbff0000000000000#64 x) - -1 / rval f64 x| ≤ 0.25 * uRel f64 := by
    refine le_trans e1 ?_
    rw [hu]; norm_num [f64]
  generalize fDiv f64 0xbff0000000000000#64 x = t at *
  have ht : |rval f64 t| ≤ 4143 / 10000 := by
    have := abs_add_le (rval f64 t - -1 / rval f64 x) (-1 / rval f64 x)
    rw [sub_add_cancel] at this
    rw [hu] at e1'
    norm_num at *
    linarith
  obtain ⟨f2, e2⟩ := atSerD_abs (g := 0.25) (D := 0.572) (k := -1) f1 (atD_pre2 f1 (le_trans ht (by norm_num))) (by norm_num) (by norm_num) ht (by norm_num)
    (by decide) (by norm_num) (by rw [hu]; norm_num [f64]) (by norm_num)
  have e3 := arctan_lip1 (rval f64 t) (-1 / rval f64 x)
  have hv := arctan_far hx0
  have h6 := arctan_abs_le (-1 / rval f64 x)
  obtain ⟨f4, e4⟩ := atEndD (r := 4) (g := 0.25) (E := 0.822) (k := -1) (a := Real.arctan (-1 / rval f64 x)) atD_c2.1 atD_rem.1 f2 pi2D
    (by rw [atD_rem.2, abs_le]; constructor <;> norm_num)
    (by
      have := abs_sub_le (rval f64 (atSerD t)) (Real.arctan (rval f64 t)) (Real.arctan (-1 / rval f64 x))
      linarith) (by norm_num) (by norm_num at *; linarith) (by decide) (by rw [hu]; norm_num [f64]) (by norm_num)
    (by rw [← hv]; exact atan_le_1_6 hx0.le) (by norm_num)
  rw [← hv] at e4
  refine within_of_pow (j := 0) f4 (by norm_num) ?_ (le_trans e4 (by rw [hu]; norm_num [f64]))
  rw [abs_of_nonneg (Real.arctan_nonneg.mpr hx0.le), hv]
  have h5 := neg_abs_le (Real.arctan (-1 / rval f64 x))
  have := pi_gt_d50
  norm_num at *
  linarith

theorem atan_15575 : 1 ≤ Real.arctan 1.5575 := by
  rw [arctan_mid (by norm_num)]
  have hm : Real.arctan ((21798 / 100000 : ℚ) : ℝ) ≤ Real.arctan ((1.5575 - 1) / (1.5575 + 1)) := Real.arctan_strictMono.monotone (by norm_num)
  have h := arctan_sum (t := 21798 / 100000) (by norm_num) (by norm_num) 8
  have e : (0.21461 : ℚ) ≤ atanSum (21798 / 100000) 8 := by decide +kernel
  have e' := (Rat.cast_le (K := ℝ)).mpr e
  have := pi_gt_d50
  generalize Real.arctan ((21798 / 100000 : ℚ) : ℝ) = a at *
  generalize Real.arctan ((1.5575 - 1) / (1.5575 + 1)) = b at *
  rw [abs_le] at h
  push_cast at *
  norm_num at *
  linarith

/-- The middle range. -/
theorem atD_mid {x : BitVec 64} (hf : isFinite f64 x = true) (hx : rval f64 0x3fe51eb851eb851f#64 < rval f64 x)
    (hx2 : ¬rval f64 0x4003504f333f9de6#64 < rval f64 x) :
    WithinUlps f64 2 (Real.arctan (rval f64 x)) (fAdd f64 0x3fe921fb54442d18#64
      (fAdd f64 (atSerD (fDiv f64 (fSub f64 x 0x3ff0000000000000#64) (fAdd f64 x 0x3ff0000000000000#64))) 0x3c81a62633145c07#64)) := by
  rw [atD_hi.2, not_lt] at hx2
  rw [atD_lo.2] at hx
  have hu := uRel64
  have hu0 := uRel_pos f64
  have hX : (0.66 : ℝ) ≤ rval f64 x := by norm_num at *; linarith
  have hX2 : rval f64 x ≤ 2.4143 := by norm_num at *; linarith
  clear hx hx2
  obtain ⟨f1, e1⟩ := mid_exact .double hf atD_one (by norm_num at *; linarith) (by norm_num at *; linarith)
  have hx1 : Apx f64 x (rval f64 x) 0 2.5 := Apx.exact hf (by rw [abs_le]; constructor <;> norm_num at * <;> linarith)
  have ho : Apx f64 _ _ 0 1 := Apx.const atD_one (by norm_num)
  have hd0 : 0 < rval f64 x + 1 := by norm_num at *; linarith
  have hn : ∀ P : ℝ, |rval f64 x - 1| ≤ P → Apx f64 (fSub f64 x 0x3ff0000000000000#64) (rval f64 x - 1) 0 P := fun P h =>
    ⟨f1, by rw [e1]; simp, h⟩
  have hm := arctan_mid (x := rval f64 x) (by norm_num at *; linarith)
  have hd2 := hx1.add ho .double 2 (by decide) (R := 3.5) (by rw [abs_le]; constructor <;> norm_num at * <;> linarith) (by norm_num)
        (d := 2 * uRel f64) (by rw [hu]; norm_num [f64])
  have hrem : |rval f64 0x3c81a62633145c07#64| ≤ 1 / 2 ^ 40 := by rw [atD_rem2.2, abs_le]; constructor <;> norm_num
  have hv16 : |Real.arctan (rval f64 x)| ≤ 1.6 := atan_le_1_6 (by norm_num at *; linarith)
  have hv0 : 0 ≤ Real.arctan (rval f64 x) := Real.arctan_nonneg.mpr (by norm_num at *; linarith)
  rcases le_or_gt (rval f64 x) 1.5575 with hc | hc
  · have hr : Apx f64 (fDiv f64 (fSub f64 x 0x3ff0000000000000#64) (fAdd f64 x 0x3ff0000000000000#64)) ((rval f64 x - 1) / (rval f64 x + 1))
        (0.3432 * uRel f64) 0.218 := by
      rcases le_total (rval f64 x) 1 with hc1 | hc1
      · have hd := hx1.add ho .double 1 (by decide) (R := 2) (by rw [abs_le]; constructor <;> norm_num at * <;> linarith) (by norm_num)
          (d := uRel f64) (by rw [hu]; norm_num [f64])
        have := (hn 0.34 (by rw [abs_le]; constructor <;> norm_num at * <;> linarith)).divQ hd .double (-2) (by decide) (L := 1.66)
          (by rw [abs_of_pos hd0]; norm_num at *; linarith) (by rw [hu]; norm_num)
          (R := 0.2049) (by rw [abs_div, abs_of_pos hd0, div_le_iff₀ hd0, abs_le]; constructor <;> norm_num at * <;> linarith)
          (e := 0.1236 * uRel f64) (by rw [hu]; norm_num) (by rw [hu]; norm_num) (d := 0.249 * uRel f64) (by rw [hu]; norm_num [f64])
        exact this.weaken (by norm_num; linarith) (by norm_num)
      · exact (hn 0.56 (by rw [abs_le]; constructor <;> norm_num at * <;> linarith)).divQ hd2 .double (-2) (by decide) (L := 2)
          (by rw [abs_of_pos hd0]; norm_num at *; linarith) (by rw [hu]; norm_num)
          (R := 0.218) (by rw [abs_div, abs_of_pos hd0, div_le_iff₀ hd0, abs_le]; constructor <;> norm_num at * <;> linarith)
          (e := 0.2181 * uRel f64) (by rw [hu]; norm_num) (by rw [hu]; norm_num) (d := 0.3432 * uRel f64) (by rw [hu]; norm_num [f64])
    generalize fDiv f64 (fSub f64 x 0x3ff0000000000000#64) (fAdd f64 x 0x3ff0000000000000#64) = t at *
    have ht : |rval f64 t| ≤ 0.2182 := by
      have := hr.abs_le
      rw [hu] at this
      norm_num at *
      linarith
    obtain ⟨f2, e2⟩ := atSerD_abs (g := 0.125) (D := 0.157) (k := -2) hr.fin (atD_pre1 hr.fin ht) (by norm_num) (by norm_num) ht (by norm_num)
      (by decide) (by norm_num) (by rw [hu]; norm_num [f64]) (by norm_num)
    have e3 := arctan_lip1 (rval f64 t) ((rval f64 x - 1) / (rval f64 x + 1))
    have he := hr.err
    have h6 := le_trans (arctan_abs_le ((rval f64 x - 1) / (rval f64 x + 1))) hr.bnd
    obtain ⟨f4, e4⟩ := atEndD (r := 1.7) (g := 0.125) (E := 0.5003) (k := -2) (a := Real.arctan ((rval f64 x - 1) / (rval f64 x + 1)))
      atD_c4.1 atD_rem2.1 f2 pi4D hrem
      (by
        have := abs_sub_le (rval f64 (atSerD t)) (Real.arctan (rval f64 t)) (Real.arctan ((rval f64 x - 1) / (rval f64 x + 1)))
        norm_num at *
        linarith) (by norm_num) (by norm_num at *; linarith) (by decide) (by rw [hu]; norm_num [f64]) (by norm_num)
      (by rw [← hm]; exact hv16) (by norm_num)
    rw [← hm] at e4
    refine within_of_abs f4 ?_ (by norm_num) e4 (by norm_num)
    rw [abs_of_nonneg hv0]
    exact le_trans atan_5464 (Real.arctan_strictMono.monotone (by norm_num at *; linarith))
  · have hr := (hn 1.5 (by rw [abs_le]; constructor <;> norm_num at * <;> linarith)).divQ hd2 .double (-1) (by decide) (L := 2)
          (by rw [abs_of_pos hd0]; norm_num at *; linarith) (by rw [hu]; norm_num)
          (R := 0.41424) (by rw [abs_div, abs_of_pos hd0, div_le_iff₀ hd0, abs_le]; constructor <;> norm_num at * <;> linarith)
          (e := 0.4143 * uRel f64) (by rw [hu]; norm_num) (by rw [hu]; norm_num) (d := 0.665 * uRel f64) (by rw [hu]; norm_num [f64])
    generalize fDiv f64 (fSub f64 x 0x3ff0000000000000#64) (fAdd f64 x 0x3ff0000000000000#64) = t at *
    have ht : |rval f64 t| ≤ 4143 / 10000 := by
      have := hr.abs_le
      rw [hu] at this
      norm_num at *
      linarith
    obtain ⟨f2, e2⟩ := atSerD_abs (g := 0.25) (D := 0.572) (k := -1) hr.fin (atD_pre2 hr.fin (le_trans ht (by norm_num))) (by norm_num) (by norm_num) ht
      (by norm_num) (by decide) (by norm_num) (by rw [hu]; norm_num [f64]) (by norm_num)
    have e3 := arctan_lip1 (rval f64 t) ((rval f64 x - 1) / (rval f64 x + 1))
    have he := hr.err
    have h6 := le_trans (arctan_abs_le ((rval f64 x - 1) / (rval f64 x + 1))) hr.bnd
    obtain ⟨f4, e4⟩ := atEndD (r := 4) (g := 0.25) (E := 1.24) (k := -1) (a := Real.arctan ((rval f64 x - 1) / (rval f64 x + 1)))
      atD_c4.1 atD_rem2.1 f2 pi4D hrem
      (by
        have := abs_sub_le (rval f64 (atSerD t)) (Real.arctan (rval f64 t)) (Real.arctan ((rval f64 x - 1) / (rval f64 x + 1)))
        norm_num at *
        linarith) (by norm_num) (by norm_num at *; linarith) (by decide) (by rw [hu]; norm_num [f64]) (by norm_num)
      (by rw [← hm]; exact hv16) (by norm_num)
    rw [← hm] at e4
    refine within_of_pow (j := 0) f4 (by norm_num) ?_ (le_trans e4 (by rw [hu]; norm_num [f64]))
    rw [abs_of_nonneg hv0, zpow_zero]
    exact le_trans atan_15575 (Real.arctan_strictMono.monotone hc.le)

theorem atan_lowD : chebBound 0 (1 / 4) (pAdd (atanTaylor 0 8) [-(963 / 1000)]) ≤ 40 / 1000 := by decide +kernel

/-- The direct range. -/
theorem atD_near {x : BitVec 64} (hf : isFinite f64 x = true) (h0 : 0 ≤ rval f64 x) (hx : ¬rval f64 0x3fe51eb851eb851f#64 < rval f64 x) :
    WithinUlps f64 2 (Real.arctan (rval f64 x)) (fAdd f64 0#64 (atSerD x)) := by
  rw [atD_lo.2, not_lt] at hx
  have hu := uRel64
  have hu0 := uRel_pos f64
  have hX : rval f64 x ≤ 0.6601 := by norm_num at *; linarith
  clear hx
  have z : isFinite f64 0#64 = true ∧ rval f64 0#64 = 0 := by
    refine ⟨by decide, ?_⟩
    unfold rval
    rw [show fval f64 0#64 = 0 by decide +kernel]; simp
  have hax : |rval f64 x| = rval f64 x := abs_of_nonneg h0
  have hv0 : 0 ≤ Real.arctan (rval f64 x) := Real.arctan_nonneg.mpr h0
  have hav := abs_of_nonneg hv0
  have hvx := arctan_abs_le (rval f64 x)
  rw [hav, hax] at hvx
  have hlow : ∀ {t : ℝ}, t ^ 2 ≤ ((1 / 4 : ℚ) : ℝ) → _ := fun ht => atan_lower (lo := 92 / 100) (hi := 1 / 4) (c := 963 / 1000) (d := 40 / 1000) (n := 8) atan_lowD
    (by norm_num) (by norm_num) (by norm_num) ht
  have fin : ∀ {P : Prop}, (isFinite f64 (atSerD x) = true → isFinite f64 (fAdd f64 0#64 (atSerD x)) = true →
      rval f64 (fAdd f64 0#64 (atSerD x)) = rval f64 (atSerD x) → P) → isFinite f64 (atSerD x) = true → P := fun k f => by
    have g := fAdd_zero' .double z.1 f z.2
    exact k f g.1 g.2
  rcases le_or_gt (rval f64 x) (1 / 2) with hc | hc
  · have lo := hlow (t := rval f64 x) (by push_cast; nlinarith)
    rw [hav, hax] at lo
    push_cast at lo
    have hrel : isFinite f64 (atSerD x) = true ∧ |rval f64 (atSerD x) - Real.arctan (rval f64 x)| ≤ 2 * uRel f64 * Real.arctan (rval f64 x) := by
      have hmul := mul_le_mul_of_nonneg_left lo hu0.le
      have hm0 := mul_nonneg hu0.le h0
      rcases le_total (rval f64 x) (1 / 16) with h | h
      · obtain ⟨-, f, e⟩ := atD_small hf (by rw [hax]; exact h)
        rw [hax] at e
        refine ⟨f, ?_⟩
        unfold atSerD
        norm_num at *
        linarith
      · obtain ⟨f, e⟩ := atD_pre2 hf (by rw [hax]; exact hc)
        rw [hax] at e
        have e5 : |rval f64 (atWD x) + rval f64 x - Real.arctan (rval f64 x)| ≤ 0.845 * uRel f64 * |Real.arctan (rval f64 x)| := by
          rw [hav]
          norm_num at *
          linarith
        have hb : |rval f64 (atWD x) + rval f64 x| ≤ 2 ^ (0 : Int) := by
          have := abs_add_le (rval f64 (atWD x) + rval f64 x - Real.arctan (rval f64 x)) (Real.arctan (rval f64 x))
          rw [sub_add_cancel, hav] at this
          rw [hu] at e
          norm_num at *
          linarith
        obtain ⟨f2, e2⟩ := fAdd_rel .double (k := 0) (by decide) f hf hb
        have := RB.round .double (by norm_num) (by rw [hav]; norm_num at *; linarith) e5 e2 (δ := 2) (by norm_num)
        rw [hav] at this
        exact ⟨f2, this⟩
    refine fin (fun _ g1 g2 => ?_) hrel.1
    refine within_of_rel (c := 2) (d := 0) g1 (by norm_num) le_rfl ?_ (by norm_num)
    rw [g2, zero_mul, ite_self, add_zero, hav]
    exact hrel.2
  · rcases lt_or_ge (Real.arctan (rval f64 x)) (1 / 2) with hv | hv
    · have h2 : rval f64 x ≤ 0.5464 := by
        by_contra hcon
        push Not at hcon
        have := Real.arctan_strictMono hcon
        have := atan_5464
        linarith
      obtain ⟨f, e⟩ := atD3_pre hf (by rw [hax]; exact hc.le) (by rw [hax]; norm_num at *; linarith)
      rw [hax] at e
      have e5 : |rval f64 (atWD x) + rval f64 x - Real.arctan (rval f64 x)| ≤ 0.48 * uRel f64 := by
        have := mul_le_mul_of_nonneg_left h2 hu0.le
        norm_num at *
        linarith
      have key : isFinite f64 (atSerD x) = true ∧ |rval f64 (atSerD x) - Real.arctan (rval f64 x)| ≤ uRel f64 := by
        have htri := abs_sub_le (rval f64 (atSerD x)) (rval f64 (atWD x) + rval f64 x) (Real.arctan (rval f64 x))
        rcases le_or_gt (rval f64 (atWD x) + rval f64 x) (1 / 2) with hV | hV
        · obtain ⟨f2, e2⟩ := fAdd_err .double (k := -1) (by decide) f hf (by
            rw [abs_le]
            rw [abs_le, hu] at e5
            have := e5.1
            constructor <;> norm_num at this ⊢ <;> linarith)
          refine ⟨f2, ?_⟩
          have e2' : |rval f64 (atSerD x) - (rval f64 (atWD x) + rval f64 x)| ≤ 0.25 * uRel f64 := le_trans e2 (by rw [hu]; norm_num [f64])
          norm_num at *
          linarith
        · have hb : |rval f64 (atWD x) + rval f64 x| ≤ 2 ^ (0 : Int) := by
            rw [abs_le]
            rw [abs_le, hu] at e5
            have := e5.2
            constructor <;> norm_num at this ⊢ <;> linarith
          refine ⟨(fAdd_err .double (k := 0) (by decide) f hf hb).1, ?_⟩
          have := fAdd_closest .double f hf (r := 1 / 2) ⟨1, -1, by norm_num, by decide, by decide, by decide⟩
          have e2' : |rval f64 (atSerD x) - (rval f64 (atWD x) + rval f64 x)| ≤ |1 / 2 - (rval f64 (atWD x) + rval f64 x)| := this
          rw [abs_of_neg (show 1 / 2 - (rval f64 (atWD x) + rval f64 x) < 0 by linarith)] at e2'
          have := (abs_le.mp e5).2
          norm_num at *
          linarith
      refine fin (fun _ g1 g2 => ?_) key.1
      refine within_of_pow (j := -2) g1 (by norm_num) ?_ (by rw [g2]; exact le_trans key.2 (by rw [hu]; norm_num [f64]))
      rw [hav]
      have lo := hlow (t := 1 / 2) (by push_cast; norm_num)
      rw [abs_of_nonneg (Real.arctan_nonneg.mpr (by norm_num)), abs_of_pos (by norm_num)] at lo
      have := Real.arctan_strictMono hc
      push_cast at lo
      norm_num at lo ⊢
      linarith
    · obtain ⟨f, e⟩ := atD4_pre hf (by rw [hax]; exact hc.le) (by rw [hax]; norm_num at *; linarith)
      rw [hax] at e
      have e5 : |rval f64 (atWD x) + rval f64 x - Real.arctan (rval f64 x)| ≤ 0.9 * uRel f64 := by
        have := mul_le_mul_of_nonneg_left hX hu0.le
        norm_num at *
        linarith
      have hb : |rval f64 (atWD x) + rval f64 x| ≤ 2 ^ (0 : Int) := by
        have := abs_add_le (rval f64 (atWD x) + rval f64 x - Real.arctan (rval f64 x)) (Real.arctan (rval f64 x))
        rw [sub_add_cancel, hav] at this
        rw [hu] at e5
        norm_num at *
        linarith
      obtain ⟨f2, e2⟩ := fAdd_err .double (k := 0) (by decide) f hf hb
      have e2' : |rval f64 (atSerD x) - (rval f64 (atWD x) + rval f64 x)| ≤ 0.5 * uRel f64 := le_trans e2 (by rw [hu]; norm_num [f64])
      have htri := abs_sub_le (rval f64 (atSerD x)) (rval f64 (atWD x) + rval f64 x) (Real.arctan (rval f64 x))
      refine fin (fun _ g1 g2 => ?_) f2
      refine within_of_abs (c := 1.5) g1 (by rw [hav]; exact hv) (by norm_num) ?_ (by norm_num)
      rw [g2]
      norm_num at *
      linarith

/-- The precision of `atan` of a non-negative number. -/
theorem coreD_within (B : CmpBuild) {x : BitVec 64} (hf : isFinite f64 x = true) (h0 : 0 ≤ rval f64 x) :
    WithinUlps f64 2 (Real.arctan (rval f64 x)) (coreD B x true) := by
  rw [coreD_eq B hf]
  split
  · rename_i h; exact atD_far hf h
  · rename_i hhi
    split
    · rename_i hlo; exact atD_mid hf hlo hhi
    · rename_i h; exact atD_near hf h0 h

end Vc.Lemma
