import Verif.Lemma.AtanSerF
import Verif.Lemma.ArcSpecial
import Verif.Lemma.PiDigits
import Verif.Lemma.ExpF3

/-!
The precision of `atan` of float.
-/

namespace Vc.Lemma
open Vc.Model Vc.Spec

theorem uRel32 : uRel f32 = 1 / 16777216 := by unfold uRel; norm_num [f32]

/-- The series. -/
def atSerF (t : BitVec 32) : BitVec 32 := fAdd f32 (atWF t) t

theorem coreF_eq (B : CmpBuild) {x : BitVec 32} (hf : isFinite f32 x = true) : coreF B x =
    if rval f32 0x401a827a#32 < rval f32 x then fAdd f32 0x3fc90fdb#32 (atSerF (fDiv f32 0xbf800000#32 x))
    else if rval f32 0x3ed413cd#32 < rval f32 x then
      fAdd f32 0x3f490fdb#32 (atSerF (fDiv f32 (fSub f32 x 0x3f800000#32) (fAdd f32 x 0x3f800000#32)))
    else fAdd f32 0#32 (atSerF x) := by
  have h1 := gtL_real B hf atF_hi.1
  have h2 := gtL_real B hf atF_lo.1
  unfold coreF
  simp only [sArc, sArith, id, h1, h2]
  have e1 : (0x3f800000#32 ^^^ BitVec.ofNat 32 (2 ^ (32 - 1))) = 0xbf800000#32 := by decide
  rw [e1]
  by_cases c1 : rval f32 0x401a827a#32 < rval f32 x
  · rw [if_pos c1]
    simp only [decide_eq_true c1, Bool.not_true, Bool.and_false, Bool.false_eq_true, if_false, if_true]
    rfl
  · rw [if_neg c1]
    by_cases c2 : rval f32 0x3ed413cd#32 < rval f32 x
    · rw [if_pos c2]
      simp only [decide_eq_true c2, decide_eq_false c1, Bool.not_false, Bool.and_true, Bool.false_eq_true, if_false, if_true]
      rfl
    · rw [if_neg c2]
      simp only [decide_eq_false c2, decide_eq_false c1, Bool.not_false, Bool.and_true, Bool.false_eq_true, if_false]
      rfl

/-- The absolute error of the series. -/
theorem atSerF_abs {t : BitVec 32} {A : ℝ} (hf : isFinite f32 t = true) (hle : |rval f32 t| ≤ 4143 / 10000)
    (hA : |rval f32 t + atWR (rval f32 t) - Real.arctan (rval f32 t)| ≤ A * uRel f32) :
    isFinite f32 (atSerF t) = true ∧ |rval f32 (atSerF t) - Real.arctan (rval f32 t)| ≤ (A + 0.32) * uRel f32 := by
  obtain ⟨w1, w2, w3⟩ := atWF_abs hf hle
  have hu := uRel32
  have hb : |rval f32 (atWF t) + rval f32 t| ≤ 2 ^ (-1 : Int) := by
    have a1 := abs_add_le (rval f32 (atWF t)) (rval f32 t)
    have a2 := abs_add_le (rval f32 (atWF t) - atWR (rval f32 t)) (atWR (rval f32 t))
    rw [sub_add_cancel] at a2
    rw [hu] at w2
    norm_num at *
    linarith
  obtain ⟨f, e⟩ := fAdd_err .single (k := -1) (by decide) w1 hf hb
  refine ⟨f, ?_⟩
  have e' : |rval f32 (atSerF t) - (rval f32 (atWF t) + rval f32 t)| ≤ 0.25 * uRel f32 := by
    refine le_trans e ?_
    rw [hu]; norm_num [f32]
  rw [show rval f32 (atSerF t) - Real.arctan (rval f32 t) = (rval f32 (atSerF t) - (rval f32 (atWF t) + rval f32 t)) +
    (rval f32 (atWF t) - atWR (rval f32 t)) + (rval f32 t + atWR (rval f32 t) - Real.arctan (rval f32 t)) by ring]
  refine le_trans (abs_add_three _ _ _) ?_
  have := uRel_pos f32
  linarith

theorem atSerF_abs' {t : BitVec 32} (hf : isFinite f32 t = true) (hle : |rval f32 t| ≤ 4143 / 10000) :
    isFinite f32 (atSerF t) = true ∧ |rval f32 (atSerF t) - Real.arctan (rval f32 t)| ≤ 0.573 * uRel f32 := by
  have h := atF_apx hle
  have hu := uRel_pos f32
  have := atSerF_abs (A := 0.253) hf hle (le_trans h ?_)
  · refine ⟨this.1, le_trans this.2 ?_⟩
    norm_num
  · have := mul_le_mul_of_nonneg_left hle (show (0 : ℝ) ≤ 61 / 100 * uRel f32 by positivity)
    linarith

theorem pi4F : |rval f32 0x3f490fdb#32 - Real.pi / 4| ≤ 0.3668 * uRel f32 := by
  rw [atF_c4.2, uRel32, abs_le]
  have := pi_gt_d50
  have := pi_lt_d50
  constructor <;> norm_num at * <;> linarith

theorem pi2F : |rval f32 0x3fc90fdb#32 - Real.pi / 2| ≤ 0.734 * uRel f32 := by
  rw [atF_c2.2, uRel32, abs_le]
  have := pi_gt_d50
  have := pi_lt_d50
  constructor <;> norm_num at * <;> linarith

/-- The last addition, with an error of the summand. -/
theorem atEndF {c s : BitVec 32} {r v E : ℝ} (hc : isFinite f32 c = true) (hs : isFinite f32 s = true)
    (h : |rval f32 c + rval f32 s - v| ≤ E * uRel f32) (hv : |v| ≤ 1.6) (hE : E ≤ 10) (hr : E + 1 ≤ r) :
    isFinite f32 (fAdd f32 c s) = true ∧ |rval f32 (fAdd f32 c s) - v| ≤ r * uRel f32 := by
  have hu := uRel32
  have hb : |rval f32 c + rval f32 s| ≤ 2 ^ (1 : Int) := by
    have a2 := abs_add_le (rval f32 c + rval f32 s - v) v
    rw [sub_add_cancel] at a2
    rw [hu] at h
    norm_num at *
    linarith
  obtain ⟨f, e⟩ := fAdd_err .single (k := 1) (by decide) hc hs hb
  refine ⟨f, ?_⟩
  have e' : |rval f32 (fAdd f32 c s) - (rval f32 c + rval f32 s)| ≤ 1 * uRel f32 := by
    refine le_trans e ?_
    rw [hu]; norm_num [f32]
  rw [show rval f32 (fAdd f32 c s) - v = (rval f32 (fAdd f32 c s) - (rval f32 c + rval f32 s)) + (rval f32 c + rval f32 s - v) by ring]
  refine le_trans (abs_add_le _ _) ?_
  have := mul_le_mul_of_nonneg_right hr (uRel_pos f32).le
  linarith

theorem atan_le_1_6 {x : ℝ} (h0 : 0 ≤ x) : |Real.arctan x| ≤ 1.6 := by
  rw [abs_of_nonneg (Real.arctan_nonneg.mpr h0)]
  have := Real.arctan_lt_pi_div_two x
  have := pi_lt_d50
  norm_num at *
  linarith

/-- Large arguments. -/
theorem atF_far {x : BitVec 32} (hf : isFinite f32 x = true) (hx : rval f32 0x401a827a#32 < rval f32 x) :
    WithinUlps f32 3 (Real.arctan (rval f32 x)) (fAdd f32 0x3fc90fdb#32 (atSerF (fDiv f32 0xbf800000#32 x))) := by
  rw [atF_hi.2] at hx
  have hu := uRel32
  have hx0 : 0 < rval f32 x := by linarith
  have hρ : |-1 / rval f32 x| ≤ 41422 / 100000 := by
    rw [abs_div, abs_neg, abs_one, abs_of_pos hx0, div_le_iff₀ hx0]; linarith
  obtain ⟨f1, e1⟩ := fDiv_err .single (k := -1) (by decide) atF_mone.1 hf hx0.ne' (by rw [atF_mone.2]; exact le_trans hρ (by norm_num))
  rw [atF_mone.2] at e1
  have e1' : |rval f32 (fDiv f32 0xbf800000#32 x) - -1 / rval f32 x| ≤ 0.25 * uRel f32 := by
    refine le_trans e1 ?_
    rw [hu]; norm_num [f32]
  have ht : |rval f32 (fDiv f32 0xbf800000#32 x)| ≤ 4143 / 10000 := by
    have := abs_add_le (rval f32 (fDiv f32 0xbf800000#32 x) - -1 / rval f32 x) (-1 / rval f32 x)
    rw [sub_add_cancel] at this
    rw [hu] at e1'
    norm_num at *
    linarith
  obtain ⟨f2, e2⟩ := atSerF_abs' f1 ht
  have e3 := arctan_lip1 (rval f32 (fDiv f32 0xbf800000#32 x)) (-1 / rval f32 x)
  have hv := arctan_far hx0
  have hp := pi2F
  have hE : |rval f32 0x3fc90fdb#32 + rval f32 (atSerF (fDiv f32 0xbf800000#32 x)) - Real.arctan (rval f32 x)| ≤ 1.6 * uRel f32 := by
    rw [hv, show ∀ a b c d e : ℝ, a + b - (c + d) = (a - c) + (b - e) + (e - d) by intros; ring]
    refine le_trans (abs_add_three _ _ _) ?_
    swap
    · exact Real.arctan (rval f32 (fDiv f32 0xbf800000#32 x))
    have := uRel_pos f32
    linarith
  obtain ⟨f4, e4⟩ := atEndF (r := 2.6) atF_c2.1 f2 hE (atan_le_1_6 hx0.le) (by norm_num) (by norm_num)
  refine within_of_abs f4 ?_ (by norm_num) e4 (by norm_num)
  rw [abs_of_nonneg (Real.arctan_nonneg.mpr hx0.le), hv]
  have h5 := le_trans (neg_abs_le _) (le_refl (Real.arctan (-1 / rval f32 x)))
  have h6 := arctan_abs_le (-1 / rval f32 x)
  have := pi_gt_d50
  norm_num at *
  linarith

theorem atan_5464 : 1 / 2 ≤ Real.arctan 0.5464 := by
  have h := arctan_sum (t := 5464 / 10000) (by norm_num) (by norm_num) 16
  have e : (0.50005 : ℚ) ≤ atanSum (5464 / 10000) 16 := by decide +kernel
  have e' := (Rat.cast_le (K := ℝ)).mpr e
  push_cast at *
  rw [abs_le] at h
  norm_num at *
  linarith

theorem grid_one {g : Int} (h : g ≤ 0) : OnGrid g 1 := OnGrid.finer (g := 0) ⟨1, by norm_num⟩ h

/-- The difference of the middle range is exact. -/
theorem mid_exact {F : Fmt} {w : Nat} (h : FmtW F w) {x one : BitVec w} (hf : isFinite F x = true)
    (ho : isFinite F one = true ∧ rval F one = 1) (h1 : 1 / 2 ≤ rval F x) (h2 : rval F x ≤ 2.5) :
    isFinite F (fSub F x one) = true ∧ rval F (fSub F x one) = rval F x - 1 := by
  have key : ∀ j : Int, -1 ≤ j → j ≤ 1 → (2 : ℝ) ^ j ≤ rval F x → |rval F x - 1| ≤ 2 ^ (j + 1) →
      isFinite F (fSub F x one) = true ∧ rval F (fSub F x one) = rval F x - 1 := by
    intro j j1 j2 hx hb
    have g := grid_of_le (F := F) (j := j) (by cases h <;> simp [oneExp, bias, f32, f64] <;> omega) hx
    have := fSub_grid h (g := j - F.m) hf ho.1 g (by rw [ho.2]; exact grid_one (by cases h <;> simp [f32, f64] <;> omega))
      (by rw [ho.2, show j - (F.m : Int) + ((F.m + 1 : Nat) : Int) = j + 1 by push_cast; ring]; exact hb)
      (by cases h <;> simp [oneExp, bias, f32, f64] <;> omega) (by cases h <;> simp [oneExp, bias, f32, f64] <;> omega)
    rw [ho.2] at this
    exact this
  rcases le_total (rval F x) 2 with hc | hc
  · exact key (-1) (by norm_num) (by norm_num) (by norm_num; linarith) (by rw [abs_le]; constructor <;> norm_num <;> linarith)
  · exact key 1 (by norm_num) (by norm_num) (by norm_num; linarith) (by rw [abs_le]; constructor <;> norm_num at * <;> linarith)

/-- The middle range where the result is at least one half. -/
theorem atF_mid {x : BitVec 32} (hf : isFinite f32 x = true) (hx : 1 / 2 ≤ rval f32 x) (hx2 : ¬rval f32 0x401a827a#32 < rval f32 x)
    (hv : 1 / 2 ≤ Real.arctan (rval f32 x)) :
    WithinUlps f32 3 (Real.arctan (rval f32 x))
      (fAdd f32 0x3f490fdb#32 (atSerF (fDiv f32 (fSub f32 x 0x3f800000#32) (fAdd f32 x 0x3f800000#32)))) := by
  rw [atF_hi.2, not_lt] at hx2
  have hu := uRel32
  have hu0 := uRel_pos f32
  obtain ⟨f1, e1⟩ := mid_exact .single hf atF_one hx (by norm_num; linarith)
  have hn : Apx f32 (fSub f32 x 0x3f800000#32) (rval f32 x - 1) 0 1.5 :=
    ⟨f1, by rw [e1]; simp, by rw [abs_le]; constructor <;> norm_num <;> linarith⟩
  have hx1 : Apx f32 x (rval f32 x) 0 2.5 := Apx.exact hf (by rw [abs_le]; constructor <;> norm_num <;> linarith)
  have ho : Apx f32 _ _ 0 1 := Apx.const atF_one (by norm_num)
  have hr : Apx f32 (fDiv f32 (fSub f32 x 0x3f800000#32) (fAdd f32 x 0x3f800000#32)) ((rval f32 x - 1) / (rval f32 x + 1))
      (0.665 * uRel f32) 0.41422 := by
    have hd0 : 0 < rval f32 x + 1 := by linarith
    rcases le_total (rval f32 x) 1 with hc | hc
    · have hd := hx1.add ho .single 1 (by decide) (R := 2) (by rw [abs_le]; constructor <;> linarith) (by norm_num)
        (d := uRel f32) (by rw [hu]; norm_num [f32])
      have hn' : Apx f32 (fSub f32 x 0x3f800000#32) (rval f32 x - 1) 0 0.5 :=
        ⟨f1, by rw [e1]; simp, by rw [abs_le]; constructor <;> norm_num <;> linarith⟩
      have := hn'.div hd .single (-1) (by decide) (L := 1.5) (by rw [abs_of_pos hd0]; norm_num; linarith) (by rw [hu]; norm_num)
        (R := 1 / 3) (by rw [abs_div, abs_of_pos hd0, div_le_iff₀ hd0, abs_le]; constructor <;> linarith)
        (by rw [hu]; norm_num) (d := 0.5 * uRel f32) (by rw [hu]; norm_num [f32])
      exact this.weaken (by linarith) (by norm_num)
    · have hd := hx1.add ho .single 2 (by decide) (R := 3.5) (by rw [abs_le]; constructor <;> norm_num <;> linarith) (by norm_num)
        (d := 2 * uRel f32) (by rw [hu]; norm_num [f32])
      exact hn.divQ hd .single (-1) (by decide) (L := 2) (by rw [abs_of_pos hd0]; linarith) (by rw [hu]; norm_num)
        (R := 0.41422) (by rw [abs_div, abs_of_pos hd0, div_le_iff₀ hd0, abs_le]; constructor <;> norm_num at * <;> linarith)
        (e := 0.4143 * uRel f32) (by rw [hu]; norm_num) (by rw [hu]; norm_num) (d := 0.665 * uRel f32) (by rw [hu]; norm_num [f32])
  generalize fDiv f32 (fSub f32 x 0x3f800000#32) (fAdd f32 x 0x3f800000#32) = t at *
  have ht : |rval f32 t| ≤ 4143 / 10000 := by
    have := hr.abs_le
    rw [hu] at this
    norm_num at *
    linarith
  obtain ⟨f2, e2⟩ := atSerF_abs' hr.fin ht
  have e3 := arctan_lip1 (rval f32 t) ((rval f32 x - 1) / (rval f32 x + 1))
  have hm := arctan_mid (x := rval f32 x) (by linarith)
  have hp := pi4F
  have he := hr.err
  have hE : |rval f32 0x3f490fdb#32 + rval f32 (atSerF t) - Real.arctan (rval f32 x)| ≤ 1.7 * uRel f32 := by
    rw [hm, show ∀ a b c d e : ℝ, a + b - (c + d) = (a - c) + (b - e) + (e - d) by intros; ring]
    refine le_trans (abs_add_three _ _ _) ?_
    swap
    · exact Real.arctan (rval f32 t)
    linarith
  obtain ⟨f4, e4⟩ := atEndF (r := 2.7) atF_c4.1 f2 hE (atan_le_1_6 (by linarith)) (by norm_num) (by norm_num)
  exact within_of_abs f4 (by rw [abs_of_nonneg (by linarith)]; exact hv) (by norm_num) e4 (by norm_num)

end Vc.Lemma
