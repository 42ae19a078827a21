import Verif.Lemma.Atan2Real
import Verif.Lemma.AtanD
import Verif.Lemma.ArcSpecial

/-!
The precision of `atan2`.
-/

namespace Vc.Lemma
open Vc.Model Vc.Spec Vc.Prop

section
variable {F : Fmt} {w : Nat}

/-- Units in the last place as a relative and an absolute error. -/
theorem within_rel {k v : ℝ} {r : BitVec w} (hk : 0 ≤ k) (h : WithinUlps F k v r) :
    |rval F r - v| ≤ 2 * k * (uRel F * |v| + uAbs F) := by
  have hu := uRel_pos F
  have ha := uAbs_pos F
  by_cases h0 : v = 0
  · rw [h0, h.2.1 h0]
    simp only [sub_zero, abs_zero, mul_zero, zero_add]
    positivity
  · obtain ⟨e, h1, h2⟩ := exists_mem_Ico_zpow (x := |v|) (y := (2 : ℝ)) (abs_pos.mpr h0) (by norm_num)
    refine le_trans (h.2.2 e h1 h2) ?_
    have e1 : (2 : ℝ) ^ (e - F.m) = 2 * (uRel F * 2 ^ e) := by
      unfold uRel
      rw [← zpow_add₀ (by norm_num), show (2 : ℝ) * 2 ^ (-((F.m : Int) + 1) + e) = 2 ^ (1 : Int) * 2 ^ (-((F.m : Int) + 1) + e) by norm_num,
        ← zpow_add₀ (by norm_num)]
      congr 1; ring
    have e2 : (2 : ℝ) ^ (-(oneExp F : Int)) = 2 * uAbs F := by
      unfold uAbs
      rw [show (2 : ℝ) * 2 ^ (-((oneExp F : Int) + 1)) = 2 ^ (1 : Int) * 2 ^ (-((oneExp F : Int) + 1)) by norm_num,
        ← zpow_add₀ (by norm_num)]
      congr 1; ring
    have h3 : uRel F * 2 ^ e ≤ uRel F * |v| := mul_le_mul_of_nonneg_left h1 hu.le
    have h4 : 0 ≤ uRel F * |v| := by positivity
    have : (2 : ℝ) ^ max (e - F.m) (-(oneExp F : Int)) ≤ 2 * (uRel F * |v| + uAbs F) := by
      rcases le_total (e - F.m) (-(oneExp F : Int)) with hm | hm
      · rw [max_eq_right hm, e2]; linarith
      · rw [max_eq_left hm, e1]; linarith
    have := mul_le_mul_of_nonneg_left this hk
    linarith

/-- The same below 2. -/
theorem within_two (hw : FmtW F w) {k v : ℝ} {r : BitVec w} (hk : 0 ≤ k) (hv : |v| < 2) (h : WithinUlps F k v r) :
    |rval F r - v| ≤ 2 * k * uRel F := by
  have hu := uRel_pos F
  by_cases h0 : v = 0
  · rw [h0, h.2.1 h0]
    simp only [sub_zero, abs_zero]
    positivity
  · obtain ⟨e, h1, h2⟩ := exists_mem_Ico_zpow (x := |v|) (y := (2 : ℝ)) (abs_pos.mpr h0) (by norm_num)
    refine le_trans (h.2.2 e h1 h2) ?_
    have he : e < 1 := (zpow_lt_zpow_iff_right₀ (by norm_num : (1 : ℝ) < 2)).mp (lt_of_le_of_lt h1 (by simpa using hv))
    have e1 : 2 * uRel F = (2 : ℝ) ^ (-(F.m : Int)) := by
      unfold uRel
      rw [show (2 : ℝ) * 2 ^ (-((F.m : Int) + 1)) = 2 ^ (1 : Int) * 2 ^ (-((F.m : Int) + 1)) by norm_num,
        ← zpow_add₀ (by norm_num)]
      congr 1; ring
    have hmo : (F.m : Int) ≤ oneExp F := by cases hw <;> decide
    rw [mul_comm 2 k, mul_assoc, e1]
    refine mul_le_mul_of_nonneg_left (zpow_le_zpow_right₀ (by norm_num) (max_le (by omega) (by omega))) hk

/-- A quotient that is large stays large or becomes infinite. -/
theorem fDiv_big (h : FmtW F w) {a b : BitVec w} (ha : isFinite F a = true) (hb : isFinite F b = true) (h0 : rval F b ≠ 0)
    (hv : (2 : ℝ) ^ 100 ≤ |rval F a / rval F b|) :
    fDiv F a b = mkFloat F w (fneg F a != fneg F b) (infMag F) ∨
    isFinite F (fDiv F a b) = true ∧
      (2 : ℝ) ^ 100 ≤ (if (fneg F a != fneg F b) = true then -1 else 1) * rval F (fDiv F a b) := by
  have hb0 : fval F b ≠ 0 := rval_ne h0
  have hbn : (((fval F b).natAbs : Nat) : ℝ) ≠ 0 := by
    have : (fval F b).natAbs ≠ 0 := by omega
    exact_mod_cast this
  have hp := one_pos F
  have e : rval F a / rval F b = (if (fneg F a != fneg F b) = true then (-1 : ℝ) else 1) *
      ((((fval F a).natAbs * 2 ^ oneExp F : Nat) : ℝ) / (((fval F b).natAbs : Nat) : ℝ) / 2 ^ oneExp F) := by
    rw [rval_sign, rval_sign]; push_cast
    generalize (((fval F b).natAbs : Nat) : ℝ) = B at *
    generalize (((fval F a).natAbs : Nat) : ℝ) = A at *
    cases fneg F a <;> cases fneg F b <;> simp <;> field_simp
  rw [fDiv_fin ha hb hb0]
  rw [e, sign_abs, abs_of_nonneg (by positivity)] at hv
  have hd : 0 < (fval F b).natAbs := by omega
  generalize (fval F a).natAbs * 2 ^ oneExp F = num at *
  generalize (fval F b).natAbs = den at *
  generalize (fneg F a != fneg F b) = s at *
  have hle : roundMag F num den ≤ infMag F := by rw [roundMag_raw]; exact Nat.min_le_right _ _
  rcases Nat.eq_or_lt_of_le hle with hi | hi
  · left; rw [hi]
  · right
    have hfin := fun s => isFinite_mk F h.lt s hi
    refine ⟨hfin s, ?_⟩
    have hval : ∀ s, rval F (mkFloat F w s (roundMag F num den)) =
        (if s = true then -1 else 1) * ((magVal F (roundMag F num den) : ℝ) / 2 ^ oneExp F) := by
      intro s
      have hfv : fval F (mkFloat F w s (roundMag F num den)) = signed s (magVal F (roundMag F num den)) :=
        fval_mk F h.lt s (Nat.lt_trans hi (infMag_lt F))
      unfold rval; rw [hfv, signed_real, mul_div_assoc]
    obtain ⟨c, hc, hcv⟩ : ∃ c : BitVec w, isFinite F c = true ∧ rval F c = 2 ^ 100 := by
      refine repr_pattern h ⟨1, 100, by norm_num, ?_, ?_, ?_⟩ <;> cases h <;> decide +kernel
    have hn := nearest_ge hd (mk_nearest h false num hd) (isFinite_not hc).1 (by
      have : ((fval F c * (den : Int) : Int) : ℝ) ≤ ((signed false num : Int) : ℝ) := by
        rw [signed_real]
        push_cast
        have e1 : ((fval F c : Int) : ℝ) = 2 ^ 100 * 2 ^ oneExp F := by
          rw [← hcv]; unfold rval; field_simp
        have hdr : (0 : ℝ) < den := by exact_mod_cast hd
        rw [e1]
        rw [le_div_iff₀ hp, le_div_iff₀ hdr] at hv
        simpa using hv
      exact_mod_cast this)
    have hn2 := rval_le.mpr hn
    rw [hcv, hval false] at hn2
    rw [hval s]
    have hn3 : (2 : ℝ) ^ 100 ≤ (magVal F (roundMag F num den) : ℝ) / 2 ^ oneExp F := by simpa using hn2
    cases s
    · simpa using hn3
    · simpa using hn3

/-- What is needed of `atan` and of the constant for `π/2`. -/
structure AtanErr (F : Fmt) (w : Nat) (half : Nat) (atan : BitVec w → BitVec w) : Prop where
  fin : ∀ x, isFinite F x = true → isFinite F (atan x) = true ∧
    |rval F (atan x) - Real.arctan (rval F x)| ≤ 6 * (uRel F * |Real.arctan (rval F x)| + uAbs F) ∧
    |rval F (atan x) - Real.arctan (rval F x)| ≤ 6 * uRel F
  inf : ∀ s, atan (mkFloat F w s (infMag F)) = mkFloat F w s half
  half : ∀ s, isFinite F (mkFloat F w s half) = true ∧
    |rval F (mkFloat F w s half) - (if s = true then -1 else 1) * (Real.pi / 2)| ≤ uRel F

theorem u_facts (h : FmtW F w) : uRel F ≤ 1 / 2 ^ 24 ∧ 1 / 2 ^ 53 ≤ uRel F ∧ uAbs F ≤ 1 / 2 ^ 100 * uRel F := by
  have e : ∀ n : Nat, (1 : ℝ) / 2 ^ n = 2 ^ (-(n : Int)) := by intro n; rw [zpow_neg, zpow_natCast, one_div]
  unfold uRel uAbs
  rw [e, e, e, ← zpow_add₀ (by norm_num)]
  refine ⟨zpow_le_zpow_right₀ (by norm_num) ?_, zpow_le_zpow_right₀ (by norm_num) ?_, zpow_le_zpow_right₀ (by norm_num) ?_⟩ <;>
    cases h <;> decide

theorem arctan_bound (q : ℝ) : |Real.arctan q| ≤ 1.571 := by
  have h1 := Real.arctan_lt_pi_div_two q
  have h2 := Real.neg_pi_div_two_lt_arctan q
  have := pi_lt_d50; norm_num at this
  rw [abs_le]; constructor <;> linarith

/-- The arcus tangens of the rounded quotient. -/
theorem atan_quot (h : FmtW F w) {half : Nat} {atan : BitVec w → BitVec w} (A : AtanErr F w half atan) {y x : BitVec w}
    (hy : isFinite F y = true) (hx : isFinite F x = true) (h0 : rval F x ≠ 0) :
    isFinite F (atan (fDiv F y x)) = true ∧
    |rval F (atan (fDiv F y x)) - Real.arctan (rval F y / rval F x)| ≤ 7.01 * (uRel F * |Real.arctan (rval F y / rval F x)| + uAbs F) ∧
    |rval F (atan (fDiv F y x)) - Real.arctan (rval F y / rval F x)| ≤ 7.6 * uRel F := by
  obtain ⟨u1, u2, u3⟩ := u_facts h
  have u0 := uRel_pos F
  have a0 := uAbs_pos F
  have hB := arctan_bound (rval F y / rval F x)
  by_cases hv : |rval F y / rval F x| ≤ 2 ^ (100 : Int)
  · obtain ⟨hf, hr⟩ := fDiv_rel h (k := 100) (by cases h <;> decide) hy hx h0 hv
    obtain ⟨f1, f2, f3⟩ := A.fin _ hf
    refine ⟨f1, ?_⟩
    have hr' : |rval F (fDiv F y x) - rval F y / rval F x| ≤ uRel F * |rval F y / rval F x| + uAbs F := by
      unfold RelErr at hr
      refine le_trans hr ?_
      split <;> linarith
    have hl := arctan_relAbs u0.le (by linarith [show (1 : ℝ) / 2 ^ 24 ≤ 1 by norm_num]) a0.le hr'
    generalize Real.arctan (rval F y / rval F x) = V at *
    generalize Real.arctan (rval F (fDiv F y x)) = V' at *
    generalize rval F (atan (fDiv F y x)) = r at *
    have t1 := abs_sub_le r V' V
    have t2 : |V'| ≤ |V| + (uRel F * |V| + uAbs F) := by
      have := abs_sub_abs_le_abs_sub V' V; linarith
    have hV := abs_nonneg V
    have t3 : uRel F * |V'| ≤ uRel F * (|V| + (uRel F * |V| + uAbs F)) := mul_le_mul_of_nonneg_left t2 u0.le
    have t4 : uRel F * (uRel F * |V| + uAbs F) ≤ 1 / 2 ^ 24 * (uRel F * |V| + uAbs F) :=
      mul_le_mul_of_nonneg_right u1 (by positivity)
    have t5 : uRel F * |V| ≤ uRel F * 1.571 := mul_le_mul_of_nonneg_left hB u0.le
    have t6 : 0 ≤ uRel F * |V| := by positivity
    constructor
    · have e : uRel F * (|V| + (uRel F * |V| + uAbs F)) = uRel F * |V| + uRel F * (uRel F * |V| + uAbs F) := by ring
      norm_num at t4 ⊢; linarith
    · norm_num at u3 ⊢; linarith
  · have hv' : (2 : ℝ) ^ 100 ≤ |rval F y / rval F x| := by
      push Not at hv
      have := hv.le
      exact_mod_cast this
    have hsgn : rval F y / rval F x = (if (fneg F y != fneg F x) = true then (-1 : ℝ) else 1) * |rval F y / rval F x| := by
      rw [rval_sign, rval_sign]
      have h1 : 0 ≤ (((fval F y).natAbs : Nat) : ℝ) / 2 ^ oneExp F / ((((fval F x).natAbs : Nat) : ℝ) / 2 ^ oneExp F) := by positivity
      rw [mul_div_assoc _ (((fval F y).natAbs : Nat) : ℝ), mul_div_assoc _ (((fval F x).natAbs : Nat) : ℝ)]
      generalize (((fval F y).natAbs : Nat) : ℝ) / 2 ^ oneExp F = Y at *
      generalize (((fval F x).natAbs : Nat) : ℝ) / 2 ^ oneExp F = X at *
      cases fneg F y <;> cases fneg F x <;> simp [div_neg, neg_div, abs_of_nonneg h1]
    have hV : |Real.arctan (rval F y / rval F x) - (if (fneg F y != fneg F x) = true then (-1 : ℝ) else 1) * (Real.pi / 2)| ≤ 1 / 2 ^ 100 := by
      have := arctan_big hv'
      rw [hsgn]
      cases (fneg F y != fneg F x)
      · simpa using this
      · rw [if_pos rfl, neg_one_mul, neg_one_mul, Real.arctan_neg, ← abs_neg]
        convert this using 2; ring
    have hp1 := pi_gt_d50
    have hb : 1.5 ≤ |Real.arctan (rval F y / rval F x)| := by
      have hp2 : (1.51 : ℝ) ≤ Real.pi / 2 := by norm_num at hp1 ⊢; linarith
      have e1 : |(if (fneg F y != fneg F x) = true then (-1 : ℝ) else 1) * (Real.pi / 2)| = Real.pi / 2 := by
        rw [sign_abs, abs_of_nonneg (by linarith)]
      have e2 := abs_sub_abs_le_abs_sub ((if (fneg F y != fneg F x) = true then (-1 : ℝ) else 1) * (Real.pi / 2))
        (Real.arctan (rval F y / rval F x))
      rw [abs_sub_comm, e1] at e2
      have e3 := le_trans e2 hV
      norm_num at e3 hp2 ⊢; linarith
    have key : isFinite F (atan (fDiv F y x)) = true ∧
        |rval F (atan (fDiv F y x)) - Real.arctan (rval F y / rval F x)| ≤ 6.01 * uRel F := by
      generalize Real.arctan (rval F y / rval F x) = V at *
      rcases fDiv_big h hy hx h0 hv' with he | ⟨hf, hq⟩
      · rw [he, A.inf]
        obtain ⟨g1, g2⟩ := A.half (fneg F y != fneg F x)
        refine ⟨g1, ?_⟩
        generalize (if (fneg F y != fneg F x) = true then (-1 : ℝ) else 1) * (Real.pi / 2) = P at *
        have t := abs_sub_le (rval F (mkFloat F w (fneg F y != fneg F x) half)) P V
        rw [abs_sub_comm P V] at t
        norm_num at *; linarith
      · obtain ⟨f1, f2, f3⟩ := A.fin _ hf
        refine ⟨f1, ?_⟩
        have hq2 : |Real.arctan (rval F (fDiv F y x)) - (if (fneg F y != fneg F x) = true then (-1 : ℝ) else 1) * (Real.pi / 2)| ≤ 1 / 2 ^ 100 := by
          have := arctan_big hq
          revert this
          cases (fneg F y != fneg F x)
          · simp
          · rw [if_pos rfl, neg_one_mul, neg_one_mul, Real.arctan_neg, ← abs_neg]
            intro this
            convert this using 2; ring
        generalize (if (fneg F y != fneg F x) = true then (-1 : ℝ) else 1) * (Real.pi / 2) = P at *
        generalize Real.arctan (rval F (fDiv F y x)) = V' at *
        generalize rval F (atan (fDiv F y x)) = r at *
        have t := abs_sub_le r V' V
        have t' := abs_sub_le V' P V
        rw [abs_sub_comm P V] at t'
        norm_num at *; linarith
    refine ⟨key.1, ?_, by linarith [key.2]⟩
    refine le_trans key.2 ?_
    have : uRel F * 1.5 ≤ uRel F * |Real.arctan (rval F y / rval F x)| := mul_le_mul_of_nonneg_left hb u0.le
    linarith

/-- Where the result is zero it gets a sign; the value stays. -/
theorem zero_sign (h : FmtW F w) (s : Bool) {a : BitVec w} (ha : isFinite F a = true) :
    isFinite F (if fEq F a 0#w then sc s (absL a) else a) = true ∧
    rval F (if fEq F a 0#w then sc s (absL a) else a) = rval F a := by
  rw [(zero_class h (isFinite_not ha).1).1]
  by_cases h0 : fmag F a = 0
  · rw [if_pos (decide_eq_true h0)]
    have e : a = mkFloat F w (fneg F a) 0 := by
      have := fneg_mk F h.lt (fneg F a) (k := 0) (by positivity)
      exact sm_ext h.width this.1.symm (h0.trans this.2.symm)
    rw [e]
    generalize fneg F a = t
    have : isFinite F (sc s (absL (mkFloat F w t 0))) = true ∧ fval F (sc s (absL (mkFloat F w t 0))) = 0 ∧
        fval F (mkFloat F w t 0) = 0 := by
      cases h <;> revert s t <;> decide +kernel
    refine ⟨this.1, ?_⟩
    unfold rval; rw [this.2.1, this.2.2]
  · rw [if_neg (by simpa using h0)]
    exact ⟨ha, rfl⟩

theorem fneg_real {x : BitVec w} (h0 : rval F x ≠ 0) : (fneg F x = true ↔ rval F x < 0) := by
  have hp := one_pos F
  rw [rval_sign] at h0 ⊢
  have h1 : 0 ≤ (((fval F x).natAbs : Nat) : ℝ) / 2 ^ oneExp F := by positivity
  rw [mul_div_assoc] at h0 ⊢
  have h2 : 0 < (((fval F x).natAbs : Nat) : ℝ) / 2 ^ oneExp F := by
    rcases eq_or_lt_of_le h1 with e | e
    · rw [← e, mul_zero] at h0; exact absurd rfl h0
    · exact e
  generalize (((fval F x).natAbs : Nat) : ℝ) / 2 ^ oneExp F = v at *
  cases fneg F x
  · simp; linarith
  · simp; linarith

theorem rval_zero_iff {x : BitVec w} : rval F x = 0 ↔ fmag F x = 0 := by
  rw [← fval_eq_zero]
  have hp := one_pos F
  unfold rval
  rw [div_eq_zero_iff]
  constructor
  · rintro (h | h)
    · exact_mod_cast h
    · exact absurd h hp.ne'
  · intro h; left; rw [h]; simp

theorem atan2_acc (h : FmtW F w) (B : CmpBuild) {T : PiTable} {pi pi2 pi4 one : BitVec w} {atan : BitVec w → BitVec w}
    (ok : Atan2Ok F w T pi pi2 pi4 one atan) (A : AtanErr F w T.half atan)
    (hpi : ∀ s, isFinite F (sc s pi) = true ∧ |rval F (sc s pi) - (if s = true then -Real.pi else Real.pi)| ≤ 1.5 * uRel F)
    {y x : BitVec w} (hy : isFinite F y = true) (hx : isFinite F x = true) (hd : rval F y ≠ 0 ∨ 0 < rval F x) :
    isFinite F (atan2With (sArc B F w) pi pi2 pi4 one atan y x) = true ∧
    |rval F (atan2With (sArc B F w) pi pi2 pi4 one atan y x) - Complex.arg ⟨rval F x, rval F y⟩| ≤
      8 * (uRel F * |Complex.arg ⟨rval F x, rval F y⟩| + uAbs F) := by
  obtain ⟨u1, u2, u3⟩ := u_facts h
  have u0 := uRel_pos F
  have a0 := uAbs_pos F
  have ny := (isFinite_not hy).1
  have nx := (isFinite_not hx).1
  by_cases y0 : rval F y = 0
  · have xp : 0 < rval F x := hd.resolve_left (fun c => c y0)
    have my := rval_zero_iff.mp y0
    have sx : fneg F x = false := by
      cases e : fneg F x with
      | false => rfl
      | true => exact absurd ((fneg_real xp.ne').mp e) (by linarith)
    have hm : atan2Table F T y x = some 0 := by
      unfold atan2Table; rw [ny, nx, if_neg (by decide), if_pos my, sx, if_neg (by decide)]
    rw [atan2_table h B ok hm, y0, arg_pos xp, zero_div, Real.arctan_zero]
    generalize fneg F y = t
    have : isFinite F (mkFloat F w t 0) = true ∧ fval F (mkFloat F w t 0) = 0 := by
      cases h <;> revert t <;> decide +kernel
    refine ⟨this.1, ?_⟩
    unfold rval; rw [this.2]; simp; exact a0.le
  have my : fmag F y ≠ 0 := fun c => y0 (rval_zero_iff.mpr c)
  have hsy := fneg_real y0
  have hp1 : (3.14 : ℝ) ≤ Real.pi := le_trans (by norm_num) pi_gt_d50
  have hp2 : Real.pi ≤ 3.1416 := le_trans pi_lt_d50 (by norm_num)
  by_cases x0 : rval F x = 0
  · have mx := rval_zero_iff.mp x0
    have hm : atan2Table F T y x = some T.half := by
      unfold atan2Table; rw [ny, nx, if_neg (by decide), if_neg my, if_pos mx]
    rw [atan2_table h B ok hm, x0, arg_zero y0]
    obtain ⟨h1, h2⟩ := A.half (fneg F y)
    refine ⟨h1, ?_⟩
    have e : (if rval F y < 0 then -(Real.pi / 2) else Real.pi / 2) = (if fneg F y = true then (-1 : ℝ) else 1) * (Real.pi / 2) := by
      by_cases c : rval F y < 0
      · rw [if_pos c, if_pos (hsy.mpr c)]; ring
      · rw [if_neg c, if_neg (fun k => c (hsy.mp k))]; ring
    rw [e]
    refine le_trans h2 ?_
    rw [sign_abs, abs_of_pos (by linarith)]
    have : uRel F * 1 ≤ uRel F * (Real.pi / 2) := mul_le_mul_of_nonneg_left (by linarith) u0.le
    linarith
  have mx : fmag F x ≠ 0 := fun c => x0 (rval_zero_iff.mpr c)
  have hsx := fneg_real x0
  rw [atan2_post h B pi pi2 pi4 one ok.abs atan ny nx, hx, hy, if_pos rfl, decide_eq_false my, decide_eq_false mx]
  obtain ⟨t1, t2, t3⟩ := atan_quot h A hy hx x0
  generalize atan (fDiv F y x) = t at *
  have hpost : atan2Post F w pi pi2 pi4 false (fneg F x) true false (fneg F y) true t =
      if fEq F (fAdd F (if fneg F x = true then sc (fneg F y) pi else 0#w) t) 0#w then
        sc (fneg F y) (absL (fAdd F (if fneg F x = true then sc (fneg F y) pi else 0#w) t))
      else fAdd F (if fneg F x = true then sc (fneg F y) pi else 0#w) t := by
    unfold atan2Post
    cases fneg F x <;> cases fneg F y <;> simp
  rw [hpost]
  have hV := arctan_bound (rval F y / rval F x)
  have key : ∀ a : BitVec w, isFinite F a = true →
      |rval F a - Complex.arg ⟨rval F x, rval F y⟩| ≤ 8 * (uRel F * |Complex.arg ⟨rval F x, rval F y⟩| + uAbs F) →
      isFinite F (if fEq F a 0#w then sc (fneg F y) (absL a) else a) = true ∧
      |rval F (if fEq F a 0#w then sc (fneg F y) (absL a) else a) - Complex.arg ⟨rval F x, rval F y⟩| ≤
        8 * (uRel F * |Complex.arg ⟨rval F x, rval F y⟩| + uAbs F) := by
    intro a ha he
    obtain ⟨z1, z2⟩ := zero_sign h (fneg F y) ha
    exact ⟨z1, by rw [z2]; exact he⟩
  rcases lt_or_gt_of_ne x0 with hlt | hgt
  · rw [if_pos (hsx.mpr hlt)]
    obtain ⟨p1, p2⟩ := hpi (fneg F y)
    have hθ := arg_neg hlt y0
    have e : (if rval F y < 0 then -Real.pi else Real.pi) = (if fneg F y = true then -Real.pi else Real.pi) := by
      by_cases c : rval F y < 0
      · rw [if_pos c, if_pos (hsy.mpr c)]
      · rw [if_neg c, if_neg (fun k => c (hsy.mp k))]
    rw [e] at hθ
    have hbig : 1.5 ≤ |Complex.arg ⟨rval F x, rval F y⟩| := by
      by_contra hc
      push Not at hc
      have := (Complex.abs_arg_lt_pi_div_two_iff (z := ⟨rval F x, rval F y⟩)).mp (by norm_num at hc; linarith)
      rcases this with c | c
      · exact absurd (show 0 < rval F x from c) (by linarith)
      · exact absurd (congrArg Complex.re c) (by simpa using x0)
    generalize Complex.arg ⟨rval F x, rval F y⟩ = θ at *
    generalize Real.arctan (rval F y / rval F x) = V at *
    generalize hPdef : (if fneg F y = true then -Real.pi else Real.pi) = P at *
    have hsum : |rval F (sc (fneg F y) pi) + rval F t - θ| ≤ 9.1 * uRel F := by
      rw [hθ]
      have := abs_add_le (rval F (sc (fneg F y) pi) - P) (rval F t - V)
      rw [show rval F (sc (fneg F y) pi) + rval F t - (V + P) = (rval F (sc (fneg F y) pi) - P) + (rval F t - V) by ring]
      linarith
    have hpiu : uRel F * 1.5 ≤ uRel F * |θ| := mul_le_mul_of_nonneg_left hbig u0.le
    have hth : |θ| ≤ 4.8 := by
      have : |P| ≤ 3.1416 := by
        rw [← hPdef]; split
        · rw [abs_neg, abs_of_pos (by linarith)]; exact hp2
        · rw [abs_of_pos (by linarith)]; exact hp2
      rw [hθ]
      exact le_trans (abs_add_le _ _) (by linarith)
    have hs2 : |rval F (sc (fneg F y) pi) + rval F t| ≤ |θ| + 9.1 * uRel F := by
      have := abs_sub_abs_le_abs_sub (rval F (sc (fneg F y) pi) + rval F t) θ
      linarith
    obtain ⟨s1, s2⟩ := fAdd_rel h (k := 3) (by cases h <;> decide) p1 t1 (by norm_num at *; linarith)
    refine key _ s1 ?_
    have s3 : |rval F (fAdd F (sc (fneg F y) pi) t) - (rval F (sc (fneg F y) pi) + rval F t)| ≤
        uRel F * |rval F (sc (fneg F y) pi) + rval F t| + uAbs F := by
      unfold RelErr at s2
      refine le_trans s2 ?_
      split <;> linarith
    have s4 : uRel F * |rval F (sc (fneg F y) pi) + rval F t| ≤ uRel F * |θ| + uRel F * (9.1 * uRel F) := by
      rw [← mul_add]; exact mul_le_mul_of_nonneg_left hs2 u0.le
    have s5 : uRel F * (9.1 * uRel F) ≤ uRel F * (9.1 * (1 / 2 ^ 24)) :=
      mul_le_mul_of_nonneg_left (by linarith) u0.le
    have s6 := abs_sub_le (rval F (fAdd F (sc (fneg F y) pi) t)) (rval F (sc (fneg F y) pi) + rval F t) θ
    generalize uRel F * |θ| = c at *
    norm_num at s5 u3 ⊢
    linarith
  · rw [if_neg (fun k => absurd (hsx.mp k) (by linarith))]
    rw [arg_pos hgt] at key ⊢
    have z : isFinite F 0#w = true ∧ rval F 0#w = 0 := by
      cases h
      · exact ⟨by decide, by unfold rval; rw [show fval f32 0#32 = 0 by decide +kernel]; simp⟩
      · exact ⟨by decide, by unfold rval; rw [show fval f64 0#64 = 0 by decide +kernel]; simp⟩
    obtain ⟨s1, s2⟩ := fAdd_zero' h z.1 t1 z.2
    refine key _ s1 ?_
    rw [s2]
    refine le_trans t2 (mul_le_mul_of_nonneg_right (by norm_num) (by positivity))
end

end Vc.Lemma
