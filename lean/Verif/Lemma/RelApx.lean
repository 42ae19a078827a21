import Verif.Lemma.ExpD

/-!
Error bounds relative to a scale: the operations are correct up to half a unit in the last place of the result, or half
of the smallest number.
-/

namespace Vc.Lemma
open Vc.Model Vc.Spec

/-- Half a unit in the last place, relative. -/
noncomputable def uRel (F : Fmt) : ℝ := (2 : ℝ) ^ (-((F.m : Int) + 1))
/-- Half of the smallest number. -/
noncomputable def uAbs (F : Fmt) : ℝ := (2 : ℝ) ^ (-((oneExp F : Int) + 1))

theorem uRel_pos (F : Fmt) : 0 < uRel F := by unfold uRel; positivity
theorem uAbs_pos (F : Fmt) : 0 < uAbs F := by unfold uAbs; positivity

/-- `r` is `v` correctly rounded, up to this error. -/
def RelErr (F : Fmt) (v r : ℝ) : Prop := |r - v| ≤ uRel F * |v| + if v = 0 then 0 else uAbs F

theorem mk_rel {F : Fmt} {w : Nat} (h : FmtW F w) (s : Bool) (num : Nat) {den : Nat} (hd : 0 < den) {k : Int}
    (hk : KRange F k) (hv : (num : ℝ) / den / 2 ^ oneExp F ≤ 2 ^ k) :
    isFinite F (mkFloat F w s (roundMag F num den)) = true ∧
    RelErr F ((if s then -1 else 1) * ((num : ℝ) / den / 2 ^ oneExp F)) (rval F (mkFloat F w s (roundMag F num den))) := by
  have hfin := (mk_err h s num hd hk.1 hk.2 hv).1
  refine ⟨hfin, ?_⟩
  have hdr : (0 : ℝ) < den := by exact_mod_cast hd
  have h1p := one_pos F
  have hlt : roundMag F num den < infMag F := by
    obtain ⟨K, hK⟩ : ∃ K : Nat, (K : Int) = k + oneExp F := ⟨(k + oneExp F).toNat, by have := hk.1; omega⟩
    have hkK : (2 : ℝ) ^ k = 2 ^ K / 2 ^ oneExp F := by
      rw [show k = (K : Int) - (oneExp F : Int) by omega, zpow_sub₀ (by norm_num), zpow_natCast, zpow_natCast]
    have hn : num ≤ den * 2 ^ K := by
      rw [hkK, div_le_div_iff_of_pos_right h1p, div_le_iff₀ hdr] at hv
      have : (num : ℝ) ≤ ((den * 2 ^ K : Nat) : ℝ) := by push_cast; linarith
      exact_mod_cast this
    have h1 := hk.1
    have h2 := hk.2
    have hK2 : K - F.m + 2 < 2 ^ F.e := by
      have : ((K - F.m + 2 : Nat) : Int) < ((2 ^ F.e : Nat) : Int) := by push_cast; omega
      exact_mod_cast this
    exact (roundMag_err F num hd (K := K) (by omega) hK2 hn).1
  have hfv : fval F (mkFloat F w s (roundMag F num den)) = signed s (magVal F (roundMag F num den)) :=
    fval_mk F h.lt s (Nat.lt_trans hlt (infMag_lt F))
  unfold RelErr
  have e0 : rval F (mkFloat F w s (roundMag F num den)) =
      (if s then -1 else 1) * ((magVal F (roundMag F num den) : ℝ) / 2 ^ oneExp F) := by
    unfold rval; rw [hfv, signed_real, mul_div_assoc]
  rw [e0, ← mul_sub, sign_abs, sign_abs, ← sub_div, abs_div, abs_div, abs_of_pos h1p]
  have hnn : (0 : ℝ) ≤ num / den := by positivity
  rw [abs_of_nonneg hnn]
  rcases Nat.eq_zero_or_pos num with h0 | h0
  · subst h0
    rw [roundMag_zero]
    have : magVal F 0 = 0 := by unfold magVal; simp
    rw [this]; simp
  · have hnp : (0 : ℝ) < num := by exact_mod_cast h0
    have hvne : ¬((if s = true then (-1 : ℝ) else 1) * (num / den / 2 ^ oneExp F) = 0) := by
      have : (0 : ℝ) < num / den / 2 ^ oneExp F := by positivity
      cases s <;> simp <;> omega
    rw [if_neg hvne, div_le_iff₀ h1p, add_mul]
    have hu : uAbs F * 2 ^ oneExp F = 1 / 2 := by
      unfold uAbs
      rw [neg_add, zpow_add₀ (by norm_num), zpow_neg, zpow_natCast]
      field_simp
    rw [hu, show uRel F * (num / den / 2 ^ oneExp F) * 2 ^ oneExp F = uRel F * (num / den) by field_simp]
    have hc : (num : ℝ) = num / den * den := by field_simp
    have hup := uRel_pos F
    by_cases hb : den * 2 ^ F.m ≤ num
    · obtain ⟨e1, e2⟩ := roundMag_rel F num hd hb hlt
      have e1' : (2 : ℝ) ^ F.m * (2 * (magVal F (roundMag F num den) * den)) ≤ 2 ^ F.m * (2 * num) + num := by
        exact_mod_cast e1
      have e2' : (2 : ℝ) ^ F.m * (2 * num) ≤ 2 ^ F.m * (2 * (magVal F (roundMag F num den) * den)) + num := by
        exact_mod_cast e2
      have hur : uRel F * (2 * 2 ^ F.m) = 1 := by
        unfold uRel
        rw [neg_add, zpow_add₀ (by norm_num), zpow_neg, zpow_natCast]
        field_simp
      rw [hc] at e1' e2'
      generalize (num : ℝ) / den = q at *
      generalize (magVal F (roundMag F num den) : ℝ) = M at *
      have hq : |M - q| ≤ uRel F * q := by
        rw [abs_le]
        constructor
        · have h3 : den * (2 * 2 ^ F.m * q) ≤ den * (2 * 2 ^ F.m * M + q) := by linarith
          have h4 := mul_le_mul_of_nonneg_left (le_of_mul_le_mul_left h3 hdr) hup.le
          have : uRel F * (2 * 2 ^ F.m * q) = q := by rw [← mul_assoc, hur, one_mul]
          have : uRel F * (2 * 2 ^ F.m * M) = M := by rw [← mul_assoc, hur, one_mul]
          linarith
        · have h3 : den * (2 * 2 ^ F.m * M) ≤ den * (2 * 2 ^ F.m * q + q) := by linarith
          have h4 := mul_le_mul_of_nonneg_left (le_of_mul_le_mul_left h3 hdr) hup.le
          have : uRel F * (2 * 2 ^ F.m * q) = q := by rw [← mul_assoc, hur, one_mul]
          have : uRel F * (2 * 2 ^ F.m * M) = M := by rw [← mul_assoc, hur, one_mul]
          linarith
      linarith
    · obtain ⟨-, e1, e2⟩ := roundMag_err F num hd (K := F.m + 1) (Nat.le_refl _) (by
        have := hk.1; have := hk.2
        have h8 : 8 ≤ 2 ^ F.e := by cases h <;> decide
        omega) (by
        have : 2 ^ (F.m + 1) = 2 * 2 ^ F.m := by rw [Nat.pow_succ]; omega
        rw [this]
        have : den * (2 * 2 ^ F.m) = 2 * (den * 2 ^ F.m) := by ring
        omega)
      rw [show F.m + 1 - 1 - F.m = 0 by omega, pow_zero, mul_one] at e1 e2
      have e1' : (2 : ℝ) * (magVal F (roundMag F num den) * den) ≤ 2 * num + den := by exact_mod_cast e1
      have e2' : (2 : ℝ) * num ≤ 2 * (magVal F (roundMag F num den) * den) + den := by exact_mod_cast e2
      rw [hc] at e1' e2'
      generalize (num : ℝ) / den = q at *
      generalize (magVal F (roundMag F num den) : ℝ) = M at *
      have : |M - q| ≤ 1 / 2 := by
        rw [abs_le]
        constructor
        · have h3 : den * (2 * q) ≤ den * (2 * M + 1) := by linarith
          linarith [le_of_mul_le_mul_left h3 hdr]
        · have h3 : den * (2 * M) ≤ den * (2 * q + 1) := by linarith
          linarith [le_of_mul_le_mul_left h3 hdr]
      have := mul_nonneg hup.le hnn
      linarith

theorem roundInt_rel {F : Fmt} {w : Nat} (h : FmtW F w) (n : Int) (z : Bool) {k : Int}
    (hk : KRange F k) (hv : |(n : ℝ) / 2 ^ oneExp F| ≤ 2 ^ k) :
    isFinite F (roundInt F w n z) = true ∧ RelErr F ((n : ℝ) / 2 ^ oneExp F) (rval F (roundInt F w n z)) := by
  have hn : ((n.natAbs : Nat) : ℝ) = |(n : ℝ)| := by
    rw [← Int.cast_natCast, Int.natCast_natAbs, Int.cast_abs]
  have := mk_rel h (if n = 0 then z else decide (n < 0)) n.natAbs (den := 1) (by decide) hk
    (by rw [hn, Nat.cast_one, div_one, ← abs_of_pos (one_pos F), ← abs_div]; exact hv)
  unfold roundInt
  refine ⟨this.1, ?_⟩
  have h2 := this.2
  have e : ((if (if n = 0 then z else decide (n < 0)) = true then (-1 : ℝ) else 1)) *
      (((n.natAbs : Nat) : ℝ) / ((1 : Nat) : ℝ) / 2 ^ oneExp F) = (n : ℝ) / 2 ^ oneExp F := by
    rw [hn, Nat.cast_one, div_one]
    by_cases h0 : n = 0
    · subst h0; simp
    · rw [if_neg h0]
      rcases lt_or_gt_of_ne h0 with h1 | h1
      · have : (n : ℝ) < 0 := by exact_mod_cast h1
        rw [if_pos (decide_eq_true h1), abs_of_neg this]; ring
      · have : (0 : ℝ) < n := by exact_mod_cast h1
        rw [if_neg (by simp; omega), abs_of_pos this]; ring
  rw [e] at h2
  exact h2

section
variable {F : Fmt} {w : Nat} {a b : BitVec w} {k : Int}

theorem fAdd_rel (h : FmtW F w) (hk : KRange F k) (ha : isFinite F a = true) (hb : isFinite F b = true)
    (hv : |rval F a + rval F b| ≤ 2 ^ k) :
    isFinite F (fAdd F a b) = true ∧ RelErr F (rval F a + rval F b) (rval F (fAdd F a b)) := by
  have e : rval F a + rval F b = ((fval F a + fval F b : Int) : ℝ) / 2 ^ oneExp F := by
    unfold rval; push_cast; ring
  rw [fAdd_fin F ha hb, e]
  exact roundInt_rel h _ _ hk (by rw [← e]; exact hv)

theorem fSub_rel (h : FmtW F w) (hk : KRange F k) (ha : isFinite F a = true) (hb : isFinite F b = true)
    (hv : |rval F a - rval F b| ≤ 2 ^ k) :
    isFinite F (fSub F a b) = true ∧ RelErr F (rval F a - rval F b) (rval F (fSub F a b)) := by
  have e : rval F a - rval F b = ((fval F a - fval F b : Int) : ℝ) / 2 ^ oneExp F := by
    unfold rval; push_cast; ring
  rw [fSub_fin F ha hb, e]
  exact roundInt_rel h _ _ hk (by rw [← e]; exact hv)

theorem fMul_rel (h : FmtW F w) (hk : KRange F k) (ha : isFinite F a = true) (hb : isFinite F b = true)
    (hv : |rval F a * rval F b| ≤ 2 ^ k) :
    isFinite F (fMul F a b) = true ∧ RelErr F (rval F a * rval F b) (rval F (fMul F a b)) := by
  have e : rval F a * rval F b = (if (fneg F a != fneg F b) = true then (-1 : ℝ) else 1) *
      ((((fval F a).natAbs * (fval F b).natAbs : Nat) : ℝ) / ((2 ^ oneExp F : Nat) : ℝ) / 2 ^ oneExp F) := by
    rw [rval_sign, rval_sign]; push_cast
    cases fneg F a <;> cases fneg F b <;> simp <;> ring
  rw [fMul_fin F ha hb, e]
  refine mk_rel h _ _ (pow_pos2 _) hk ?_
  rw [e, sign_abs, abs_of_nonneg (by positivity)] at hv
  exact hv

theorem fDiv_rel (h : FmtW F w) (hk : KRange F k) (ha : isFinite F a = true) (hb : isFinite F b = true)
    (h0 : rval F b ≠ 0) (hv : |rval F a / rval F b| ≤ 2 ^ k) :
    isFinite F (fDiv F a b) = true ∧ RelErr F (rval F a / rval F b) (rval F (fDiv F a b)) := by
  have hb0 : fval F b ≠ 0 := rval_ne h0
  have hbn : (((fval F b).natAbs : Nat) : ℝ) ≠ 0 := by
    have : (fval F b).natAbs ≠ 0 := by omega
    exact_mod_cast this
  have hp := one_pos F
  have e : rval F a / rval F b = (if (fneg F a != fneg F b) = true then (-1 : ℝ) else 1) *
      ((((fval F a).natAbs * 2 ^ oneExp F : Nat) : ℝ) / (((fval F b).natAbs : Nat) : ℝ) / 2 ^ oneExp F) := by
    rw [rval_sign, rval_sign]; push_cast
    generalize (((fval F b).natAbs : Nat) : ℝ) = B at *
    generalize (((fval F a).natAbs : Nat) : ℝ) = A at *
    cases fneg F a <;> cases fneg F b <;> simp <;> field_simp
  rw [fDiv_fin ha hb hb0, e]
  refine mk_rel h _ _ (by omega) hk ?_
  rw [e, sign_abs, abs_of_nonneg (by positivity)] at hv
  exact hv

end

/-! ### Approximations relative to a scale -/

/-- A scale between 0 and 1 that is large compared to the smallest number, or 0. -/
structure Scale (F : Fmt) (σ : ℝ) : Prop where
  nonneg : 0 ≤ σ
  le_one : σ ≤ 1
  big : σ = 0 ∨ uAbs F ≤ uRel F / 2 ^ 20 * σ

/-- The pattern `t` is finite, its value differs from `p` by at most `b * σ`, and the absolute value of `p` is at most
`P * σ`. -/
structure RApx (F : Fmt) {w : Nat} (t : BitVec w) (σ p b P : ℝ) : Prop where
  fin : isFinite F t = true
  err : |rval F t - p| ≤ b * σ
  bnd : |p| ≤ P * σ

/-- The rounding error in terms of the scale. -/
theorem scale_round {F : Fmt} {σ v r V : ℝ} (hσ : Scale F σ) (hv : |v| ≤ V * σ) (hr : RelErr F v r) :
    |r - v| ≤ uRel F * (V + 1 / 2 ^ 20) * σ := by
  have h0 := hσ.nonneg
  have hu := uRel_pos F
  unfold RelErr at hr
  have h1 : uRel F * |v| ≤ uRel F * (V * σ) := mul_le_mul_of_nonneg_left hv hu.le
  have h2 : (if v = 0 then 0 else uAbs F) ≤ uRel F / 2 ^ 20 * σ := by
    split
    · exact mul_nonneg (div_nonneg hu.le (by positivity)) h0
    · rename_i hne
      rcases hσ.big with h3 | h3
      · rw [h3, mul_zero] at hv
        exact absurd (abs_nonpos_iff.mp hv) hne
      · exact h3
  have e : uRel F * (V + 1 / 2 ^ 20) * σ = uRel F * (V * σ) + uRel F / 2 ^ 20 * σ := by ring
  linarith

namespace RApx
variable {F : Fmt} {w : Nat} {s t : BitVec w} {σ τ p q b c d P Q R : ℝ}

theorem abs_le (h : RApx F t σ p b P) : |rval F t| ≤ (P + b) * σ := by
  have h1 := h.err
  have h2 := h.bnd
  have := abs_add_le (rval F t - p) p
  rw [sub_add_cancel] at this
  linarith

theorem weaken (h : RApx F t σ p b P) (h0 : 0 ≤ σ) (hb : b ≤ c) (hP : P ≤ Q) : RApx F t σ p c Q :=
  ⟨h.fin, le_trans h.err (mul_le_mul_of_nonneg_right hb h0), le_trans h.bnd (mul_le_mul_of_nonneg_right hP h0)⟩

/-- A smaller scale is a larger one with smaller factors. -/
theorem rescale {K : ℝ} (h : RApx F t σ p b P) (hb : 0 ≤ b) (hP : 0 ≤ P) (hK : σ ≤ K * τ) :
    RApx F t τ p (b * K) (P * K) := by
  refine ⟨h.fin, le_trans h.err ?_, le_trans h.bnd ?_⟩
  · rw [mul_assoc]; exact mul_le_mul_of_nonneg_left hK hb
  · rw [mul_assoc]; exact mul_le_mul_of_nonneg_left hK hP

theorem trans (h : RApx F t σ p b P) (hq : |p - q| ≤ c * σ) (hQ : |q| ≤ Q * σ) (hd : b + c ≤ d) (h0 : 0 ≤ σ) :
    RApx F t σ q d Q := by
  refine ⟨h.fin, ?_, hQ⟩
  have := abs_add_le (rval F t - p) (p - q)
  rw [sub_add_sub_cancel] at this
  have h1 := mul_le_mul_of_nonneg_right hd h0
  have := h.err
  linarith

theorem const (h : isFinite F t = true ∧ rval F t = q) (hQ : |q| ≤ Q) : RApx F t 1 q 0 Q :=
  ⟨h.1, by rw [h.2]; simp, by rwa [mul_one]⟩

/-- An exactly known number. -/
theorem self (h : isFinite F t = true) (hQ : |rval F t| ≤ Q * σ) : RApx F t σ (rval F t) 0 Q :=
  ⟨h, by simp, hQ⟩

theorem add (hs : RApx F s σ p b P) (ht : RApx F t σ q c Q) (h : FmtW F w) (hσ : Scale F σ) (hk : KRange F 20)
    (hR : |p + q| ≤ R * σ) (h1 : R + b + c ≤ 1000000)
    (h2 : b + c + uRel F * (R + b + c + 1 / 2 ^ 20) ≤ d) : RApx F (fAdd F s t) σ (p + q) d R := by
  have h0 := hσ.nonneg
  have hv : |rval F s + rval F t| ≤ (R + b + c) * σ := by
    have e : rval F s + rval F t = (p + q) + ((rval F s - p) + (rval F t - q)) := by ring
    rw [e]
    refine le_trans (abs_add_le _ _) ?_
    have := abs_add_le (rval F s - p) (rval F t - q)
    have := hs.err
    have := ht.err
    linarith
  have hv' : |rval F s + rval F t| ≤ 2 ^ (20 : Int) := by
    refine le_trans hv (le_trans (b := (1000000 : ℝ) * 1) ?_ (by norm_num))
    exact mul_le_mul h1 hσ.le_one h0 (by norm_num)
  obtain ⟨hf, hr⟩ := fAdd_rel h hk hs.fin ht.fin hv'
  refine ⟨hf, ?_, hR⟩
  have h3 := scale_round hσ hv hr
  have e : rval F (fAdd F s t) - (p + q) = (rval F (fAdd F s t) - (rval F s + rval F t)) +
    ((rval F s - p) + (rval F t - q)) := by ring
  rw [e]
  refine le_trans (abs_add_le _ _) ?_
  have := abs_add_le (rval F s - p) (rval F t - q)
  have := hs.err
  have := ht.err
  have := mul_le_mul_of_nonneg_right h2 h0
  linarith

theorem sub (hs : RApx F s σ p b P) (ht : RApx F t σ q c Q) (h : FmtW F w) (hσ : Scale F σ) (hk : KRange F 20)
    (hR : |p - q| ≤ R * σ) (h1 : R + b + c ≤ 1000000)
    (h2 : b + c + uRel F * (R + b + c + 1 / 2 ^ 20) ≤ d) : RApx F (fSub F s t) σ (p - q) d R := by
  have h0 := hσ.nonneg
  have hd : |(rval F s - p) - (rval F t - q)| ≤ b * σ + c * σ :=
    le_trans (abs_sub _ _) (add_le_add hs.err ht.err)
  have hv : |rval F s - rval F t| ≤ (R + b + c) * σ := by
    have e : rval F s - rval F t = (p - q) + ((rval F s - p) - (rval F t - q)) := by ring
    rw [e]
    refine le_trans (abs_add_le _ _) ?_
    linarith
  have hv' : |rval F s - rval F t| ≤ 2 ^ (20 : Int) := by
    refine le_trans hv (le_trans (b := (1000000 : ℝ) * 1) ?_ (by norm_num))
    exact mul_le_mul h1 hσ.le_one h0 (by norm_num)
  obtain ⟨hf, hr⟩ := fSub_rel h hk hs.fin ht.fin hv'
  refine ⟨hf, ?_, hR⟩
  have h3 := scale_round hσ hv hr
  have e : rval F (fSub F s t) - (p - q) = (rval F (fSub F s t) - (rval F s - rval F t)) +
    ((rval F s - p) - (rval F t - q)) := by ring
  rw [e]
  refine le_trans (abs_add_le _ _) ?_
  have := mul_le_mul_of_nonneg_right h2 h0
  linarith

theorem mul (hs : RApx F s σ p b P) (ht : RApx F t τ q c Q) (h : FmtW F w) (hσ : 0 ≤ σ)
    (hστ : Scale F (σ * τ)) (hk : KRange F 20)
    (hb : 0 ≤ b) (hP : 0 ≤ P) (hR : P * Q ≤ R) (h1 : (P + b) * (Q + c) ≤ 1000000)
    (h2 : b * Q + P * c + b * c + uRel F * ((P + b) * (Q + c) + 1 / 2 ^ 20) ≤ d) :
    RApx F (fMul F s t) (σ * τ) (p * q) d R := by
  have h0 := hστ.nonneg
  have hv : |rval F s * rval F t| ≤ (P + b) * (Q + c) * (σ * τ) := by
    rw [abs_mul, show (P + b) * (Q + c) * (σ * τ) = (P + b) * σ * ((Q + c) * τ) by ring]
    exact mul_le_mul hs.abs_le ht.abs_le (abs_nonneg _) (mul_nonneg (by linarith) hσ)
  have hv' : |rval F s * rval F t| ≤ 2 ^ (20 : Int) := by
    refine le_trans hv (le_trans (b := (1000000 : ℝ) * 1) ?_ (by norm_num))
    exact mul_le_mul h1 hστ.le_one h0 (by norm_num)
  obtain ⟨hf, hr⟩ := fMul_rel h hk hs.fin ht.fin hv'
  refine ⟨hf, ?_, ?_⟩
  · have h3 := scale_round hστ hv hr
    have e : rval F (fMul F s t) - p * q = (rval F (fMul F s t) - rval F s * rval F t) +
      ((rval F s - p) * q + (p * (rval F t - q) + (rval F s - p) * (rval F t - q))) := by ring
    rw [e]
    refine le_trans (abs_add_le _ _) ?_
    have a1 := abs_add_le ((rval F s - p) * q) (p * (rval F t - q) + (rval F s - p) * (rval F t - q))
    have a2 := abs_add_le (p * (rval F t - q)) ((rval F s - p) * (rval F t - q))
    rw [abs_mul] at a1
    rw [abs_mul, abs_mul] at a2
    have b1 := mul_le_mul hs.err ht.bnd (abs_nonneg _) (mul_nonneg hb hσ)
    have b2 := mul_le_mul hs.bnd ht.err (abs_nonneg _) (mul_nonneg hP hσ)
    have b3 := mul_le_mul hs.err ht.err (abs_nonneg _) (mul_nonneg hb hσ)
    have := mul_le_mul_of_nonneg_right h2 h0
    have e2 : (b * Q + P * c + b * c + uRel F * ((P + b) * (Q + c) + 1 / 2 ^ 20)) * (σ * τ) =
      b * σ * (Q * τ) + P * σ * (c * τ) + b * σ * (c * τ) + uRel F * ((P + b) * (Q + c) + 1 / 2 ^ 20) * (σ * τ) := by ring
    linarith
  · rw [abs_mul]
    refine le_trans (mul_le_mul hs.bnd ht.bnd (abs_nonneg _) (mul_nonneg hP hσ)) ?_
    rw [show P * σ * (Q * τ) = P * Q * (σ * τ) by ring]
    exact mul_le_mul_of_nonneg_right hR h0

/-- Division by a number not close to 0. -/
theorem div {L : ℝ} (hs : RApx F s σ p b P) (ht : RApx F t 1 q c Q) (h : FmtW F w) (hσ : Scale F σ) (hk : KRange F 20)
    (hb : 0 ≤ b) (hc : 0 ≤ c) (hP : 0 ≤ P) (hL : L ≤ |q|) (hLc : c < L) (hR : P ≤ R * L)
    (h1 : R ≤ 100000) (h1' : (P + b) ≤ R * 2 * (L - c))
    (h2 : b + R * c ≤ (d - uRel F * (R * 2 + 1 / 2 ^ 20)) * (L - c)) :
    RApx F (fDiv F s t) σ (p / q) d R := by
  have h0 := hσ.nonneg
  have hc' : |rval F t - q| ≤ c := by have := ht.err; rwa [mul_one] at this
  have hLp : 0 < L - c := by linarith
  have hL0 : 0 < L := by linarith
  have hq0 : 0 < |q| := by linarith
  have htl : L - c ≤ |rval F t| := by
    have := abs_sub_abs_le_abs_sub q (rval F t)
    rw [abs_sub_comm] at this
    linarith
  have htp : 0 < |rval F t| := by linarith
  have htne : rval F t ≠ 0 := abs_pos.mp htp
  have hqne : q ≠ 0 := abs_pos.mp hq0
  have hR0 : 0 ≤ R := by
    by_contra hneg
    push Not at hneg
    have := mul_neg_of_neg_of_pos hneg hL0
    linarith
  have hv : |rval F s / rval F t| ≤ R * 2 * σ := by
    rw [abs_div, div_le_iff₀ htp]
    refine le_trans hs.abs_le ?_
    have x1 := mul_le_mul_of_nonneg_right h1' h0
    have x2 : R * 2 * σ * (L - c) ≤ R * 2 * σ * |rval F t| :=
      mul_le_mul_of_nonneg_left htl (mul_nonneg (mul_nonneg hR0 (by norm_num)) h0)
    linarith
  have hv' : |rval F s / rval F t| ≤ 2 ^ (20 : Int) := by
    refine le_trans hv (le_trans (b := (200000 : ℝ) * 1) ?_ (by norm_num))
    exact mul_le_mul (by linarith) hσ.le_one h0 (by norm_num)
  obtain ⟨hf, hr⟩ := fDiv_rel h hk hs.fin ht.fin htne hv'
  have hpq : |p / q| ≤ R * σ := by
    rw [abs_div, div_le_iff₀ hq0]
    refine le_trans hs.bnd ?_
    have x1 := mul_le_mul_of_nonneg_right hR h0
    have x2 : R * σ * L ≤ R * σ * |q| := mul_le_mul_of_nonneg_left hL (mul_nonneg hR0 h0)
    linarith
  refine ⟨hf, ?_, hpq⟩
  have h3 := scale_round hσ hv hr
  have e : rval F s / rval F t - p / q = ((rval F s - p) - p / q * (rval F t - q)) / rval F t := by
    field_simp; ring
  have h4 : |rval F s / rval F t - p / q| ≤ (d - uRel F * (R * 2 + 1 / 2 ^ 20)) * σ := by
    rw [e, abs_div, div_le_iff₀ htp]
    have y1 := abs_sub (rval F s - p) (p / q * (rval F t - q))
    rw [abs_mul] at y1
    have y2 := mul_le_mul hpq hc' (abs_nonneg _) (mul_nonneg hR0 h0)
    have y3 := mul_le_mul_of_nonneg_right h2 h0
    have hdn : 0 ≤ d - uRel F * (R * 2 + 1 / 2 ^ 20) := by
      have : 0 ≤ b + R * c := add_nonneg hb (mul_nonneg hR0 hc)
      by_contra hneg
      push Not at hneg
      have := mul_neg_of_neg_of_pos hneg hLp
      linarith
    have y4 := mul_le_mul_of_nonneg_left htl (mul_nonneg hdn h0)
    have := hs.err
    have e5 : (d - uRel F * (R * 2 + 1 / 2 ^ 20)) * (L - c) * σ = (d - uRel F * (R * 2 + 1 / 2 ^ 20)) * σ * (L - c) := by ring
    linarith
  have e6 : rval F (fDiv F s t) - p / q = (rval F (fDiv F s t) - rval F s / rval F t) + (rval F s / rval F t - p / q) := by ring
  rw [e6]
  refine le_trans (abs_add_le _ _) ?_
  have : uRel F * (R * 2 + 1 / 2 ^ 20) * σ + (d - uRel F * (R * 2 + 1 / 2 ^ 20)) * σ = d * σ := by ring
  linarith

/-! Errors in multiples of `uRel`. -/

theorem small_u (h : FmtW F w) : uRel F ≤ 1 / 2 ^ 24 := by
  unfold uRel
  cases h
  · norm_num [f32]
  · norm_num [f64]

variable {β γ δ : ℝ}

theorem addU (hs : RApx F s σ p (β * uRel F) P) (ht : RApx F t σ q (γ * uRel F) Q) (h : FmtW F w) (hσ : Scale F σ)
    (hβ : 0 ≤ β + γ) (hR : |p + q| ≤ R * σ) (h1 : R + (β + γ) / 2 ^ 24 ≤ 1000000)
    (h2 : β + γ + R + (β + γ) / 2 ^ 24 + 1 / 2 ^ 20 ≤ δ) : RApx F (fAdd F s t) σ (p + q) (δ * uRel F) R := by
  have hu := uRel_pos F
  have hu2 := small_u h
  have h3 := mul_le_mul_of_nonneg_left hu2 hβ
  refine hs.add ht h hσ (by cases h <;> decide) hR (by linarith) ?_
  have h4 := mul_le_mul_of_nonneg_right h2 hu.le
  have h5 := mul_le_mul_of_nonneg_right h3 hu.le
  linarith

theorem subU (hs : RApx F s σ p (β * uRel F) P) (ht : RApx F t σ q (γ * uRel F) Q) (h : FmtW F w) (hσ : Scale F σ)
    (hβ : 0 ≤ β + γ) (hR : |p - q| ≤ R * σ) (h1 : R + (β + γ) / 2 ^ 24 ≤ 1000000)
    (h2 : β + γ + R + (β + γ) / 2 ^ 24 + 1 / 2 ^ 20 ≤ δ) : RApx F (fSub F s t) σ (p - q) (δ * uRel F) R := by
  have hu := uRel_pos F
  have hu2 := small_u h
  have h3 := mul_le_mul_of_nonneg_left hu2 hβ
  refine hs.sub ht h hσ (by cases h <;> decide) hR (by linarith) ?_
  have h4 := mul_le_mul_of_nonneg_right h2 hu.le
  have h5 := mul_le_mul_of_nonneg_right h3 hu.le
  linarith

theorem mulU (hs : RApx F s σ p (β * uRel F) P) (ht : RApx F t τ q (γ * uRel F) Q) (h : FmtW F w) (hσ : 0 ≤ σ)
    (hστ : Scale F (σ * τ)) (hβ : 0 ≤ β) (hγ : 0 ≤ γ) (hP : 0 ≤ P) (hQ : 0 ≤ Q) (hR : P * Q ≤ R)
    (h1 : (P + β / 2 ^ 24) * (Q + γ / 2 ^ 24) ≤ 1000000)
    (h2 : β * Q + P * γ + β * γ / 2 ^ 24 + (P + β / 2 ^ 24) * (Q + γ / 2 ^ 24) + 1 / 2 ^ 20 ≤ δ) :
    RApx F (fMul F s t) (σ * τ) (p * q) (δ * uRel F) R := by
  have hu := uRel_pos F
  have hu2 := small_u h
  have b1 : β * uRel F ≤ β / 2 ^ 24 := by have := mul_le_mul_of_nonneg_left hu2 hβ; linarith
  have c1 : γ * uRel F ≤ γ / 2 ^ 24 := by have := mul_le_mul_of_nonneg_left hu2 hγ; linarith
  have b0 : 0 ≤ β * uRel F := mul_nonneg hβ hu.le
  have c0 : 0 ≤ γ * uRel F := mul_nonneg hγ hu.le
  have h3 : (P + β * uRel F) * (Q + γ * uRel F) ≤ (P + β / 2 ^ 24) * (Q + γ / 2 ^ 24) :=
    mul_le_mul (by linarith) (by linarith) (by linarith) (by linarith)
  refine hs.mul ht h hσ hστ (by cases h <;> decide) b0 hP hR (by linarith) ?_
  have h4 := mul_le_mul_of_nonneg_right h2 hu.le
  have h5 := mul_le_mul_of_nonneg_left h3 hu.le
  have h6 : β * uRel F * (γ * uRel F) ≤ β * uRel F * (γ / 2 ^ 24) := mul_le_mul_of_nonneg_left c1 b0
  have e1 : β * uRel F * (γ / 2 ^ 24) = β * γ / 2 ^ 24 * uRel F := by ring
  linarith

theorem divU {L : ℝ} (hs : RApx F s σ p (β * uRel F) P) (ht : RApx F t 1 q (γ * uRel F) Q) (h : FmtW F w) (hσ : Scale F σ)
    (hβ : 0 ≤ β) (hγ : 0 ≤ γ) (hP : 0 ≤ P) (hR0 : 0 ≤ R) (hL : L ≤ |q|) (hLc : γ / 2 ^ 24 < L) (hR : P ≤ R * L)
    (h1 : R ≤ 100000) (h1' : P + β / 2 ^ 24 ≤ R * 2 * (L - γ / 2 ^ 24)) (hδ : R * 2 + 1 / 2 ^ 20 ≤ δ)
    (h2 : β + R * γ ≤ (δ - (R * 2 + 1 / 2 ^ 20)) * (L - γ / 2 ^ 24)) :
    RApx F (fDiv F s t) σ (p / q) (δ * uRel F) R := by
  have hu := uRel_pos F
  have hu2 := small_u h
  have b1 : β * uRel F ≤ β / 2 ^ 24 := by have := mul_le_mul_of_nonneg_left hu2 hβ; linarith
  have c1 : γ * uRel F ≤ γ / 2 ^ 24 := by have := mul_le_mul_of_nonneg_left hu2 hγ; linarith
  have b0 : 0 ≤ β * uRel F := mul_nonneg hβ hu.le
  have c0 : 0 ≤ γ * uRel F := mul_nonneg hγ hu.le
  refine hs.div ht h hσ (by cases h <;> decide) b0 c0 hP hL (by linarith) hR h1 ?_ ?_
  · have : R * 2 * (L - γ / 2 ^ 24) ≤ R * 2 * (L - γ * uRel F) := mul_le_mul_of_nonneg_left (by linarith) (by linarith)
    linarith
  · have h4 := mul_le_mul_of_nonneg_right h2 hu.le
    have h5 : (δ - (R * 2 + 1 / 2 ^ 20)) * uRel F * (L - γ / 2 ^ 24) ≤ (δ - (R * 2 + 1 / 2 ^ 20)) * uRel F * (L - γ * uRel F) :=
      mul_le_mul_of_nonneg_left (by linarith) (mul_nonneg (by linarith) hu.le)
    linarith

/-- Bounds from those of the operands. -/
theorem addUB (hs : RApx F s σ p (β * uRel F) P) (ht : RApx F t σ q (γ * uRel F) Q) (h : FmtW F w) (hσ : Scale F σ)
    (hβ : 0 ≤ β + γ) (hR : P + Q ≤ R) (h1 : R + (β + γ) / 2 ^ 24 ≤ 1000000)
    (h2 : β + γ + R + (β + γ) / 2 ^ 24 + 1 / 2 ^ 20 ≤ δ) : RApx F (fAdd F s t) σ (p + q) (δ * uRel F) R := by
  refine hs.addU ht h hσ hβ (le_trans (abs_add_le _ _) ?_) h1 h2
  have := mul_le_mul_of_nonneg_right hR hσ.nonneg
  linarith [hs.bnd, ht.bnd]

theorem subUB (hs : RApx F s σ p (β * uRel F) P) (ht : RApx F t σ q (γ * uRel F) Q) (h : FmtW F w) (hσ : Scale F σ)
    (hβ : 0 ≤ β + γ) (hR : P + Q ≤ R) (h1 : R + (β + γ) / 2 ^ 24 ≤ 1000000)
    (h2 : β + γ + R + (β + γ) / 2 ^ 24 + 1 / 2 ^ 20 ≤ δ) : RApx F (fSub F s t) σ (p - q) (δ * uRel F) R := by
  refine hs.subU ht h hσ hβ (le_trans (abs_sub _ _) ?_) h1 h2
  have := mul_le_mul_of_nonneg_right hR hσ.nonneg
  linarith [hs.bnd, ht.bnd]

theorem rescaleU {K : ℝ} (h : RApx F t σ p (β * uRel F) P) (hβ : 0 ≤ β) (hP : 0 ≤ P) (hK : σ ≤ K * τ) (hτ : 0 ≤ τ)
    (h1 : β * K ≤ γ) (h2 : P * K ≤ Q) : RApx F t τ p (γ * uRel F) Q := by
  have hu := uRel_pos F
  refine (h.rescale (mul_nonneg hβ hu.le) hP hK).weaken hτ ?_ h2
  have := mul_le_mul_of_nonneg_right h1 hu.le
  linarith

theorem exactU (h : RApx F t σ p 0 P) : RApx F t σ p (0 * uRel F) P := by rwa [zero_mul]

/-- One step of the Horner scheme. -/
theorem hornerU {x : BitVec w} {r ρ : ℝ} (hs : RApx F s 1 p (β * uRel F) P) (hx : RApx F x 1 r (0 * uRel F) ρ)
    (hc : RApx F t 1 q (0 * uRel F) Q) (h : FmtW F w) (h1 : Scale F 1) (hβ : 0 ≤ β) (hP : 0 ≤ P) (hρ : 0 ≤ ρ) (hQ : 0 ≤ Q)
    (hR : P * ρ + Q ≤ R) (hR1 : R + (β * ρ + P * ρ + β / 2 ^ 24 * ρ + 1 / 2 ^ 20) ≤ 100000)
    (h2 : (β * ρ + P * ρ + β / 2 ^ 24 * ρ + 1 / 2 ^ 20) * (1 + 1 / 2 ^ 24) + R + 1 / 2 ^ 20 ≤ δ) :
    RApx F (fAdd F (fMul F s x) t) 1 (p * r + q) (δ * uRel F) R := by
  have hb : 0 ≤ β * ρ + P * ρ + β / 2 ^ 24 * ρ + 1 / 2 ^ 20 := by positivity
  have hPρ : 0 ≤ P * ρ := mul_nonneg hP hρ
  have hβρ : 0 ≤ β * ρ := mul_nonneg hβ hρ
  have hm := hs.mulU hx h (by norm_num) (by rw [mul_one]; exact h1) hβ (le_refl 0) hP hρ (le_refl (P * ρ)) (by
    have e : (P + β / 2 ^ 24) * (ρ + 0 / 2 ^ 24) = P * ρ + β / 2 ^ 24 * ρ := by ring
    rw [e]; linarith)
    (δ := β * ρ + P * ρ + β / 2 ^ 24 * ρ + 1 / 2 ^ 20) (by
      have e : (P + β / 2 ^ 24) * (ρ + 0 / 2 ^ 24) = P * ρ + β / 2 ^ 24 * ρ := by ring
      rw [e]; linarith)
  rw [mul_one] at hm
  exact hm.addUB hc h h1 (by linarith) hR (by linarith) (by linarith)

end RApx

theorem scale_one {F : Fmt} {w : Nat} (h : FmtW F w) : Scale F 1 := by
  refine ⟨by norm_num, le_refl _, Or.inr ?_⟩
  unfold uAbs uRel
  rw [mul_one, div_eq_mul_inv, show ((2 : ℝ) ^ 20)⁻¹ = 2 ^ (-20 : Int) by norm_num, ← zpow_add₀ (by norm_num)]
  refine zpow_le_zpow_right₀ (by norm_num) ?_
  cases h <;> decide

/-- Powers of numbers that are multiples of a unit. -/
theorem scale_grid {F : Fmt} {w : Nat} (h : FmtW F w) {t : ℝ} (h1 : |t| ≤ 1)
    (hg : ∃ k : Int, t = k * 2 ^ (-((F.m : Int) + 1))) (j : Nat) (hj : 1 ≤ j) (hj4 : j ≤ 4) : Scale F (|t| ^ j) := by
  have h0 := abs_nonneg t
  refine ⟨by positivity, pow_le_one₀ h0 h1, ?_⟩
  obtain ⟨k, hk⟩ := hg
  by_cases hz : k = 0
  · left; rw [hk, hz]; simp; omega
  · right
    have hk1 : (1 : ℝ) ≤ |(k : ℝ)| := by
      have : (1 : Int) ≤ |k| := Int.one_le_abs hz
      exact_mod_cast this
    have ht : (2 : ℝ) ^ (-((F.m : Int) + 1)) ≤ |t| := by
      rw [hk, abs_mul, abs_of_pos (show (0 : ℝ) < 2 ^ (-((F.m : Int) + 1)) by positivity)]
      exact le_mul_of_one_le_left (by positivity) hk1
    have hpw : (2 : ℝ) ^ (-((F.m : Int) + 1) * 4) ≤ |t| ^ j := by
      refine le_trans ?_ (pow_le_pow_left₀ (by positivity) ht j)
      rw [← zpow_natCast, ← zpow_mul]
      refine zpow_le_zpow_right₀ (by norm_num) ?_
      have hm : (0 : Int) ≤ (F.m : Int) + 1 := by omega
      have := mul_le_mul_of_nonneg_left (show (j : Int) ≤ 4 by exact_mod_cast hj4) hm
      linarith
    refine le_trans ?_ (mul_le_mul_of_nonneg_left hpw (div_nonneg (uRel_pos F).le (by positivity)))
    unfold uAbs uRel
    rw [div_eq_mul_inv, show ((2 : ℝ) ^ 20)⁻¹ = 2 ^ (-20 : Int) by norm_num, ← zpow_add₀ (by norm_num), ← zpow_add₀ (by norm_num)]
    refine zpow_le_zpow_right₀ (by norm_num) ?_
    cases h <;> decide

end Vc.Lemma
