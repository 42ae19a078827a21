import Verif.Lemma.FloatArith
import Verif.Lemma.FloatExp
import Verif.Spec.FloatReal
import Mathlib.Tactic.Linarith
import Mathlib.Tactic.NormNum
import Mathlib.Tactic.Ring
import Mathlib.Tactic.Positivity
import Mathlib.Tactic.FieldSimp
import Mathlib.Algebra.Order.Field.Power

/-!
Rounding errors of the floating-point operations as real numbers.
-/

namespace Vc.Lemma
open Vc.Model Vc.Spec

/-- A number of at most `2 ^ K` units is rounded by at most half the distance of the numbers below `2 ^ K`. -/
theorem roundMag_err (F : Fmt) (num : Nat) {den K : Nat} (hd : 0 < den) (hK : F.m + 1 ≤ K)
    (hK2 : K - F.m + 2 < 2 ^ F.e) (h : num ≤ den * 2 ^ K) :
    roundMag F num den < infMag F ∧
    2 * (magVal F (roundMag F num den) * den) ≤ 2 * num + den * 2 ^ (K - 1 - F.m) ∧
    2 * num ≤ 2 * (magVal F (roundMag F num den) * den) + den * 2 ^ (K - 1 - F.m) := by
  have hfin : roundMag F num den < infMag F :=
    roundMag_lt F num hd hK2 (by rwa [show F.m + (K - F.m) = K by omega])
  refine ⟨hfin, ?_⟩
  rcases Nat.lt_or_ge num (den * 2 ^ K) with hlt | hge
  · rw [magVal_roundMag F num hd hfin]
    have hq : num / den < 2 ^ K := Nat.div_lt_of_lt_mul hlt
    have hk : ulpExp F num den ≤ K - 1 - F.m := by
      unfold ulpExp
      by_cases h0 : num / den = 0
      · rw [h0]; simp
      · have := (Nat.log2_lt h0).mpr hq
        omega
    have hb := rne_bounds num (den := den * 2 ^ ulpExp F num den) (Nat.mul_pos hd (pow_pos2 _))
    have hle : den * 2 ^ ulpExp F num den ≤ den * 2 ^ (K - 1 - F.m) :=
      Nat.mul_le_mul_left _ (Nat.pow_le_pow_right (by decide) hk)
    have e : rne num (den * 2 ^ ulpExp F num den) * 2 ^ ulpExp F num den * den =
        rne num (den * 2 ^ ulpExp F num den) * (den * 2 ^ ulpExp F num den) := by
      rw [Nat.mul_assoc, Nat.mul_comm den]
    rw [e]
    omega
  · have he : num = den * 2 ^ K := Nat.le_antisymm h hge
    obtain ⟨M, hM, hM2⟩ := representable F K 1 (Nat.one_le_two_pow)
    have hM3 : M ≤ infMag F := by
      refine Nat.le_of_lt ?_
      by_contra hc
      have h1 := magVal_le F (Nat.le_of_not_lt hc)
      have h2 : magVal F (infMag F) = 2 ^ F.m * 2 ^ (2 ^ F.e - 1 - 1) := by
        unfold magVal infMag
        have hp := pow_pos2 F.m
        rw [Nat.mul_div_cancel _ hp, Nat.mul_mod_left, if_neg (by omega), Nat.add_zero]
      rw [h2, hM, Nat.one_mul, ← Nat.pow_add] at h1
      have := (Nat.pow_le_pow_iff_right (by decide : 1 < 2)).mp h1
      omega
    have hr := roundMag_exact F (M := M) hd hM3
    rw [hM, Nat.one_mul, Nat.mul_comm] at hr
    rw [he, hr, hM, Nat.one_mul, Nat.mul_comm den]
    omega

/-- The same relative to the number, if it is not too small. -/
theorem roundMag_rel (F : Fmt) (num : Nat) {den : Nat} (hd : 0 < den) (h : den * 2 ^ F.m ≤ num)
    (hfin : roundMag F num den < infMag F) :
    2 ^ F.m * (2 * (magVal F (roundMag F num den) * den)) ≤ 2 ^ F.m * (2 * num) + num ∧
    2 ^ F.m * (2 * num) ≤ 2 ^ F.m * (2 * (magVal F (roundMag F num den) * den)) + num := by
  rw [magVal_roundMag F num hd hfin]
  have hb := rne_bounds num (den := den * 2 ^ ulpExp F num den) (Nat.mul_pos hd (pow_pos2 _))
  have hle : 2 ^ F.m * (den * 2 ^ ulpExp F num den) ≤ num := by
    rcases Nat.eq_zero_or_pos (ulpExp F num den) with h0 | h0
    · rw [h0, Nat.pow_zero, Nat.mul_one, Nat.mul_comm]; exact h
    · exact (log2_bound F num hd).2 h0
  have e : rne num (den * 2 ^ ulpExp F num den) * 2 ^ ulpExp F num den * den =
      rne num (den * 2 ^ ulpExp F num den) * (den * 2 ^ ulpExp F num den) := by
    rw [Nat.mul_assoc, Nat.mul_comm den]
  rw [e]
  have h1 := Nat.mul_le_mul_left (2 ^ F.m) hb.1
  have h2 := Nat.mul_le_mul_left (2 ^ F.m) hb.2
  rw [Nat.mul_add] at h1 h2
  omega

/-! ### Real numbers -/

theorem one_pos (F : Fmt) : (0 : ℝ) < 2 ^ oneExp F := by positivity

theorem signed_real (s : Bool) (n : Nat) : ((signed s n : Int) : ℝ) = (if s then -1 else 1) * (n : ℝ) := by
  unfold signed; cases s <;> simp

theorem sign_abs (s : Bool) (x : ℝ) : |(if s then -1 else 1) * x| = |x| := by cases s <;> simp

/-- Rounding `num / den` units, as real numbers. -/
theorem mk_err {F : Fmt} {w : Nat} (h : FmtW F w) (s : Bool) (num : Nat) {den : Nat} (hd : 0 < den) {k : Int}
    (hk1 : F.m + 1 ≤ k + oneExp F) (hk2 : k + oneExp F - F.m + 2 < 2 ^ F.e)
    (hv : (num : ℝ) / den / 2 ^ oneExp F ≤ 2 ^ k) :
    isFinite F (mkFloat F w s (roundMag F num den)) = true ∧
    |rval F (mkFloat F w s (roundMag F num den)) - (if s then -1 else 1) * ((num : ℝ) / den / 2 ^ oneExp F)| ≤
      2 ^ (k - F.m - 2) := by
  obtain ⟨K, hK⟩ : ∃ K : Nat, (K : Int) = k + oneExp F := ⟨(k + oneExp F).toNat, by omega⟩
  have hdr : (0 : ℝ) < den := by exact_mod_cast hd
  have h1p := one_pos F
  have hkK : (2 : ℝ) ^ k = 2 ^ K / 2 ^ oneExp F := by
    rw [show k = (K : Int) - (oneExp F : Int) by omega, zpow_sub₀ (by norm_num), zpow_natCast, zpow_natCast]
  have hn : num ≤ den * 2 ^ K := by
    rw [hkK, div_le_div_iff_of_pos_right h1p, div_le_iff₀ hdr] at hv
    have : (num : ℝ) ≤ ((den * 2 ^ K : Nat) : ℝ) := by push_cast; linarith
    exact_mod_cast this
  have hK2 : K - F.m + 2 < 2 ^ F.e := by
    have : ((K - F.m + 2 : Nat) : Int) < ((2 ^ F.e : Nat) : Int) := by push_cast; omega
    exact_mod_cast this
  obtain ⟨hfin, e1, e2⟩ := roundMag_err F num hd (K := K) (by omega) hK2 hn
  refine ⟨isFinite_mk F h.lt _ hfin, ?_⟩
  unfold rval
  have hfv := fval_mk F h.lt s (Nat.lt_trans hfin (infMag_lt F))
  have hfv' : fval F (mkFloat F w s (roundMag F num den)) = signed s (magVal F (roundMag F num den)) := hfv
  rw [hfv', signed_real, mul_div_assoc, ← mul_sub, sign_abs, ← sub_div, abs_div, abs_of_pos h1p]
  rw [div_le_iff₀ h1p]
  have hu : (2 : ℝ) ^ (k - F.m - 2) * 2 ^ oneExp F = 2 ^ (K - 1 - F.m) / 2 := by
    rw [show k - F.m - 2 = (K : Int) - 1 - F.m - 1 - oneExp F by omega, zpow_sub₀ (by norm_num), zpow_sub₀ (by norm_num),
      zpow_natCast, zpow_one, div_mul_cancel₀ _ (ne_of_gt h1p)]
    congr 1
    rw [← zpow_natCast]; congr 1; omega
  rw [hu]
  have e1' : (2 : ℝ) * (magVal F (roundMag F num den) * den) ≤ 2 * num + den * 2 ^ (K - 1 - F.m) := by exact_mod_cast e1
  have e2' : (2 : ℝ) * num ≤ 2 * (magVal F (roundMag F num den) * den) + den * 2 ^ (K - 1 - F.m) := by exact_mod_cast e2
  have hc : (num : ℝ) = num / den * den := by field_simp
  rw [hc] at e1' e2'
  generalize (num : ℝ) / den = q at *
  rw [abs_le]
  constructor
  · have : den * (2 * q) ≤ den * (2 * magVal F (roundMag F num den) + 2 ^ (K - 1 - F.m)) := by linarith
    have := le_of_mul_le_mul_left this hdr
    linarith
  · have : den * (2 * (magVal F (roundMag F num den) : ℝ)) ≤ den * (2 * q + 2 ^ (K - 1 - F.m)) := by linarith
    have := le_of_mul_le_mul_left this hdr
    linarith

theorem roundInt_err {F : Fmt} {w : Nat} (h : FmtW F w) (n : Int) (z : Bool) {k : Int}
    (hk1 : F.m + 1 ≤ k + oneExp F) (hk2 : k + oneExp F - F.m + 2 < 2 ^ F.e)
    (hv : |(n : ℝ) / 2 ^ oneExp F| ≤ 2 ^ k) :
    isFinite F (roundInt F w n z) = true ∧
    |rval F (roundInt F w n z) - (n : ℝ) / 2 ^ oneExp F| ≤ 2 ^ (k - F.m - 2) := by
  have hn : ((n.natAbs : Nat) : ℝ) = |(n : ℝ)| := by
    rw [← Int.cast_natCast, Int.natCast_natAbs, Int.cast_abs]
  have := mk_err h (if n = 0 then z else decide (n < 0)) n.natAbs (den := 1) (by decide) hk1 hk2
    (by rw [hn, Nat.cast_one, div_one, ← abs_of_pos (one_pos F), ← abs_div]; exact hv)
  unfold roundInt
  refine ⟨this.1, ?_⟩
  have h2 := this.2
  have e : ((if (if n = 0 then z else decide (n < 0)) = true then (-1 : ℝ) else 1)) *
      (((n.natAbs : Nat) : ℝ) / ((1 : Nat) : ℝ) / 2 ^ oneExp F) = (n : ℝ) / 2 ^ oneExp F := by
    rw [hn, Nat.cast_one, div_one]
    by_cases h0 : n = 0
    · subst h0; simp
    · rw [if_neg h0]
      rcases lt_or_gt_of_ne h0 with h1 | h1
      · have : (n : ℝ) < 0 := by exact_mod_cast h1
        rw [if_pos (decide_eq_true h1), abs_of_neg this]; ring
      · have : (0 : ℝ) < n := by exact_mod_cast h1
        rw [if_neg (by simp; omega), abs_of_pos this]; ring
  rw [e] at h2
  exact h2

/-- The binary orders of magnitude for which the error bounds below hold. -/
def KRange (F : Fmt) (k : Int) : Prop := F.m + 1 ≤ k + oneExp F ∧ k + oneExp F - F.m + 2 < 2 ^ F.e

instance (F : Fmt) (k : Int) : Decidable (KRange F k) := by unfold KRange; infer_instance

section
variable {F : Fmt} {w : Nat} {a b : BitVec w} {k : Int}

theorem fAdd_err (h : FmtW F w) (hk : KRange F k) (ha : isFinite F a = true) (hb : isFinite F b = true)
    (hv : |rval F a + rval F b| ≤ 2 ^ k) :
    isFinite F (fAdd F a b) = true ∧ |rval F (fAdd F a b) - (rval F a + rval F b)| ≤ 2 ^ (k - F.m - 2) := by
  have e : rval F a + rval F b = ((fval F a + fval F b : Int) : ℝ) / 2 ^ oneExp F := by
    unfold rval; push_cast; ring
  rw [fAdd_fin F ha hb, e]
  exact roundInt_err h _ _ hk.1 hk.2 (by rw [← e]; exact hv)

theorem fSub_err (h : FmtW F w) (hk : KRange F k) (ha : isFinite F a = true) (hb : isFinite F b = true)
    (hv : |rval F a - rval F b| ≤ 2 ^ k) :
    isFinite F (fSub F a b) = true ∧ |rval F (fSub F a b) - (rval F a - rval F b)| ≤ 2 ^ (k - F.m - 2) := by
  have e : rval F a - rval F b = ((fval F a - fval F b : Int) : ℝ) / 2 ^ oneExp F := by
    unfold rval; push_cast; ring
  rw [fSub_fin F ha hb, e]
  exact roundInt_err h _ _ hk.1 hk.2 (by rw [← e]; exact hv)

theorem rval_sign (x : BitVec w) :
    rval F x = (if fneg F x then -1 else 1) * (((fval F x).natAbs : Nat) : ℝ) / 2 ^ oneExp F := by
  unfold rval
  rw [natAbs_fval, fval_signed, signed_real]

theorem fMul_err (h : FmtW F w) (hk : KRange F k) (ha : isFinite F a = true) (hb : isFinite F b = true)
    (hv : |rval F a * rval F b| ≤ 2 ^ k) :
    isFinite F (fMul F a b) = true ∧ |rval F (fMul F a b) - rval F a * rval F b| ≤ 2 ^ (k - F.m - 2) := by
  have e : rval F a * rval F b = (if (fneg F a != fneg F b) = true then (-1 : ℝ) else 1) *
      ((((fval F a).natAbs * (fval F b).natAbs : Nat) : ℝ) / ((2 ^ oneExp F : Nat) : ℝ) / 2 ^ oneExp F) := by
    rw [rval_sign, rval_sign]; push_cast
    cases fneg F a <;> cases fneg F b <;> simp <;> ring
  rw [fMul_fin F ha hb, e]
  refine mk_err h _ _ (pow_pos2 _) hk.1 hk.2 ?_
  rw [e, sign_abs, abs_of_nonneg (by positivity)] at hv
  exact hv

theorem fDiv_fin (ha : isFinite F a = true) (hb : isFinite F b = true) (h0 : fval F b ≠ 0) :
    fDiv F a b = mkFloat F w (fneg F a != fneg F b)
      (roundMag F ((fval F a).natAbs * 2 ^ oneExp F) (fval F b).natAbs) := by
  obtain ⟨a1, a2⟩ := isFinite_not ha
  obtain ⟨b1, b2⟩ := isFinite_not hb
  unfold fDiv; simp only [a1, b1, a2, b2, Bool.false_eq_true, if_false, h0]

theorem rval_ne {x : BitVec w} (h : rval F x ≠ 0) : fval F x ≠ 0 := by
  intro hc; exact h (by unfold rval; rw [hc]; simp)

theorem fDiv_err (h : FmtW F w) (hk : KRange F k) (ha : isFinite F a = true) (hb : isFinite F b = true)
    (h0 : rval F b ≠ 0) (hv : |rval F a / rval F b| ≤ 2 ^ k) :
    isFinite F (fDiv F a b) = true ∧ |rval F (fDiv F a b) - rval F a / rval F b| ≤ 2 ^ (k - F.m - 2) := by
  have hb0 : fval F b ≠ 0 := rval_ne h0
  have hbn : (((fval F b).natAbs : Nat) : ℝ) ≠ 0 := by
    have : (fval F b).natAbs ≠ 0 := by omega
    exact_mod_cast this
  have hp := one_pos F
  have e : rval F a / rval F b = (if (fneg F a != fneg F b) = true then (-1 : ℝ) else 1) *
      ((((fval F a).natAbs * 2 ^ oneExp F : Nat) : ℝ) / (((fval F b).natAbs : Nat) : ℝ) / 2 ^ oneExp F) := by
    rw [rval_sign, rval_sign]; push_cast
    generalize (((fval F b).natAbs : Nat) : ℝ) = B at *
    generalize (((fval F a).natAbs : Nat) : ℝ) = A at *
    cases fneg F a <;> cases fneg F b <;> simp <;> field_simp
  rw [fDiv_fin ha hb hb0, e]
  refine mk_err h _ _ (by omega) hk.1 hk.2 ?_
  rw [e, sign_abs, abs_of_nonneg (by positivity)] at hv
  exact hv

end

/-! ### Computed approximations

`Apx F t p b P`: the pattern `t` is finite, its value differs from the real number `p` by at most `b`, and the
absolute value of `p` is at most `P`. -/

structure Apx (F : Fmt) {w : Nat} (t : BitVec w) (p b P : ℝ) : Prop where
  fin : isFinite F t = true
  err : |rval F t - p| ≤ b
  bnd : |p| ≤ P

namespace Apx
variable {F : Fmt} {w : Nat} {s t : BitVec w} {p q b c d P Q R : ℝ}

theorem abs_le (h : Apx F t p b P) : |rval F t| ≤ P + b := by
  have h1 := h.err
  have h2 := h.bnd
  have := abs_add_le (rval F t - p) p
  rw [sub_add_cancel] at this
  linarith

theorem nonneg (h : Apx F t p b P) : 0 ≤ b := le_trans (abs_nonneg _) h.err

theorem weaken (h : Apx F t p b P) (hb : b ≤ c) (hP : P ≤ Q) : Apx F t p c Q :=
  ⟨h.fin, le_trans h.err hb, le_trans h.bnd hP⟩

/-- Approximating `p` one also approximates what is close to `p`. -/
theorem trans (h : Apx F t p b P) (hq : |p - q| ≤ c) (hQ : |q| ≤ Q) : Apx F t q (b + c) Q := by
  refine ⟨h.fin, ?_, hQ⟩
  have := abs_add_le (rval F t - p) (p - q)
  rw [sub_add_sub_cancel] at this
  linarith [h.err]

theorem exact (hf : isFinite F t = true) (hP : |rval F t| ≤ P) : Apx F t (rval F t) 0 P := by
  refine ⟨hf, by simp, hP⟩

theorem add (hs : Apx F s p b P) (ht : Apx F t q c Q) (h : FmtW F w) (k : Int) (hk : KRange F k)
    (hR : |p + q| ≤ R) (h1 : R + b + c ≤ 2 ^ k) (h2 : b + c + 2 ^ (k - F.m - 2) ≤ d) :
    Apx F (fAdd F s t) (p + q) d R := by
  have e1 := hs.err
  have e2 := ht.err
  have hd : |rval F s + rval F t - (p + q)| ≤ b + c := by
    have := abs_add_le (rval F s - p) (rval F t - q)
    rw [show rval F s - p + (rval F t - q) = rval F s + rval F t - (p + q) by ring] at this
    linarith
  have hv : |rval F s + rval F t| ≤ 2 ^ k := by
    have := abs_add_le (rval F s + rval F t - (p + q)) (p + q)
    rw [sub_add_cancel] at this
    linarith
  obtain ⟨hf, he⟩ := fAdd_err h hk hs.fin ht.fin hv
  refine ⟨hf, ?_, hR⟩
  have := abs_add_le (rval F (fAdd F s t) - (rval F s + rval F t)) (rval F s + rval F t - (p + q))
  rw [sub_add_sub_cancel] at this
  linarith

theorem sub (hs : Apx F s p b P) (ht : Apx F t q c Q) (h : FmtW F w) (k : Int) (hk : KRange F k)
    (hR : |p - q| ≤ R) (h1 : R + b + c ≤ 2 ^ k) (h2 : b + c + 2 ^ (k - F.m - 2) ≤ d) :
    Apx F (fSub F s t) (p - q) d R := by
  have e1 := hs.err
  have e2 := ht.err
  have hd : |rval F s - rval F t - (p - q)| ≤ b + c := by
    have := abs_sub (rval F s - p) (rval F t - q)
    rw [show rval F s - p - (rval F t - q) = rval F s - rval F t - (p - q) by ring] at this
    linarith
  have hv : |rval F s - rval F t| ≤ 2 ^ k := by
    have := abs_add_le (rval F s - rval F t - (p - q)) (p - q)
    rw [sub_add_cancel] at this
    linarith
  obtain ⟨hf, he⟩ := fSub_err h hk hs.fin ht.fin hv
  refine ⟨hf, ?_, hR⟩
  have := abs_add_le (rval F (fSub F s t) - (rval F s - rval F t)) (rval F s - rval F t - (p - q))
  rw [sub_add_sub_cancel] at this
  linarith

theorem mul (hs : Apx F s p b P) (ht : Apx F t q c Q) (h : FmtW F w) (k : Int) (hk : KRange F k)
    (hR : |p * q| ≤ R) (h1 : (P + b) * (Q + c) ≤ 2 ^ k) (h2 : b * Q + P * c + b * c + 2 ^ (k - F.m - 2) ≤ d) :
    Apx F (fMul F s t) (p * q) d R := by
  have e1 := hs.err
  have e2 := ht.err
  have b0 := hs.nonneg
  have c0 := ht.nonneg
  have P0 : 0 ≤ P := le_trans (abs_nonneg _) hs.bnd
  have hd : |rval F s * rval F t - p * q| ≤ b * Q + P * c + b * c := by
    have e : rval F s * rval F t - p * q =
        (rval F s - p) * q + p * (rval F t - q) + (rval F s - p) * (rval F t - q) := by ring
    rw [e]
    refine le_trans (abs_add_le _ _) (add_le_add (le_trans (abs_add_le _ _) (add_le_add ?_ ?_)) ?_)
    · rw [abs_mul]; exact mul_le_mul e1 ht.bnd (abs_nonneg _) b0
    · rw [abs_mul]; exact mul_le_mul hs.bnd e2 (abs_nonneg _) P0
    · rw [abs_mul]; exact mul_le_mul e1 e2 (abs_nonneg _) b0
  have hv : |rval F s * rval F t| ≤ 2 ^ k := by
    rw [abs_mul]
    exact le_trans (mul_le_mul hs.abs_le ht.abs_le (abs_nonneg _) (by linarith)) h1
  obtain ⟨hf, he⟩ := fMul_err h hk hs.fin ht.fin hv
  refine ⟨hf, ?_, hR⟩
  have := abs_add_le (rval F (fMul F s t) - rval F s * rval F t) (rval F s * rval F t - p * q)
  rw [sub_add_sub_cancel] at this
  linarith

/-- The divisor is at least `L` in absolute value. -/
theorem div {L : ℝ} (hs : Apx F s p b P) (ht : Apx F t q c Q) (h : FmtW F w) (k : Int) (hk : KRange F k)
    (hL : L ≤ |q|) (hLc : c < L) (hR : |p / q| ≤ R) (h1 : P + b ≤ 2 ^ k * (L - c))
    (h2 : b + R * c ≤ (d - 2 ^ (k - F.m - 2)) * (L - c)) :
    Apx F (fDiv F s t) (p / q) d R := by
  have e1 := hs.err
  have e2 := ht.err
  have c0 := ht.nonneg
  have hq : q ≠ 0 := by intro hc; rw [hc, abs_zero] at hL; linarith
  have hlow : L - c ≤ |rval F t| := by
    have := abs_sub_abs_le_abs_sub q (rval F t)
    rw [abs_sub_comm] at this
    linarith
  have ht0 : rval F t ≠ 0 := by intro hc; rw [hc, abs_zero] at hlow; linarith
  have htp : 0 < |rval F t| := abs_pos.mpr ht0
  have hv : |rval F s / rval F t| ≤ 2 ^ k := by
    rw [abs_div, div_le_iff₀ htp]
    refine le_trans hs.abs_le (le_trans h1 ?_)
    exact mul_le_mul_of_nonneg_left hlow (by positivity)
  obtain ⟨hf, he⟩ := fDiv_err h hk hs.fin ht.fin ht0 hv
  refine ⟨hf, ?_, hR⟩
  have hd : |rval F s / rval F t - p / q| * |rval F t| ≤ b + R * c := by
    rw [← abs_mul]
    have e : (rval F s / rval F t - p / q) * rval F t = (rval F s - p) - (p / q) * (rval F t - q) := by
      field_simp; ring
    rw [e]
    refine le_trans (abs_sub _ _) (add_le_add e1 ?_)
    rw [abs_mul]
    exact mul_le_mul hR e2 (abs_nonneg _) (le_trans (abs_nonneg _) hR)
  have hd2 : |rval F s / rval F t - p / q| ≤ d - 2 ^ (k - F.m - 2) := by
    have hx := le_trans (mul_le_mul_of_nonneg_left hlow (abs_nonneg (rval F s / rval F t - p / q))) (le_trans hd h2)
    exact le_of_mul_le_mul_right hx (by linarith)
  have := abs_add_le (rval F (fDiv F s t) - rval F s / rval F t) (rval F s / rval F t - p / q)
  rw [sub_add_sub_cancel] at this
  linarith

end Apx

end Vc.Lemma
