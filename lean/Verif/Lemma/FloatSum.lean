import Verif.Lemma.Recip
import Verif.Lemma.SimdArrayReduce
import Verif.Model.FloatSum
import Verif.Spec.FloatSum
import Mathlib.Algebra.BigOperators.Intervals
import Mathlib.Algebra.Order.BigOperators.Group.Finset
import Mathlib.Algebra.Order.BigOperators.Ring.Finset

/-!
How the rounding errors of sums and products add up.
-/

namespace Vc.Lemma
open Vc.Model Vc.Spec

section
variable {F : Fmt} {w : Nat}

/-- A number of at least the smallest normal number is rounded with an error of half a unit in the last place. -/
theorem mk_rel_normal (h : FmtW F w) (s : Bool) (num : Nat) {den : Nat} (hd : 0 < den) {k : Int}
    (hk : KRange F k) (hv : (num : ℝ) / den / 2 ^ oneExp F ≤ 2 ^ k) (hb : den * 2 ^ F.m ≤ num) :
    isFinite F (mkFloat F w s (roundMag F num den)) = true ∧
    |rval F (mkFloat F w s (roundMag F num den)) - (if s then -1 else 1) * ((num : ℝ) / den / 2 ^ oneExp F)| ≤
      uRel F * ((num : ℝ) / den / 2 ^ oneExp F) := by
  have hfin := (mk_err h s num hd hk.1 hk.2 hv).1
  refine ⟨hfin, ?_⟩
  have hdr : (0 : ℝ) < den := by exact_mod_cast hd
  have h1p := one_pos F
  have hlt : roundMag F num den < infMag F := by
    obtain ⟨K, hK⟩ : ∃ K : Nat, (K : Int) = k + oneExp F := ⟨(k + oneExp F).toNat, by have := hk.1; omega⟩
    have hkK : (2 : ℝ) ^ k = 2 ^ K / 2 ^ oneExp F := by
      rw [show k = (K : Int) - (oneExp F : Int) by omega, zpow_sub₀ (by norm_num), zpow_natCast, zpow_natCast]
    have hn : num ≤ den * 2 ^ K := by
      rw [hkK, div_le_div_iff_of_pos_right h1p, div_le_iff₀ hdr] at hv
      have : (num : ℝ) ≤ ((den * 2 ^ K : Nat) : ℝ) := by push_cast; linarith
      exact_mod_cast this
    have h1 := hk.1
    have h2 := hk.2
    have hK2 : K - F.m + 2 < 2 ^ F.e := by
      have : ((K - F.m + 2 : Nat) : Int) < ((2 ^ F.e : Nat) : Int) := by push_cast; omega
      exact_mod_cast this
    exact (roundMag_err F num hd (K := K) (by omega) hK2 hn).1
  have hfv : fval F (mkFloat F w s (roundMag F num den)) = signed s (magVal F (roundMag F num den)) :=
    fval_mk F h.lt s (Nat.lt_trans hlt (infMag_lt F))
  have e0 : rval F (mkFloat F w s (roundMag F num den)) =
      (if s then -1 else 1) * ((magVal F (roundMag F num den) : ℝ) / 2 ^ oneExp F) := by
    unfold rval; rw [hfv, signed_real, mul_div_assoc]
  rw [e0, ← mul_sub, sign_abs, ← sub_div, abs_div, abs_of_pos h1p, div_le_iff₀ h1p,
    show uRel F * (num / den / 2 ^ oneExp F) * 2 ^ oneExp F = uRel F * (num / den) by field_simp]
  have hc : (num : ℝ) = num / den * den := by field_simp
  have hup := uRel_pos F
  obtain ⟨e1, e2⟩ := roundMag_rel F num hd hb hlt
  have e1' : (2 : ℝ) ^ F.m * (2 * (magVal F (roundMag F num den) * den)) ≤ 2 ^ F.m * (2 * num) + num := by
    exact_mod_cast e1
  have e2' : (2 : ℝ) ^ F.m * (2 * num) ≤ 2 ^ F.m * (2 * (magVal F (roundMag F num den) * den)) + num := by
    exact_mod_cast e2
  have hur : uRel F * (2 * 2 ^ F.m) = 1 := by
    unfold uRel
    rw [neg_add, zpow_add₀ (by norm_num), zpow_neg, zpow_natCast]
    field_simp
  rw [hc] at e1' e2'
  generalize (num : ℝ) / den = q at *
  generalize (magVal F (roundMag F num den) : ℝ) = M at *
  rw [abs_le]
  constructor
  · have h3 : den * (2 * 2 ^ F.m * q) ≤ den * (2 * 2 ^ F.m * M + q) := by linarith
    have h4 := mul_le_mul_of_nonneg_left (le_of_mul_le_mul_left h3 hdr) hup.le
    have : uRel F * (2 * 2 ^ F.m * q) = q := by rw [← mul_assoc, hur, one_mul]
    have : uRel F * (2 * 2 ^ F.m * M) = M := by rw [← mul_assoc, hur, one_mul]
    linarith
  · have h3 : den * (2 * 2 ^ F.m * M) ≤ den * (2 * 2 ^ F.m * q + q) := by linarith
    have h4 := mul_le_mul_of_nonneg_left (le_of_mul_le_mul_left h3 hdr) hup.le
    have : uRel F * (2 * 2 ^ F.m * q) = q := by rw [← mul_assoc, hur, one_mul]
    have : uRel F * (2 * 2 ^ F.m * M) = M := by rw [← mul_assoc, hur, one_mul]
    linarith

variable {a b : BitVec w} {k : Int}

/-- The sum of two numbers is rounded with an error of half a unit in the last place, also if it is small. -/
theorem fAdd_ulp (h : FmtW F w) (hk : KRange F k) (ha : isFinite F a = true) (hb : isFinite F b = true)
    (hv : |rval F a + rval F b| ≤ 2 ^ k) :
    isFinite F (fAdd F a b) = true ∧
    |rval F (fAdd F a b) - (rval F a + rval F b)| ≤ uRel F * |rval F a + rval F b| := by
  have hup := uRel_pos F
  have e : rval F a + rval F b = ((fval F a + fval F b : Int) : ℝ) / 2 ^ oneExp F := by
    unfold rval; push_cast; ring
  by_cases hs : |fval F a + fval F b| ≤ 2 ^ (F.m + 1)
  · have hr : Repr F (rval F a + rval F b) := by
      refine ⟨fval F a + fval F b, -(oneExp F : Int), ?_, hs, by omega, ?_⟩
      · rw [e, zpow_neg, zpow_natCast, div_eq_mul_inv]
      · cases h <;> decide
    obtain ⟨h1, h2⟩ := fAdd_repr h ha hb hr rfl
    refine ⟨h1, ?_⟩
    rw [h2, sub_self, abs_zero]
    exact mul_nonneg hup.le (abs_nonneg _)
  · rw [fAdd_fin F ha hb, e]
    rw [e] at hv
    generalize fval F a + fval F b = n at *
    have hn : ((n.natAbs : Nat) : ℝ) = |(n : ℝ)| := by
      rw [← Int.cast_natCast, Int.natCast_natAbs, Int.cast_abs]
    have h0 : n ≠ 0 := by
      rintro rfl
      exact hs (by simp)
    have := mk_rel_normal h (decide (n < 0)) n.natAbs (den := 1) (by decide) hk
      (by rw [hn, Nat.cast_one, div_one, ← abs_of_pos (one_pos F), ← abs_div]; exact hv)
      (by
        rw [one_mul]
        have h2 : (2 : Int) ^ (F.m + 1) < (n.natAbs : Int) := by rw [Int.natCast_natAbs]; omega
        have h3 : 2 ^ (F.m + 1) < n.natAbs := by exact_mod_cast h2
        have h4 : 2 ^ (F.m + 1) = 2 * 2 ^ F.m := by rw [Nat.pow_succ]; omega
        omega)
    unfold roundInt
    rw [if_neg h0]
    refine ⟨this.1, ?_⟩
    have h2 := this.2
    rw [hn, Nat.cast_one, div_one] at h2
    rw [abs_div, abs_of_pos (one_pos F)]
    have e2 : (if decide (n < 0) = true then (-1 : ℝ) else 1) * (|(n : ℝ)| / 2 ^ oneExp F) = (n : ℝ) / 2 ^ oneExp F := by
      rcases lt_or_gt_of_ne h0 with h1 | h1
      · have : (n : ℝ) < 0 := by exact_mod_cast h1
        rw [if_pos (decide_eq_true h1), abs_of_neg this]; ring
      · have : (0 : ℝ) < n := by exact_mod_cast h1
        rw [if_neg (by simp; omega), abs_of_pos this]; ring
    rw [e2] at h2
    exact h2

/-- The product of two numbers is rounded with an error of half a unit in the last place, if it is not below the normal
numbers. -/
theorem fMul_ulp (h : FmtW F w) (hk : KRange F k) (ha : isFinite F a = true) (hb : isFinite F b = true)
    (hv : |rval F a * rval F b| ≤ 2 ^ k)
    (hs : rval F a * rval F b = 0 ∨ (2 : ℝ) ^ ((F.m : Int) - oneExp F) ≤ |rval F a * rval F b|) :
    isFinite F (fMul F a b) = true ∧
    |rval F (fMul F a b) - rval F a * rval F b| ≤ uRel F * |rval F a * rval F b| := by
  have e : rval F a * rval F b = (if (fneg F a != fneg F b) = true then (-1 : ℝ) else 1) *
      ((((fval F a).natAbs * (fval F b).natAbs : Nat) : ℝ) / ((2 ^ oneExp F : Nat) : ℝ) / 2 ^ oneExp F) := by
    rw [rval_sign, rval_sign]; push_cast
    cases fneg F a <;> cases fneg F b <;> simp <;> ring
  rcases hs with hs | hs
  · have := fMul_rel h hk ha hb hv
    refine ⟨this.1, ?_⟩
    have h2 := this.2
    unfold RelErr at h2
    rw [if_pos hs, add_zero] at h2
    exact h2
  rw [fMul_fin F ha hb, e]
  rw [e, sign_abs, abs_of_nonneg (by positivity)] at hv hs
  rw [sign_abs, abs_of_nonneg (a := _ / _ / _) (by positivity)]
  refine mk_rel_normal h _ _ (pow_pos2 _) hk hv ?_
  rw [zpow_sub₀ (by norm_num), zpow_natCast, zpow_natCast, div_le_div_iff_of_pos_right (one_pos F),
    le_div_iff₀ (by positivity)] at hs
  have : ((2 ^ oneExp F * 2 ^ F.m : Nat) : ℝ) ≤ (((fval F a).natAbs * (fval F b).natAbs : Nat) : ℝ) := by
    refine le_trans (le_of_eq ?_) hs
    push_cast; ring
  exact_mod_cast this

end

/-! ### Sums -/

/-- The pattern `x` approximates the sum `v` of numbers whose absolute values sum up to `A`, with the error of `k`
additions. -/
structure SApx (F : Fmt) {w : Nat} (k : Nat) (v A : ℝ) (x : BitVec w) : Prop where
  fin : isFinite F x = true
  err : |rval F x - v| ≤ ((1 + uRel F) ^ k - 1) * A
  bnd : |v| ≤ A

namespace SApx
variable {F : Fmt} {w : Nat} {k : Nat} {v v' A A' : ℝ} {x y : BitVec w}

theorem one_le (F : Fmt) (k : Nat) : 1 ≤ (1 + uRel F) ^ k :=
  one_le_pow₀ (by linarith [uRel_pos F])

theorem leaf (hx : isFinite F x = true) : SApx F 0 (rval F x) |rval F x| x :=
  ⟨hx, by simp, le_refl _⟩

theorem zero (h : FmtW F w) : SApx F 0 0 0 (0#w) := by
  have h0 : rval F (0#w : BitVec w) = 0 := by
    cases h <;> (unfold rval; rw [show fval _ (0#_ : BitVec _) = 0 by decide]; simp)
  have h1 : isFinite F (0#w : BitVec w) = true := by cases h <;> decide
  exact ⟨h1, by rw [h0]; simp, by simp⟩

theorem mono {k' : Nat} (hkk : k ≤ k') (hx : SApx F k v A x) : SApx F k' v A x :=
  ⟨hx.fin, le_trans hx.err (mul_le_mul_of_nonneg_right
    (by linarith [pow_le_pow_right₀ (by linarith [uRel_pos F] : 1 ≤ 1 + uRel F) hkk]) (le_trans (abs_nonneg _) hx.bnd)),
    hx.bnd⟩

theorem size (hx : SApx F k v A x) : |rval F x| ≤ (1 + uRel F) ^ k * A := by
  have := hx.err
  have h2 := hx.bnd
  have h3 : rval F x = (rval F x - v) + v := by ring
  rw [h3]
  refine le_trans (abs_add_le _ _) ?_
  nlinarith

theorem add (h : FmtW F w) {K : Int} (hK : KRange F K) (hx : SApx F k v A x) (hy : SApx F k v' A' y)
    (hs : (1 + uRel F) ^ k * (A + A') ≤ 2 ^ K) : SApx F (k + 1) (v + v') (A + A') (fAdd F x y) := by
  have hu := uRel_pos F
  have hsz : |rval F x + rval F y| ≤ (1 + uRel F) ^ k * (A + A') := by
    refine le_trans (abs_add_le _ _) ?_
    rw [mul_add]
    exact add_le_add hx.size hy.size
  obtain ⟨h1, h2⟩ := fAdd_ulp h hK hx.fin hy.fin (le_trans hsz hs)
  refine ⟨h1, ?_, le_trans (abs_add_le _ _) (add_le_add hx.bnd hy.bnd)⟩
  have h3 : rval F (fAdd F x y) - (v + v') =
      (rval F (fAdd F x y) - (rval F x + rval F y)) + ((rval F x - v) + (rval F y - v')) := by ring
  rw [h3]
  refine le_trans (abs_add_le _ _) ?_
  have h4 := abs_add_le (rval F x - v) (rval F y - v')
  have h5 := hx.err
  have h6 := hy.err
  have h7 : uRel F * |rval F x + rval F y| ≤ uRel F * ((1 + uRel F) ^ k * (A + A')) :=
    mul_le_mul_of_nonneg_left hsz hu.le
  have h8 : ((1 + uRel F) ^ (k + 1) - 1) * (A + A') =
      uRel F * ((1 + uRel F) ^ k * (A + A')) + (((1 + uRel F) ^ k - 1) * A + ((1 + uRel F) ^ k - 1) * A') := by
    rw [pow_succ]; ring
  linarith

end SApx

/-! ### Exact sums -/

/-- The pattern `x` is the number `n * 2 ^ j`, and `|n| ≤ A`. -/
structure SExact (F : Fmt) {w : Nat} (j n A : Int) (x : BitVec w) : Prop where
  fin : isFinite F x = true
  val : rval F x = n * 2 ^ j
  bnd : |n| ≤ A

namespace SExact
variable {F : Fmt} {w : Nat} {j n n' A A' : Int} {x y : BitVec w}

theorem zero (h : FmtW F w) : SExact F j 0 0 (0#w) := by
  have := SApx.zero h
  refine ⟨this.fin, ?_, by simp⟩
  have h2 := this.err
  simp only [pow_zero, sub_self, zero_mul, sub_zero] at h2
  rw [abs_nonpos_iff.mp h2]; simp

theorem add (h : FmtW F w) (hj : 0 ≤ j + oneExp F) (hj2 : j + oneExp F + 3 < 2 ^ F.e) (hx : SExact F j n A x)
    (hy : SExact F j n' A' y) (hs : A + A' ≤ 2 ^ (F.m + 1)) : SExact F j (n + n') (A + A') (fAdd F x y) := by
  have hb : |n + n'| ≤ A + A' := le_trans (abs_add_le _ _) (add_le_add hx.bnd hy.bnd)
  obtain ⟨h1, h2⟩ := fAdd_repr h hx.fin hy.fin (v := ((n + n' : Int) : ℝ) * 2 ^ j)
    ⟨n + n', j, rfl, le_trans hb hs, hj, hj2⟩ (by rw [hx.val, hy.val]; push_cast; ring)
  exact ⟨h1, h2, hb⟩

end SExact

/-! ### Products -/

/-- The pattern `x` approximates the product `v` with the error of `k` multiplications; `v` is zero or between `2 ^ -p`
and `2 ^ p`. -/
structure PApx (F : Fmt) {w : Nat} (k p : Nat) (v : ℝ) (x : BitVec w) : Prop where
  fin : isFinite F x = true
  err : |rval F x - v| ≤ ((1 + uRel F) ^ k - 1) * |v|
  bnd : v = 0 ∨ (2 : ℝ) ^ (-(p : Int)) ≤ |v| ∧ |v| ≤ 2 ^ (p : Int)

namespace PApx
variable {F : Fmt} {w : Nat} {k l p q : Nat} {v v' : ℝ} {x y : BitVec w}

/-- The error of a few operations is at most 1/4. -/
theorem small (h : FmtW F w) (hk : k ≤ 16) : (1 + uRel F) ^ k ≤ 5 / 4 := by
  have hu : uRel F ≤ 1 / 2 ^ 24 := by
    cases h
    · exact le_of_eq (by unfold uRel; norm_num [f32])
    · unfold uRel; norm_num [f64]
  have hp := uRel_pos F
  calc (1 + uRel F) ^ k ≤ (1 + uRel F) ^ 16 := pow_le_pow_right₀ (by linarith) hk
    _ ≤ (1 + 1 / 2 ^ 24) ^ 16 := pow_le_pow_left₀ (by linarith) (by linarith) 16
    _ ≤ 5 / 4 := by norm_num

theorem mul (h : FmtW F w) (hkl : k + l ≤ 16) (hx : PApx F k p v x) (hy : PApx F l q v' y)
    (hK : KRange F ((p + q : Nat) + 1)) (hs : (F.m : Int) + (p + q : Nat) + 1 ≤ oneExp F) :
    PApx F (k + l + 1) (p + q) (v * v') (fMul F x y) := by
  have hu := uRel_pos F
  have s1 := SApx.one_le F k
  have s2 := SApx.one_le F l
  have s3 := small h hkl
  have hkl2 : (1 + uRel F) ^ (k + l) = (1 + uRel F) ^ k * (1 + uRel F) ^ l := pow_add _ _ _
  have hkl3 : (1 + uRel F) ^ (k + l + 1) = (1 + uRel F) ^ k * (1 + uRel F) ^ l * (1 + uRel F) := by
    rw [pow_succ, hkl2]
  rw [hkl2] at s3
  have ex := hx.err
  have ey := hy.err
  have herr : |rval F x * rval F y - v * v'| ≤ ((1 + uRel F) ^ k * (1 + uRel F) ^ l - 1) * |v * v'| := by
    have e : rval F x * rval F y - v * v' =
        (rval F x - v) * (rval F y - v') + (v * (rval F y - v') + (rval F x - v) * v') := by ring
    rw [e]
    refine le_trans (abs_add_le _ _) (le_trans (add_le_add (le_refl _) (abs_add_le _ _)) ?_)
    rw [abs_mul, abs_mul, abs_mul, abs_mul]
    have m1 := mul_le_mul ex ey (abs_nonneg _) (mul_nonneg (by linarith) (abs_nonneg _))
    have m2 := mul_le_mul_of_nonneg_left ey (abs_nonneg v)
    have m3 := mul_le_mul_of_nonneg_right ex (abs_nonneg v')
    refine le_trans (add_le_add m1 (add_le_add m2 m3)) (le_of_eq ?_)
    ring
  generalize (1 + uRel F) ^ k * (1 + uRel F) ^ l = c at *
  have habs : |rval F x * rval F y| ≤ c * |v * v'| := by
    have e : rval F x * rval F y = (rval F x * rval F y - v * v') + v * v' := by ring
    rw [e]
    refine le_trans (abs_add_le _ _) ?_
    linarith
  have hlow : (2 - c) * |v * v'| ≤ |rval F x * rval F y| := by
    have e := abs_sub_abs_le_abs_sub (v * v') (rval F x * rval F y)
    rw [abs_sub_comm] at e
    linarith
  have hb : v * v' = 0 ∨ (2 : ℝ) ^ (-((p + q : Nat) : Int)) ≤ |v * v'| ∧ |v * v'| ≤ 2 ^ ((p + q : Nat) : Int) := by
    rcases hx.bnd with h0 | ⟨h1, h2⟩
    · exact .inl (by rw [h0, zero_mul])
    rcases hy.bnd with h0 | ⟨h3, h4⟩
    · exact .inl (by rw [h0, mul_zero])
    refine .inr ⟨?_, ?_⟩
    · rw [Nat.cast_add, neg_add, zpow_add₀ (by norm_num), abs_mul]
      exact mul_le_mul h1 h3 (by positivity) (abs_nonneg _)
    · rw [Nat.cast_add, zpow_add₀ (by norm_num), abs_mul]
      exact mul_le_mul h2 h4 (abs_nonneg _) (by positivity)
  have hv : |rval F x * rval F y| ≤ 2 ^ (((p + q : Nat) : Int) + 1) := by
    refine le_trans habs ?_
    rw [zpow_add₀ (by norm_num), zpow_one]
    rcases hb with h0 | ⟨-, h2⟩
    · rw [h0, abs_zero, mul_zero]; positivity
    · have := mul_le_mul s3 h2 (abs_nonneg _) (by norm_num)
      have hp : (0 : ℝ) < 2 ^ ((p + q : Nat) : Int) := by positivity
      linarith
  have hn : rval F x * rval F y = 0 ∨ (2 : ℝ) ^ ((F.m : Int) - oneExp F) ≤ |rval F x * rval F y| := by
    rcases hb with h0 | ⟨h1, -⟩
    · rw [h0, abs_zero, mul_zero] at habs
      exact .inl (abs_nonpos_iff.mp habs)
    · refine .inr (le_trans ?_ hlow)
      have h5 : (2 : ℝ) ^ ((F.m : Int) - oneExp F) ≤ 2 ^ (-((p + q : Nat) : Int) - 1) :=
        zpow_le_zpow_right₀ (by norm_num) (by omega)
      refine le_trans h5 ?_
      rw [zpow_sub₀ (by norm_num), zpow_one]
      have := mul_le_mul (show (1 : ℝ) / 2 ≤ 2 - c by linarith) h1 (by positivity) (by linarith)
      linarith
  obtain ⟨f1, f2⟩ := fMul_ulp h hK hx.fin hy.fin hv hn
  refine ⟨f1, ?_, hb⟩
  rw [hkl3]
  have e : rval F (fMul F x y) - v * v' =
      (rval F (fMul F x y) - rval F x * rval F y) + (rval F x * rval F y - v * v') := by ring
  rw [e]
  refine le_trans (abs_add_le _ _) ?_
  have := mul_le_mul_of_nonneg_left habs hu.le
  have e2 : (c * (1 + uRel F) - 1) * |v * v'| = uRel F * (c * |v * v'|) + (c - 1) * |v * v'| := by ring
  linarith

end PApx

/-! ### Trees of a few operations -/

section
variable {F : Fmt} {w : Nat}

/-- The values up to which a sum cannot overflow. -/
theorem room_cases (h : FmtW F w) : ∃ K : Int, KRange F K ∧ (2 : ℝ) ^ (2 ^ (F.e - 1) - 2 : Nat) * 2 = 2 ^ K := by
  cases h
  · exact ⟨127, by decide, by rw [show (127 : Int) = ((127 : Nat) : Int) by rfl, zpow_natCast,
      show (2 ^ (f32.e - 1) - 2 : Nat) = 126 by decide, ← pow_succ]⟩
  · exact ⟨1023, by decide, by rw [show (1023 : Int) = ((1023 : Nat) : Int) by rfl, zpow_natCast,
      show (2 ^ (f64.e - 1) - 2 : Nat) = 1022 by decide, ← pow_succ]⟩

theorem SApx.add' (h : FmtW F w) {k : Nat} {v v' A A' : ℝ} {x y : BitVec w} (hk : k ≤ 16) (hx : SApx F k v A x)
    (hy : SApx F k v' A' y) (hs : A + A' ≤ 2 ^ (2 ^ (F.e - 1) - 2 : Nat)) :
    SApx F (k + 1) (v + v') (A + A') (fAdd F x y) := by
  obtain ⟨K, hK, e⟩ := room_cases h
  refine SApx.add h hK hx hy ?_
  have h1 := PApx.small h hk
  have h2 := le_trans (abs_nonneg _) hx.bnd
  have h3 := le_trans (abs_nonneg _) hy.bnd
  rw [← e]
  have h4 : (1 + uRel F) ^ k * (A + A') ≤ 5 / 4 * (A + A') := mul_le_mul_of_nonneg_right h1 (by linarith)
  linarith

end

/-! ### Combinations -/

section
variable {α : Type} {op : α → α → α}

/-- Elements with a property of `map f l'` come from elements of `l'`. -/
theorem perm_map_lift {β : Type} (f : β → α) {l l2 : List α} (h : l.Perm l2) :
    ∀ l' : List β, l2 = l'.map f → ∃ l'' : List β, l = l''.map f ∧ l''.Perm l' := by
  induction h with
  | nil => intro l' e; exact ⟨l', e, .refl _⟩
  | cons x _ ih =>
    intro l' e
    cases l' with
    | nil => exact absurd e (by simp)
    | cons y l' =>
      rw [List.map_cons, List.cons.injEq] at e
      obtain ⟨l'', e1, e2⟩ := ih l' e.2
      exact ⟨y :: l'', by rw [List.map_cons, ← e1, ← e.1], e2.cons y⟩
  | swap x y l =>
    intro l' e
    match l', e with
    | a :: b :: l', e =>
      simp only [List.map_cons, List.cons.injEq] at e
      exact ⟨b :: a :: l', by simp [e.1, e.2.1, e.2.2], .swap a b l'⟩
  | trans _ _ ih1 ih2 =>
    intro l' e
    obtain ⟨m, e1, p1⟩ := ih2 l' e
    obtain ⟨l'', e2, p2⟩ := ih1 m e1
    exact ⟨l'', e2, p2.trans p1⟩

theorem _root_.Vc.Spec.Combines.mono {k : Nat} {l : List α} {r : α} (h : Combines op k l r) : ∀ {k' : Nat}, k ≤ k' → Combines op k' l r := by
  induction h with
  | one k a => intro k' _; exact .one k' a
  | two hp _ _ ih1 ih2 =>
    intro k' hk
    obtain ⟨k'', rfl⟩ : ∃ k'', k' = k'' + 1 := ⟨k' - 1, by omega⟩
    exact .two hp (ih1 (by omega)) (ih2 (by omega))

theorem _root_.Vc.Spec.Combines.perm {k : Nat} {l l' : List α} {r : α} (h : Combines op k l r) (hp : l.Perm l') : Combines op k l' r := by
  cases h with
  | one k => rw [List.singleton_perm] at hp; rw [← hp]; exact .one k r
  | two hp' h1 h2 => exact .two (hp'.trans hp) h1 h2

theorem _root_.Vc.Spec.Combines.pos {k : Nat} {l : List α} {r : α} (h : Combines op k l r) : 1 ≤ l.length := by
  induction h with
  | one => exact Nat.le_refl 1
  | two hp _ _ ih1 ih2 =>
    have := hp.length_eq
    rw [List.length_append] at this
    omega

/-- Pairs combined first. -/
theorem _root_.Vc.Spec.Combines.pairs {k : Nat} {l : List α} {r : α} (h : Combines op k l r) :
    ∀ q : List (α × α), l = q.map (fun p => op p.1 p.2) → Combines op (k + 1) (q.map (·.1) ++ q.map (·.2)) r := by
  induction h with
  | one k a =>
    intro q e
    match q, e with
    | [p], e =>
      simp only [List.map_cons, List.map_nil, List.cons.injEq, and_true] at e
      rw [e]
      exact .two (l₁ := [p.1]) (l₂ := [p.2]) (.refl _) (.one k _) (.one k _)
  | two hp _ _ ih1 ih2 =>
    intro q e
    obtain ⟨q', e1, p1⟩ := perm_map_lift _ hp q e
    obtain ⟨q1, q2, rfl, e2, e3⟩ := List.append_eq_map_iff.mp e1
    refine .two ?_ (ih1 q1 e2.symm) (ih2 q2 e3.symm)
    refine List.Perm.trans ?_ ((p1.map (·.1)).append (p1.map (·.2)))
    rw [List.map_append, List.map_append]
    generalize q1.map (·.1) = a
    generalize q1.map (·.2) = b
    generalize q2.map (·.1) = c
    generalize q2.map (·.2) = d
    rw [List.append_assoc, List.append_assoc]
    refine List.Perm.append_left a ?_
    rw [← List.append_assoc, ← List.append_assoc]
    exact List.perm_append_comm.append_right d

/-- Two lists of the same length, combined entry by entry first. -/
theorem _root_.Vc.Spec.Combines.zip {k : Nat} {l l' : List α} {r : α} (hl : l.length = l'.length)
    (h : Combines op k (List.zipWith op l l') r) : Combines op (k + 1) (l ++ l') r := by
  have := h.pairs (l.zip l') (by rw [List.zip, List.map_zipWith])
  rwa [List.map_fst_zip (Nat.le_of_eq hl), List.map_snd_zip (Nat.le_of_eq hl.symm)] at this

end

section
variable {α : Type} {op : α → α → α} {C : Cfg}

/-- `sum()` of a SimdArray combines every entry once. -/
theorem reduceBy_combines {nat : List α → Option α}
    (hnat : ∀ l, l ≠ [] → ∃ r, nat l = some r ∧ Combines op (l.length - 1) l r) (hC : C.Valid) (n : Nat) (hn : 1 ≤ n) :
    ∀ (x : SA α), SA.WF C n x → ∃ r, x.reduceBy nat C op n = some r ∧ Combines op (n - 1) x.toList r := by
  refine template_induction hC (P := fun n => ∀ (x : SA α), SA.WF C n x →
    ∃ r, x.reduceBy nat C op n = some r ∧ Combines op (n - 1) x.toList r) ?_ ?_ n hn
  · intro n hn ha x h
    have hlen := WF.length hC hn h
    obtain ⟨l, rfl, hl⟩ := WF.exists_atom ha h
    rw [SA.reduceBy, if_pos ha, SA.toList]
    rw [SA.toList] at hlen
    obtain ⟨r, e, hr⟩ := hnat l (by rintro rfl; simp at hlen; omega)
    exact ⟨r, e, hlen ▸ hr⟩
  · intro n hn2 ha ih0 ih1 x h
    have hL1 := one_le_leftSize (n := n) (by omega)
    have hR1 := one_le_rightSize hn2
    obtain ⟨a, b, rfl, wa, wb⟩ := WF.exists_node ha h
    have la := WF.length hC hL1 wa
    have lb := WF.length hC hR1 wb
    have hs := WF.length hC (by omega) h
    rw [SA.toList, List.length_append] at hs
    rw [SA.reduceBy, if_neg (by simp [ha]), dif_pos hn2, SA.toList]
    split
    · rename_i he
      obtain ⟨c, ec, wc, tc⟩ := zipWith_wf hC op _ hL1 a b wa (he ▸ wb)
      simp only [ec, Option.bind_eq_bind, Option.bind_some]
      obtain ⟨r, e, hr⟩ := ih0 _ wc
      refine ⟨r, e, ?_⟩
      rw [tc] at hr
      exact (Combines.zip (by omega) hr).mono (by omega)
    · obtain ⟨r0, e0, h0⟩ := ih0 _ wa
      obtain ⟨r1, e1, h1⟩ := ih1 _ wb
      rw [e0, e1]
      refine ⟨op r0 r1, rfl, ?_⟩
      have := Combines.two (k := n - 2) (.refl _) (h0.mono (by omega)) (h1.mono (by omega))
      exact this.mono (by omega)

end

/-! ### Errors of combinations -/

section
variable {F : Fmt} {w : Nat}

theorem sum_le_of_perm {l₁ l₂ l : List (BitVec w)} (f : BitVec w → ℝ) (hp : (l₁ ++ l₂).Perm l) :
    (l.map f).sum = (l₁.map f).sum + (l₂.map f).sum := by
  rw [← List.sum_append, ← List.map_append]
  exact ((hp.map f).sum_eq).symm

theorem abs_sum_nonneg (F : Fmt) (l : List (BitVec w)) : 0 ≤ (l.map fun x => |rval F x|).sum :=
  List.sum_nonneg fun y hy => by
    obtain ⟨x, -, rfl⟩ := List.mem_map.mp hy
    exact abs_nonneg _

/-- A combination by additions. -/
theorem _root_.Vc.Spec.Combines.sum (h : FmtW F w) {K : Int} (hK : KRange F K) {k : Nat} {l : List (BitVec w)} {r : BitVec w}
    (hc : Combines (fAdd F) k l r) : (∀ x ∈ l, isFinite F x = true) →
    (1 + uRel F) ^ k * (l.map fun x => |rval F x|).sum ≤ 2 ^ K →
    SApx F k (l.map (rval F)).sum (l.map fun x => |rval F x|).sum r := by
  induction hc with
  | one k a =>
    intro hf _
    simp only [List.map_cons, List.map_nil, List.sum_cons, List.sum_nil, add_zero]
    exact (SApx.leaf (hf a (by simp))).mono (Nat.zero_le k)
  | @two k l₁ l₂ l r₁ r₂ hp _ _ ih1 ih2 =>
    intro hf hs
    have a1 := abs_sum_nonneg F l₁
    have a2 := abs_sum_nonneg F l₂
    have hpw := SApx.one_le F k
    rw [sum_le_of_perm _ hp] at hs
    rw [sum_le_of_perm _ hp, sum_le_of_perm _ hp]
    have hs' : (1 + uRel F) ^ k * ((l₁.map fun x => |rval F x|).sum + (l₂.map fun x => |rval F x|).sum) ≤ 2 ^ K := by
      refine le_trans (mul_le_mul_of_nonneg_right ?_ (by linarith)) hs
      exact pow_le_pow_right₀ (by linarith [uRel_pos F]) (Nat.le_succ k)
    have m1 := mul_nonneg (le_trans zero_le_one hpw) a1
    have m2 := mul_nonneg (le_trans zero_le_one hpw) a2
    rw [mul_add] at hs'
    exact SApx.add h hK (ih1 (fun x hx => hf x (hp.mem_iff.mp (List.mem_append_left _ hx))) (by linarith))
      (ih2 (fun x hx => hf x (hp.mem_iff.mp (List.mem_append_right _ hx))) (by linarith)) (by rw [mul_add]; exact hs')

/-- A combination of multiples of a power of two. -/
theorem _root_.Vc.Spec.Combines.exact (h : FmtW F w) {j : Int} (hj : 0 ≤ j + oneExp F) (hj2 : j + oneExp F + 3 < 2 ^ F.e)
    (q : BitVec w → Int) {k : Nat} {l : List (BitVec w)} {r : BitVec w}
    (hc : Combines (fAdd F) k l r) : (∀ x ∈ l, isFinite F x = true ∧ rval F x = q x * 2 ^ j) →
    (l.map fun x => |q x|).sum ≤ 2 ^ (F.m + 1) → SExact F j (l.map q).sum (l.map fun x => |q x|).sum r := by
  induction hc with
  | one k a =>
    intro hf _
    simp only [List.map_cons, List.map_nil, List.sum_cons, List.sum_nil, add_zero]
    exact ⟨(hf a (by simp)).1, (hf a (by simp)).2, le_refl _⟩
  | @two k l₁ l₂ l r₁ r₂ hp _ _ ih1 ih2 =>
    intro hf hs
    have e : ∀ f : BitVec w → Int, (l.map f).sum = (l₁.map f).sum + (l₂.map f).sum := fun f => by
      rw [← List.sum_append, ← List.map_append]
      exact ((hp.map f).sum_eq).symm
    have nn : ∀ l : List (BitVec w), 0 ≤ (l.map fun x => |q x|).sum := fun l => List.sum_nonneg fun y hy => by
      obtain ⟨x, -, rfl⟩ := List.mem_map.mp hy
      exact abs_nonneg _
    have n1 := nn l₁
    have n2 := nn l₂
    rw [e] at hs
    rw [e, e]
    exact SExact.add h hj hj2 (ih1 (fun x hx => hf x (hp.mem_iff.mp (List.mem_append_left _ hx))) (by omega))
      (ih2 (fun x hx => hf x (hp.mem_iff.mp (List.mem_append_right _ hx))) (by omega)) hs

/-- A combination by multiplications. -/
theorem _root_.Vc.Spec.Combines.product (h : FmtW F w) {p : Nat} {k : Nat} {l : List (BitVec w)} {r : BitVec w}
    (hc : Combines (fMul F) k l r) : l.length ≤ 16 →
    (∀ x ∈ l, isFinite F x = true ∧ (rval F x = 0 ∨ (2 : ℝ) ^ (-(p : Int)) ≤ |rval F x| ∧ |rval F x| ≤ 2 ^ (p : Int))) →
    KRange F ((l.length * p : Nat) + 1) → (F.m : Int) + (l.length * p : Nat) + 1 ≤ oneExp F → 
    PApx F (l.length - 1) (l.length * p) (l.map (rval F)).prod r := by
  induction hc with
  | one k a =>
    intro _ hf _ _
    simp only [List.map_cons, List.map_nil, List.prod_cons, List.prod_nil, mul_one, List.length_cons, List.length_nil,
      Nat.zero_add, Nat.one_mul]
    exact ⟨(hf a (by simp)).1, by simp, (hf a (by simp)).2⟩
  | @two k l₁ l₂ l r₁ r₂ hp c1 c2 ih1 ih2 =>
    intro hl hf hK hs
    have e : (l.map (rval F)).prod = (l₁.map (rval F)).prod * (l₂.map (rval F)).prod := by
      rw [← List.prod_append, ← List.map_append]
      exact ((hp.map _).prod_eq).symm
    have hlen := hp.length_eq
    rw [List.length_append] at hlen
    have p1 := c1.pos
    have p2 := c2.pos
    have hm : l.length * p = l₁.length * p + l₂.length * p := by rw [← hlen, Nat.add_mul]
    rw [e, hm, show l.length - 1 = (l₁.length - 1) + (l₂.length - 1) + 1 by omega]
    rw [hm] at hK hs
    have hlow : (F.m : Int) + 1 ≤ oneExp F := by cases h <;> decide
    have kr : ∀ a : Nat, a ≤ l₁.length * p + l₂.length * p → KRange F ((a : Int) + 1) := fun a ha => by
      obtain ⟨k1, k2⟩ := hK
      unfold KRange
      constructor
      · omega
      · omega
    refine PApx.mul h (by omega) (ih1 (by omega) (fun x hx => hf x (hp.mem_iff.mp (List.mem_append_left _ hx)))
      (kr _ (by omega)) (by omega))
      (ih2 (by omega) (fun x hx => hf x (hp.mem_iff.mp (List.mem_append_right _ hx))) (kr _ (by omega)) (by omega)) hK hs

end

end Vc.Lemma
