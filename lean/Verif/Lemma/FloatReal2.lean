import Verif.Lemma.FloatReal
import Verif.Spec.FloatInt

/-!
Constants, comparisons, integers and powers of two as real numbers.
-/

namespace Vc.Lemma
open Vc.Model Vc.Spec

section
variable {F : Fmt} {w : Nat} {x y : BitVec w}

/-- A normal number as mantissa times a power of two. -/
theorem rval_field {E M : Nat} (h1 : 1 ≤ E) (hE : fmag F x / 2 ^ F.m = E) (hM : fmag F x % 2 ^ F.m = M) :
    rval F x = (if fneg F x then -1 else 1) * ((2 ^ F.m + M : Nat) : ℝ) * (2 : ℝ) ^ ((E : Int) - 1 - oneExp F) := by
  unfold rval
  rw [fval_normal (by omega), hE, hM, signed_real]
  rw [show (E : Int) - 1 - oneExp F = ((E - 1 : Nat) : Int) - (oneExp F : Int) by omega, zpow_sub₀ (by norm_num),
    zpow_natCast, zpow_natCast]
  push_cast
  ring

/-- A constant: sign, exponent field and mantissa are computed. -/
theorem rval_lit (s : Bool) (E M : Nat) (k : Int) {v : ℝ} (h1 : 1 ≤ E) (hs : fneg F x = s) (hE : fmag F x / 2 ^ F.m = E)
    (hM : fmag F x % 2 ^ F.m = M) (hk : k = (E : Int) - 1 - oneExp F)
    (hv : (if s then -1 else 1) * ((2 ^ F.m + M : Nat) : ℝ) * (2 : ℝ) ^ k = v) : rval F x = v := by
  rw [rval_field h1 hE hM, hs, ← hk]; exact hv

theorem rval_lt : rval F x < rval F y ↔ fval F x < fval F y := by
  unfold rval
  rw [div_lt_div_iff_of_pos_right (one_pos F)]
  exact Int.cast_lt

theorem rval_le : rval F x ≤ rval F y ↔ fval F x ≤ fval F y := by
  unfold rval
  rw [div_le_div_iff_of_pos_right (one_pos F)]
  exact Int.cast_le

theorem fLt_real (hx : isFinite F x = true) (hy : isFinite F y = true) :
    fLt F x y = decide (rval F x < rval F y) := by
  unfold fLt
  rw [(isFinite_not hx).1, (isFinite_not hy).1]
  simp [rval_lt]

theorem fLe_real (hx : isFinite F x = true) (hy : isFinite F y = true) :
    fLe F x y = decide (rval F x ≤ rval F y) := by
  unfold fLe
  rw [(isFinite_not hx).1, (isFinite_not hy).1]
  simp [rval_le]

/-- The integer a rounding function returned. -/
theorem rval_int {n : Int} (h : fval F x = n * 2 ^ oneExp F) : rval F x = n := by
  unfold rval
  rw [h]; push_cast
  rw [mul_div_assoc, div_self (ne_of_gt (one_pos F)), mul_one]

theorem floor_real {n : Int} (h : IsFloor (fval F x) (2 ^ oneExp F) n) : (n : ℝ) ≤ rval F x ∧ rval F x < n + 1 := by
  have hp := one_pos F
  unfold rval
  constructor
  · rw [le_div_iff₀ hp]; exact_mod_cast h.1
  · rw [div_lt_iff₀ hp]; exact_mod_cast h.2

/-- The exponent field of a number between powers of two. -/
theorem field_of_range (h : FmtW F w) {j : Int} (hj : 1 ≤ j + bias F) (hj2 : j + bias F + 1 < 2 ^ F.e)
    (h1 : (2 : ℝ) ^ j ≤ |rval F x|) (h2 : |rval F x| < 2 ^ (j + 1)) :
    ((fmag F x / 2 ^ F.m : Nat) : Int) = j + bias F ∧ isNormal F x = true := by
  obtain ⟨c, hc⟩ : ∃ c : Nat, (c : Int) = j + bias F := ⟨(j + bias F).toNat, by omega⟩
  have hp := one_pos F
  have hb : 1 ≤ bias F := by cases h <;> decide
  have hm : 1 ≤ F.m := by cases h <;> decide
  have hv : |rval F x| = (magVal F (fmag F x) : ℝ) / 2 ^ oneExp F := by
    rw [rval_sign, natAbs_fval, mul_div_assoc, sign_abs, abs_of_nonneg (by positivity)]
  have hone : oneExp F = bias F + F.m - 1 := rfl
  have ez : ∀ d : Nat, (2 : ℝ) ^ (j + d) * 2 ^ oneExp F = ((2 ^ F.m * 2 ^ (c - 1 + d) : Nat) : ℝ) := by
    intro d
    rw [← zpow_natCast (2 : ℝ) (oneExp F), ← zpow_add₀ (by norm_num), ← Nat.pow_add]
    push_cast
    rw [← zpow_natCast]
    congr 1
    omega
  have e0 := ez 0
  have e1 := ez 1
  rw [hv] at h1 h2
  rw [le_div_iff₀ hp] at h1
  rw [div_lt_iff₀ hp] at h2
  rw [show j = j + ((0 : Nat) : Int) by omega, e0] at h1
  rw [show j + 1 = j + ((1 : Nat) : Int) by omega, e1] at h2
  have g1 : 2 ^ F.m * 2 ^ (c - 1) ≤ magVal F (fmag F x) := by exact_mod_cast h1
  have g2 : magVal F (fmag F x) < 2 ^ F.m * 2 ^ (c - 1 + 1) := by exact_mod_cast h2
  have hpm := pow_pos2 F.m
  have mv : ∀ d, 1 ≤ d → magVal F (d * 2 ^ F.m) = 2 ^ F.m * 2 ^ (d - 1) := by
    intro d hd
    unfold magVal
    rw [Nat.mul_div_cancel _ hpm, Nat.mul_mod_left, if_neg (by omega), Nat.add_zero]
  have l1 : c * 2 ^ F.m ≤ fmag F x := by
    rw [← mv c (by omega)] at g1
    by_contra hcon
    have := magVal_lt F (Nat.lt_of_not_le hcon)
    omega
  have l2 : fmag F x < (c + 1) * 2 ^ F.m := by
    rw [show c - 1 + 1 = c + 1 - 1 by omega, ← mv (c + 1) (by omega)] at g2
    exact (magVal_lt_iff F).mp g2
  have hd : fmag F x / 2 ^ F.m = c := Nat.div_eq_of_lt_le (by rw [Nat.mul_comm] at l1; rwa [Nat.mul_comm]) l2
  refine ⟨by rw [hd, hc], ?_⟩
  rw [normal_iff h, hd]
  have : ((c + 1 : Nat) : Int) < ((2 ^ F.e : Nat) : Int) := by push_cast; omega
  have : c + 1 < 2 ^ F.e := by exact_mod_cast this
  omega

theorem scaled_real {e : Int} (h : IsScaled F x e y) : rval F y = rval F x * 2 ^ e := by
  have h2 := h.2
  unfold rval
  have hr : (fval F y : ℝ) * 2 ^ (-e).toNat = fval F x * 2 ^ e.toNat := by exact_mod_cast h2
  rw [div_mul_eq_mul_div]
  congr 1
  have hp : (0 : ℝ) < 2 ^ (-e).toNat := by positivity
  have he : (2 : ℝ) ^ e * 2 ^ (-e).toNat = 2 ^ e.toNat := by
    rw [← zpow_natCast, ← zpow_add₀ (by norm_num), ← zpow_natCast]
    congr 1; omega
  apply mul_right_cancel₀ (ne_of_gt hp)
  rw [hr, mul_assoc, he]

/-! ### Exact operations -/

/-- `v` is an integer of at most `m + 1` bits times a power of two in the range of the format. -/
def Repr (F : Fmt) (v : ℝ) : Prop :=
  ∃ k j : Int, v = k * 2 ^ j ∧ |k| ≤ 2 ^ (F.m + 1) ∧ 0 ≤ j + oneExp F ∧ j + oneExp F + 3 < 2 ^ F.e

theorem repr_pattern (h : FmtW F w) {v : ℝ} (hv : Repr F v) : ∃ y : BitVec w, isFinite F y = true ∧ rval F y = v := by
  obtain ⟨k, j, rfl, hk, hj, hj2⟩ := hv
  obtain ⟨J, hJ⟩ : ∃ J : Nat, (J : Int) = j + oneExp F := ⟨(j + oneExp F).toNat, by omega⟩
  obtain ⟨M, hM, hM2⟩ := representable F J k.natAbs (by
    rw [← Int.natCast_natAbs] at hk; exact_mod_cast hk)
  have hJ2 : J + 3 < 2 ^ F.e := by
    have : ((J + 3 : Nat) : Int) < ((2 ^ F.e : Nat) : Int) := by push_cast; omega
    exact_mod_cast this
  have hlt : M < infMag F := by
    unfold infMag
    refine lt_of_le_of_lt hM2 (Nat.mul_lt_mul_of_pos_right (by omega) (pow_pos2 _))
  refine ⟨mkFloat F w (decide (k < 0)) M, isFinite_mk F h.lt _ hlt, ?_⟩
  unfold rval
  have hfv : fval F (mkFloat F w (decide (k < 0)) M) = signed (decide (k < 0)) (magVal F M) :=
    fval_mk F h.lt _ (Nat.lt_trans hlt (infMag_lt F))
  rw [hfv, signed_real, hM]
  push_cast
  have hs : (if decide (k < 0) = true then (-1 : ℝ) else 1) * ((k.natAbs : Nat) : ℝ) = k := by
    rw [← Int.cast_natCast, Int.natCast_natAbs, Int.cast_abs]
    rcases lt_or_ge k 0 with h0 | h0
    · have : (k : ℝ) < 0 := by exact_mod_cast h0
      rw [if_pos (decide_eq_true h0), abs_of_neg this]; ring
    · have : (0 : ℝ) ≤ k := by exact_mod_cast h0
      rw [if_neg (by simp; omega), abs_of_nonneg this]; ring
  rw [← mul_assoc, hs, show j = (J : Int) - (oneExp F : Int) by omega, zpow_sub₀ (by norm_num), zpow_natCast, zpow_natCast]
  ring

theorem nearest_repr {num : Int} {den : Nat} {v : ℝ} (h : FmtW F w) (hd : 0 < den) (hx : NearestTo F num den x)
    (hv : Repr F v) (he : (num : ℝ) / den / 2 ^ oneExp F = v) : isFinite F x = true ∧ rval F x = v := by
  obtain ⟨y, hy, hyv⟩ := repr_pattern h hv
  have hp := one_pos F
  have hdr : (0 : ℝ) < den := by exact_mod_cast hd
  have e : fval F y * (den : Int) = num := by
    have : (fval F y : ℝ) * den = num := by
      rw [← he] at hyv
      unfold rval at hyv
      rw [div_left_inj' (ne_of_gt hp)] at hyv
      rw [hyv]; field_simp
    exact_mod_cast this
  have hxy := nearest_eq hd hx (isFinite_not hy).1 e
  exact ⟨finite_of_val hy hxy, by rw [← hyv]; unfold rval; rw [hxy]⟩

variable {a b : BitVec w} {v : ℝ}

theorem fAdd_repr (h : FmtW F w) (ha : isFinite F a = true) (hb : isFinite F b = true) (hv : Repr F v)
    (he : rval F a + rval F b = v) : isFinite F (fAdd F a b) = true ∧ rval F (fAdd F a b) = v := by
  refine nearest_repr h Nat.one_pos (fAdd_nearest h ha hb) hv ?_
  rw [← he]; unfold rval; push_cast; ring

theorem fSub_repr (h : FmtW F w) (ha : isFinite F a = true) (hb : isFinite F b = true) (hv : Repr F v)
    (he : rval F a - rval F b = v) : isFinite F (fSub F a b) = true ∧ rval F (fSub F a b) = v := by
  refine nearest_repr h Nat.one_pos (fSub_nearest h ha hb) hv ?_
  rw [← he]; unfold rval; push_cast; ring

theorem fMul_repr (h : FmtW F w) (ha : isFinite F a = true) (hb : isFinite F b = true) (hv : Repr F v)
    (he : rval F a * rval F b = v) : isFinite F (fMul F a b) = true ∧ rval F (fMul F a b) = v := by
  refine nearest_repr h (pow_pos2 _) (fMul_nearest h ha hb) hv ?_
  rw [← he]; unfold rval; push_cast
  field_simp

end

end Vc.Lemma
