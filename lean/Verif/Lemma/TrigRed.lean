import Verif.Lemma.TrigBase
import Verif.Lemma.PiDigits
import Verif.Lemma.FloatReal2
import Verif.Lemma.FloatRound3

/-!
Folding the argument of `sin` and `cos`: exact operations, the rounding to an integer and the quadrant.
-/

namespace Vc.Lemma
open Vc.Model Vc.Spec

section
variable {F : Fmt} {w : Nat} {a b x : BitVec w}

/-! ### Exact operations -/

/-- A multiple of `2 ^ g`. -/
def OnGrid (g : Int) (v : ℝ) : Prop := ∃ k : Int, v = k * 2 ^ g

theorem OnGrid.finer {g f : Int} {v : ℝ} (h : OnGrid g v) (hf : f ≤ g) : OnGrid f v := by
  obtain ⟨k, rfl⟩ := h
  refine ⟨k * 2 ^ (g - f).toNat, ?_⟩
  push_cast
  rw [mul_assoc, ← zpow_natCast, ← zpow_add₀ (by norm_num), show ((g - f).toNat : Int) + f = g by omega]

theorem OnGrid.sub {g : Int} {u v : ℝ} (h : OnGrid g u) (h' : OnGrid g v) : OnGrid g (u - v) := by
  obtain ⟨k, rfl⟩ := h
  obtain ⟨l, rfl⟩ := h'
  exact ⟨k - l, by push_cast; ring⟩

theorem OnGrid.natMul {g : Int} {u : ℝ} (h : OnGrid g u) (n : Nat) : OnGrid g (n * u) := by
  obtain ⟨k, rfl⟩ := h
  exact ⟨n * k, by push_cast; ring⟩

/-- Numbers on a grid that are not too large are numbers of the format. -/
theorem OnGrid.repr {g : Int} {v : ℝ} (h : OnGrid g v) (hb : |v| ≤ 2 ^ (g + (F.m + 1 : Nat))) (h0 : 0 ≤ g + oneExp F)
    (h1 : g + oneExp F + 3 < 2 ^ F.e) : Repr F v := by
  obtain ⟨k, rfl⟩ := h
  refine ⟨k, g, rfl, ?_, h0, h1⟩
  have hp : (0 : ℝ) < 2 ^ g := by positivity
  rw [abs_mul, abs_of_pos hp, zpow_add₀ (by norm_num), mul_comm ((2 : ℝ) ^ g), mul_le_mul_iff_left₀ hp, zpow_natCast] at hb
  rw [← Int.cast_abs] at hb
  exact_mod_cast hb

theorem repr_zero (h : FmtW F w) : Repr F 0 := ⟨0, 0, by simp, by simp, by simp, by cases h <;> decide⟩

/-- Numbers of some size are multiples of the unit in the last place of that size. -/
theorem magVal_dvd {k s : Nat} (h : 2 ^ (F.m + s) ≤ magVal F k) : 2 ^ s ∣ magVal F k := by
  unfold magVal at *
  have hp := pow_pos2 F.m
  split at h
  · rename_i h0
    rw [if_pos h0]
    have : k < 2 ^ F.m := by
      rcases Nat.lt_or_ge k (2 ^ F.m) with h' | h'
      · exact h'
      · have := Nat.div_pos h' hp; omega
    have : 2 ^ F.m ≤ 2 ^ (F.m + s) := Nat.pow_le_pow_right (by decide) (by omega)
    omega
  · rename_i h0
    rw [if_neg h0]
    have hm := Nat.mod_lt k hp
    have : 2 ^ (F.m + s) < 2 ^ (F.m + (k / 2 ^ F.m)) := by
      refine lt_of_le_of_lt h ?_
      have e : 2 ^ (F.m + k / 2 ^ F.m) = (2 ^ F.m + 2 ^ F.m) * 2 ^ (k / 2 ^ F.m - 1) := by
        have h1 : 1 ≤ k / 2 ^ F.m := Nat.one_le_iff_ne_zero.mpr h0
        rw [← Nat.two_mul, ← Nat.pow_succ', ← Nat.pow_add]; congr 1
        generalize k / 2 ^ F.m = E at *
        omega
      rw [e]
      exact Nat.mul_lt_mul_of_pos_right (by omega) (pow_pos2 _)
    have := (Nat.pow_lt_pow_iff_right (by decide : 1 < 2)).mp this
    exact Dvd.dvd.mul_left (pow_dvd_pow _ (by omega)) _

theorem grid_of_le {j : Int} (hj : 0 ≤ j + oneExp F - F.m) (h : (2 : ℝ) ^ j ≤ rval F x) : OnGrid (j - F.m) (rval F x) := by
  have hp := one_pos F
  obtain ⟨s, hs⟩ : ∃ s : Nat, (s : Int) = j + oneExp F - F.m := ⟨(j + oneExp F - F.m).toNat, by omega⟩
  have hpos : 0 < rval F x := lt_of_lt_of_le (by positivity) h
  have hn : fval F x = (magVal F (fmag F x) : Int) := by
    unfold fval
    split
    · exfalso
      rename_i hneg
      unfold rval fval at hpos
      rw [if_pos hneg] at hpos
      have h1 := mul_pos hpos hp
      rw [div_mul_cancel₀ _ (ne_of_gt hp)] at h1
      have : (0 : ℝ) ≤ ((magVal F (fmag F x) : Nat) : ℝ) := by positivity
      push_cast at h1
      linarith
    · rfl
  have hle : 2 ^ (F.m + s) ≤ magVal F (fmag F x) := by
    unfold rval at h
    rw [hn, le_div_iff₀ hp, ← zpow_natCast, ← zpow_add₀ (by norm_num), show j + (oneExp F : Int) = ((F.m + s : Nat) : Int) by push_cast; omega,
      zpow_natCast] at h
    exact_mod_cast h
  obtain ⟨k, hk⟩ := magVal_dvd hle
  refine ⟨k, ?_⟩
  unfold rval
  rw [hn, hk]
  push_cast
  rw [show (j - F.m : Int) = (s : Int) - (oneExp F : Int) by omega, zpow_sub₀ (by norm_num), zpow_natCast, zpow_natCast]
  ring

/-- The difference on a common grid is exact. -/
theorem fSub_grid (h : FmtW F w) {g : Int} (ha : isFinite F a = true) (hb : isFinite F b = true) (h1 : OnGrid g (rval F a))
    (h2 : OnGrid g (rval F b)) (hv : |rval F a - rval F b| ≤ 2 ^ (g + (F.m + 1 : Nat))) (h0 : 0 ≤ g + oneExp F)
    (h3 : g + oneExp F + 3 < 2 ^ F.e) : isFinite F (fSub F a b) = true ∧ rval F (fSub F a b) = rval F a - rval F b :=
  fSub_repr h ha hb ((h1.sub h2).repr hv h0 h3) rfl

/-- A product with an integer that needs few bits. -/
theorem fMul_int (h : FmtW F w) {g : Int} {n : Nat} (ha : isFinite F a = true) (hb : isFinite F b = true) (hn : rval F a = n)
    (h2 : OnGrid g (rval F b)) (hv : |n * rval F b| ≤ 2 ^ (g + (F.m + 1 : Nat))) (h0 : 0 ≤ g + oneExp F)
    (h3 : g + oneExp F + 3 < 2 ^ F.e) : isFinite F (fMul F a b) = true ∧ rval F (fMul F a b) = n * rval F b :=
  fMul_repr h ha hb ((h2.natMul n).repr hv h0 h3) (by rw [hn])

/-- Subtracting zero. -/
theorem fSub_zero' (h : FmtW F w) (ha : isFinite F a = true) (hb : isFinite F b = true) (h0 : rval F b = 0) :
    isFinite F (fSub F a b) = true ∧ rval F (fSub F a b) = rval F a := by
  have hb0 : fval F b = 0 := by
    unfold rval at h0
    rcases div_eq_zero_iff.mp h0 with h | h
    · exact_mod_cast h
    · exact absurd h (ne_of_gt (one_pos F))
  have hx := fSub_nearest h ha hb
  have hxy := nearest_eq Nat.one_pos hx (isFinite_not ha).1 (by rw [hb0, Int.sub_zero]; simp)
  exact ⟨finite_of_val ha hxy, by unfold rval; rw [hxy]⟩

theorem fMul_zero' (h : FmtW F w) (ha : isFinite F a = true) (hb : isFinite F b = true) (h0 : rval F a = 0) :
    isFinite F (fMul F a b) = true ∧ rval F (fMul F a b) = 0 :=
  fMul_repr h ha hb (repr_zero h) (by rw [h0, zero_mul])

/-! ### Rounding to an integer -/

/-- `round`, with and without the instruction. -/
def roundAny (F : Fmt) (w : Nat) (b : Bool) (z : BitVec w) : BitVec w :=
  if b then fRound F .nearest z else cvtI2F F w (cvtF2I F z)

theorem round_near (h : FmtW F w) (b : Bool) {z : BitVec w} (hz : isFinite F z = true) (h0 : -(1 / 4) ≤ rval F z)
    (h1 : rval F z ≤ 2 ^ 30) : isFinite F (roundAny F w b z) = true ∧
    ∃ Y : Nat, fval F (roundAny F w b z) = Y * 2 ^ oneExp F ∧ |rval F z - Y| ≤ 1 / 2 := by
  have hd := pow_pos2 (oneExp F)
  have hp := one_pos F
  have hmag : ((magVal F (fmag F z) : Nat) : ℝ) ≤ 2 ^ 30 * 2 ^ oneExp F := by
    have e : ((magVal F (fmag F z) : Nat) : ℝ) = |(fval F z : ℝ)| := by
      rw [← natAbs_fval, ← Int.cast_natCast, Int.natCast_natAbs, Int.cast_abs]
    have h2 : |rval F z| ≤ 2 ^ 30 := by rw [abs_le]; constructor <;> linarith
    unfold rval at h2
    rw [abs_div, abs_of_pos hp, div_le_iff₀ hp] at h2
    rw [e]; exact h2
  have hmag' : magVal F (fmag F z) ≤ 2 ^ 30 * 2 ^ oneExp F := by exact_mod_cast hmag
  have hq : rne (magVal F (fmag F z)) (2 ^ oneExp F) < 2147483648 := by
    have hbd := (rne_bounds (magVal F (fmag F z)) hd).2
    by_contra hc
    have hc : 2147483648 ≤ rne (magVal F (fmag F z)) (2 ^ oneExp F) := by omega
    have := Nat.mul_le_mul_right (2 ^ oneExp F) hc
    generalize 2 ^ oneExp F = D at *
    omega
  obtain ⟨hf, hv⟩ : isFinite F (roundAny F w b z) = true ∧ fval F (roundAny F w b z) =
      signed (fneg F z) (rne (magVal F (fmag F z)) (2 ^ oneExp F)) * 2 ^ oneExp F := by
    unfold roundAny
    cases b with
    | true =>
      rw [if_pos rfl]
      have := fRound_finite h .nearest hz
      exact ⟨this.1, this.2.2⟩
    | false =>
      rw [if_neg (by decide)]
      exact round_int_spec h hz hq
  refine ⟨hf, ?_⟩
  have hn := isNearest_rne (fneg F z) (magVal F (fmag F z)) hd
  rw [← fval_signed] at hn
  generalize signed (fneg F z) (rne (magVal F (fmag F z)) (2 ^ oneExp F)) = n at *
  obtain ⟨n1, n2, -⟩ := hn
  have r1 : 2 * (fval F z : ℝ) ≤ 2 * (n * 2 ^ oneExp F) + 2 ^ oneExp F := by exact_mod_cast n1
  have r2 : 2 * (n * 2 ^ oneExp F) ≤ 2 * (fval F z : ℝ) + 2 ^ oneExp F := by exact_mod_cast n2
  have hz' : (fval F z : ℝ) = rval F z * 2 ^ oneExp F := by unfold rval; rw [div_mul_cancel₀ _ (ne_of_gt hp)]
  rw [hz'] at r1 r2
  have s1 : 2 * rval F z ≤ 2 * n + 1 := by
    by_contra hc
    nlinarith
  have s2 : 2 * (n : ℝ) ≤ 2 * rval F z + 1 := by
    by_contra hc
    nlinarith
  have hn0 : 0 ≤ n := by
    by_contra hc
    have : (n : ℝ) ≤ -1 := by exact_mod_cast (by omega : n ≤ -1)
    linarith
  refine ⟨n.toNat, ?_, ?_⟩
  · rw [hv, Int.toNat_of_nonneg hn0]
  · have : ((n.toNat : Nat) : ℝ) = n := by
      rw [← Int.cast_natCast, Int.toNat_of_nonneg hn0]
    rw [this, abs_le]
    constructor <;> linarith

/-- The quadrant. -/
theorem quad_spec {y : BitVec w} {Y : Nat} (hf : isFinite F y = true) (hy : fval F y = Y * 2 ^ oneExp F)
    (hY : Y < 2147483648) : quadL F w y = cvtI2F F w (BitVec.ofNat 32 (Y % 4)) := by
  unfold quadL
  congr 1
  have e : cvttF2I F y = BitVec.ofNat 32 Y := by
    unfold cvttF2I intOrIndefinite
    rw [if_pos hf, hy, Int.mul_tdiv_cancel _ (Int.pow_ne_zero (by decide)), if_pos (by omega)]
    exact BitVec.ofInt_natCast 32 Y
  rw [e]
  apply BitVec.eq_of_toNat_eq
  rw [BitVec.toNat_and, BitVec.toNat_ofNat, BitVec.toNat_ofNat, BitVec.toNat_ofNat,
    show 3 % 2 ^ 32 = 2 ^ 2 - 1 by decide, Nat.and_two_pow_sub_one_eq_mod, Nat.mod_mod_of_dvd _ (by decide)]
  omega

/-! ### Signs -/

theorem rval_flip (h : FmtW F w) (x : BitVec w) : rval F (x ^^^ sgn w) = -rval F x := by
  unfold rval fval
  rw [fneg_flip h, fmag_flip h]
  cases fneg F x <;> simp [neg_div]

theorem isFinite_flip (h : FmtW F w) (x : BitVec w) : isFinite F (x ^^^ sgn w) = isFinite F x := by
  unfold isFinite; rw [fmag_flip h]

theorem fneg_and_sgn (h : FmtW F w) (x : BitVec w) : x &&& sgn w = if fneg F x then sgn w else 0#w := by
  have ⟨e, hp⟩ := h.w_eq
  unfold fneg
  rw [e, BitVec.testBit_toNat]
  apply BitVec.eq_of_getLsbD_eq
  intro j hj
  rw [BitVec.getLsbD_and]
  have hs : (sgn w).getLsbD j = decide (w - 1 = j) := by
    unfold sgn
    rw [BitVec.getLsbD_ofNat, Nat.testBit_two_pow]
    simp [hj]
  rw [hs]
  by_cases hc : w - 1 = j
  · subst hc
    cases hx : x.getLsbD (w - 1) <;> simp [hs]
  · cases hx : x.getLsbD (w - 1) <;> simp [hs, hc]

theorem sgn_xor (h : FmtW F w) (x y : BitVec w) : isFinite F ((x &&& sgn w) ^^^ y) = isFinite F y ∧
    rval F ((x &&& sgn w) ^^^ y) = (if fneg F x then -1 else 1) * rval F y := by
  rw [fneg_and_sgn h]
  cases fneg F x
  · simp
  · simp only [if_true]
    rw [BitVec.xor_comm, isFinite_flip h, rval_flip h]
    simp

theorem rval_absL (h : FmtW F w) (x : BitVec w) : rval F x = (if fneg F x then -1 else 1) * rval F (absL x) ∧
    0 ≤ rval F (absL x) ∧ isFinite F (absL x) = isFinite F x ∧ rval F (absL x) = |rval F x| := by
  have hs := absL_spec h x
  have e : rval F x = (if fneg F x then -1 else 1) * rval F (absL x) := by
    unfold rval fval
    rw [hs.1, hs.2]
    cases fneg F x <;> simp [neg_div]
  have h0 : 0 ≤ rval F (absL x) := by
    unfold rval fval
    rw [hs.1, if_neg (by decide)]
    positivity
  refine ⟨e, h0, by unfold isFinite; rw [hs.2], ?_⟩
  rw [e, sign_abs, abs_of_nonneg h0]

end

/-- What folding the argument `v` should give: the quadrant `q` and a number `t` that is close to the rest. -/
structure Folded (F : Fmt) {w : Nat} (v δ : ℝ) (t q : BitVec w) : Prop where
  fin : isFinite F t = true
  small : |rval F t| ≤ 7855 / 10000
  near : ∃ Y : Nat, q = cvtI2F F w (BitVec.ofNat 32 (Y % 4)) ∧ |rval F t - (v - Y * (Real.pi / 2))| ≤ δ

end Vc.Lemma
