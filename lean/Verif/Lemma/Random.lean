import Verif.Lemma.FloatOps
import Verif.Model.Random

namespace Vc.Lemma

open Vc.Model Vc.Spec

/-- Putting the exponent of 1.0 over random bits keeps the mantissa bits. -/
theorem or_one {F : Fmt} {w : Nat} (h : FmtW F w) {z : BitVec w} (hz : z.toNat < 2 ^ (F.e + F.m - 1)) :
    (z ||| BitVec.ofNat w (bias F * 2 ^ F.m)).toNat = bias F * 2 ^ F.m + z.toNat % 2 ^ F.m := by
  have hb : bias F * 2 ^ F.m < 2 ^ w := by cases h <;> decide
  rw [BitVec.toNat_or, toNat_ofNat_lt hb]
  apply Nat.eq_of_testBit_eq
  intro j
  have hone : ∀ j, (bias F * 2 ^ F.m).testBit j = (decide (F.m ≤ j) && decide (j < F.e + F.m - 1)) := by
    intro j
    have hm := Nat.testBit_two_pow_mul_add (bias F) (b := 0) (i := F.m) (pow_pos2 _) j
    rw [Nat.add_zero, Nat.mul_comm] at hm
    rw [hm]
    by_cases hj : j < F.m
    · have : ¬ F.m ≤ j := by omega
      simp [hj, this]
    · rw [if_neg hj]
      unfold bias
      rw [Nat.testBit_two_pow_sub_one]
      have h1 : F.m ≤ j := by omega
      have he : 0 < F.e := by cases h <;> decide
      have h2 : (j - F.m < F.e - 1) = (j < F.e + F.m - 1) := by apply propext; omega
      simp only [h1, h2, decide_true, Bool.true_and]
  rw [Nat.testBit_or, hone, Nat.mul_comm, Nat.testBit_two_pow_mul_add _ (Nat.mod_lt _ (pow_pos2 _)),
    Nat.testBit_mod_two_pow]
  have hone' := hone j
  by_cases hj : j < F.m
  · have : ¬ F.m ≤ j := by omega
    simp [hj, this]
  · rw [if_neg hj]
    have hm := Nat.testBit_two_pow_mul_add (bias F) (b := 0) (i := F.m) (pow_pos2 _) j
    rw [Nat.add_zero, Nat.mul_comm, hone, if_neg hj] at hm
    rw [← hm]
    by_cases hk : j < F.e + F.m - 1
    · have : F.m ≤ j := by omega
      simp [hk, this]
    · have : z.toNat < 2 ^ j := Nat.lt_of_lt_of_le hz (Nat.pow_le_pow_right (by decide) (by omega))
      rw [Nat.testBit_lt_two_pow this, Bool.false_or]

/-- The number is the mantissa field of the bits over `2 ^ m`. -/
theorem sub_one_value {F : Fmt} {w : Nat} (h : FmtW F w) {z : BitVec w} (hz : z.toNat < 2 ^ (F.e + F.m - 1)) :
    isFinite F (fSub F (z ||| BitVec.ofNat w (bias F * 2 ^ F.m)) (BitVec.ofNat w (bias F * 2 ^ F.m))) = true ∧
    fval F (fSub F (z ||| BitVec.ofNat w (bias F * 2 ^ F.m)) (BitVec.ofNat w (bias F * 2 ^ F.m))) =
      ((z.toNat % 2 ^ F.m * 2 ^ (bias F - 1) : Nat) : Int) := by
  have hp := pow_pos2 F.m
  have hbp : 0 < bias F := by cases h <;> decide
  have hr := Nat.mod_lt z.toNat hp
  generalize hrr : z.toNat % 2 ^ F.m = r at *
  have hval : ∀ r, r < 2 ^ F.m → ∀ y : BitVec w, y.toNat = bias F * 2 ^ F.m + r →
      fval F y = (((2 ^ F.m + r) * 2 ^ (bias F - 1) : Nat) : Int) ∧ isFinite F y = true := by
    intro r hr y hy
    have hlt : bias F * 2 ^ F.m + r < infMag F := by
      have h1 : (bias F + 1) * 2 ^ F.m ≤ infMag F := Nat.mul_le_mul_right _ (by cases h <;> decide)
      rw [Nat.add_mul, Nat.one_mul] at h1
      omega
    have hlt2 := Nat.lt_trans hlt (infMag_lt F)
    have hmag : fmag F y = bias F * 2 ^ F.m + r := by
      unfold fmag; rw [hy, Nat.mod_eq_of_lt hlt2]
    have hneg : fneg F y = false := by
      unfold fneg; rw [hy]; exact Nat.testBit_lt_two_pow hlt2
    have hmv : magVal F (bias F * 2 ^ F.m + r) = (2 ^ F.m + r) * 2 ^ (bias F - 1) := by
      have := magVal_pack F (k := bias F - 1) (r := 2 ^ F.m + r) (by rw [two_pow_succ]; omega) (.inr (by omega))
      rw [← this]
      congr 1
      have : bias F * 2 ^ F.m = (bias F - 1) * 2 ^ F.m + 2 ^ F.m := by
        rw [Nat.sub_mul, Nat.one_mul, Nat.sub_add_cancel (Nat.le_mul_of_pos_left _ hbp)]
      omega
    constructor
    · unfold fval
      rw [hneg, hmag, hmv]; rfl
    · unfold isFinite; rw [hmag]; exact decide_eq_true hlt
  have hb : bias F * 2 ^ F.m < 2 ^ w := by cases h <;> decide
  obtain ⟨v1, f1⟩ := hval r hr (z ||| BitVec.ofNat w (bias F * 2 ^ F.m)) (by rw [or_one h hz, hrr])
  obtain ⟨v2, f2⟩ := hval 0 hp (BitVec.ofNat w (bias F * 2 ^ F.m)) (by rw [toNat_ofNat_lt hb, Nat.add_zero])
  have hd : fval F (z ||| BitVec.ofNat w (bias F * 2 ^ F.m)) - fval F (BitVec.ofNat w (bias F * 2 ^ F.m)) =
      ((r * 2 ^ (bias F - 1) : Nat) : Int) := by
    rw [v1, v2, Nat.add_zero, Nat.add_mul]
    generalize 2 ^ F.m * 2 ^ (bias F - 1) = A
    generalize r * 2 ^ (bias F - 1) = B
    omega
  have hs := fSub_exact F h.lt f1 f2 (r := r) (j := bias F - 1) (by rw [two_pow_succ]; omega)
    (by cases h <;> decide) (by rw [hd]; rfl)
  exact ⟨hs.2, by rw [hs.1, hd]⟩

theorem sub_one_inUnit {F : Fmt} {w : Nat} (h : FmtW F w) {z : BitVec w} (hz : z.toNat < 2 ^ (F.e + F.m - 1)) :
    InUnit F (fSub F (z ||| BitVec.ofNat w (bias F * 2 ^ F.m)) (BitVec.ofNat w (bias F * 2 ^ F.m))) := by
  obtain ⟨h1, h2⟩ := sub_one_value h hz
  refine ⟨h1, by rw [h2]; exact Int.natCast_nonneg _, ?_⟩
  rw [h2]
  have : z.toNat % 2 ^ F.m * 2 ^ (bias F - 1) < 2 ^ oneExp F := by
    have e : oneExp F = F.m + (bias F - 1) := by
      unfold oneExp
      have hbp : 0 < bias F := by cases h <;> decide
      omega
    rw [e, Nat.pow_add]
    exact Nat.mul_lt_mul_of_pos_right (Nat.mod_lt _ (pow_pos2 _)) (pow_pos2 _)
  have e2 : ((2 : Int) ^ oneExp F) = ((2 ^ oneExp F : Nat) : Int) := by rw [Int.natCast_pow]; rfl
  rw [e2]
  exact Int.ofNat_lt.mpr this

theorem lane_rload {n : Nat} (s : RState) (off : Nat) {i : Nat} (hi : 32 * (i + 1) ≤ n) :
    lane 32 (rload s off : BitVec n) i = s (off + i) := lane_ofLanes _ hi

theorem lane_rload64 {n : Nat} (s : RState) (off : Nat) {i : Nat} (hi : 64 * (i + 1) ≤ n) :
    lane 64 (rload s off : BitVec n) i = rload64 s (off + 2 * i) := by
  apply lane_ext (v := 32) (c := 2) (by decide)
  intro j hj
  rw [lane_lane 32 2 _ i hj, lane_rload s off (by omega)]
  unfold rload64
  apply BitVec.eq_of_getLsbD_eq
  intro k hk
  rw [getLsbD_lane, BitVec.getLsbD_append]
  rcases (show j = 0 ∨ j = 1 by omega) with rfl | rfl
  · simp [-BitVec.getLsbD_eq_getElem, hk]
  · have h1 : ¬ 32 * 1 + k < 32 := by omega
    rw [if_neg h1, decide_eq_true hk, Bool.true_and, show 32 * 1 + k - 32 = k from by omega]
    rw [Nat.add_assoc]

end Vc.Lemma
