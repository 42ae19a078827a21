import Verif.Lemma.FloatRound3
import Verif.Spec.FloatCvt

/-! The rounding of the model of the processor is rounding to nearest even as IEEE-754 defines it. -/

namespace Vc.Lemma

open Vc.Model Vc.Spec

/-- Distance of two numbers. -/
def ndist (a b : Nat) : Nat := ((a : Int) - (b : Int)).natAbs

theorem rne_nearest (num : Nat) {d : Nat} (hd : 0 < d) (q : Nat) :
    ndist (rne num d * d) num ≤ ndist (q * d) num ∧
    (ndist (rne num d * d) num = ndist (q * d) num → q = rne num d ∨ rne num d % 2 = 0) := by
  obtain ⟨h1, h2⟩ := rne_bounds num hd
  have ht := rne_tie num hd
  unfold ndist
  rcases Nat.lt_trichotomy q (rne num d) with h | h | h
  · have := Nat.mul_le_mul_right d h
    rw [Nat.succ_mul] at this
    generalize rne num d * d = A at *
    generalize q * d = B at *
    refine ⟨by omega, fun e => .inr (ht (by omega))⟩
  · rw [h]; exact ⟨Nat.le_refl _, fun _ => .inl rfl⟩
  · have := Nat.mul_le_mul_right d h
    rw [Nat.succ_mul] at this
    generalize rne num d * d = A at *
    generalize q * d = B at *
    refine ⟨by omega, fun e => .inr (ht (by omega))⟩

/-- The rounded pattern if the exponent was not limited. -/
def roundRaw (F : Fmt) (num den : Nat) : Nat :=
  ulpExp F num den * 2 ^ F.m + rne num (den * 2 ^ ulpExp F num den)

theorem roundMag_raw (F : Fmt) (num den : Nat) : roundMag F num den = min (roundRaw F num den) (infMag F) := rfl

theorem magVal_roundRaw (F : Fmt) (num : Nat) {den : Nat} (hd : 0 < den) :
    magVal F (roundRaw F num den) = rne num (den * 2 ^ ulpExp F num den) * 2 ^ ulpExp F num den := by
  have hd' : 0 < den * 2 ^ ulpExp F num den := Nat.mul_pos hd (pow_pos2 _)
  obtain ⟨h1, h2⟩ := log2_bound F num hd
  refine magVal_pack F (rne_le _ hd' (Nat.le_of_lt h1)) ?_
  by_cases hk : ulpExp F num den = 0
  · exact .inl hk
  · exact .inr (rne_ge _ hd' (h2 (by omega)))

theorem roundRaw_nearest (F : Fmt) (hm : 1 ≤ F.m) (num : Nat) {den : Nat} (hd : 0 < den) (M : Nat) :
    ndist (magVal F (roundRaw F num den) * den) num ≤ ndist (magVal F M * den) num ∧
    (ndist (magVal F (roundRaw F num den) * den) num = ndist (magVal F M * den) num →
      M = roundRaw F num den ∨ roundRaw F num den % 2 = 0) := by
  have hd' : 0 < den * 2 ^ ulpExp F num den := Nat.mul_pos hd (pow_pos2 _)
  obtain ⟨h1, h2⟩ := log2_bound F num hd
  have ev := magVal_roundRaw F num hd
  have e1 : magVal F (roundRaw F num den) * den =
      rne num (den * 2 ^ ulpExp F num den) * (den * 2 ^ ulpExp F num den) := by
    rw [ev, Nat.mul_assoc, Nat.mul_comm (2 ^ _) den]
  obtain ⟨r, j, er, hr, hj⟩ := magVal_split F M
  rw [e1]
  by_cases hkj : ulpExp F num den ≤ j
  · have e2 : magVal F M * den = r * 2 ^ (j - ulpExp F num den) * (den * 2 ^ ulpExp F num den) := by
      rw [er]
      have : 2 ^ j = 2 ^ (j - ulpExp F num den) * 2 ^ ulpExp F num den := by
        rw [← Nat.pow_add]; congr 1; omega
      rw [this]
      generalize 2 ^ (j - ulpExp F num den) = A
      generalize 2 ^ ulpExp F num den = B
      ac_rfl
    rw [e2]
    obtain ⟨a, b⟩ := rne_nearest num hd' (r * 2 ^ (j - ulpExp F num den))
    refine ⟨a, fun e => ?_⟩
    rcases b e with h | h
    · left
      apply magVal_inj F
      apply Nat.eq_of_mul_eq_mul_right hd
      rw [e2, e1, h]
    · right
      unfold roundRaw
      have : 2 ^ F.m = 2 * 2 ^ (F.m - 1) := by rw [← Nat.pow_succ']; congr 1; omega
      rw [this, Nat.mul_left_comm, Nat.add_mod, Nat.mul_mod_right, h]
  · have hlow : magVal F M * den < 2 ^ F.m * (den * 2 ^ ulpExp F num den) := by
      have a : r * 2 ^ j < 2 ^ (F.m + 1) * 2 ^ j := Nat.mul_lt_mul_of_pos_right hr (pow_pos2 _)
      have b : 2 ^ (F.m + 1) * 2 ^ j ≤ 2 ^ F.m * 2 ^ ulpExp F num den := by
        rw [← Nat.pow_add, ← Nat.pow_add]
        exact Nat.pow_le_pow_right (by decide) (by omega)
      rw [er]
      calc r * 2 ^ j * den < 2 ^ F.m * 2 ^ ulpExp F num den * den :=
            Nat.mul_lt_mul_of_pos_right (Nat.lt_of_lt_of_le a b) hd
        _ = _ := by rw [Nat.mul_assoc, Nat.mul_comm (2 ^ ulpExp F num den)]
    have hn := h2 (by omega)
    have a := (rne_nearest num hd' (2 ^ F.m)).1
    unfold ndist at *
    generalize rne num (den * 2 ^ ulpExp F num den) * (den * 2 ^ ulpExp F num den) = A at *
    generalize 2 ^ F.m * (den * 2 ^ ulpExp F num den) = B at *
    generalize magVal F M * den = C at *
    omega

theorem infMag_even (F : Fmt) (hm : 1 ≤ F.m) : infMag F % 2 = 0 := by
  unfold infMag
  have : 2 ^ F.m = 2 * 2 ^ (F.m - 1) := by rw [← Nat.pow_succ']; congr 1; omega
  rw [this, Nat.mul_left_comm, Nat.mul_mod_right]

theorem roundMag_nearest (F : Fmt) (hm : 1 ≤ F.m) (num : Nat) {den : Nat} (hd : 0 < den) {M : Nat}
    (hM : M ≤ infMag F) :
    ndist (magVal F (roundMag F num den) * den) num ≤ ndist (magVal F M * den) num ∧
    (ndist (magVal F (roundMag F num den) * den) num = ndist (magVal F M * den) num →
      M = roundMag F num den ∨ roundMag F num den % 2 = 0) := by
  rw [roundMag_raw]
  by_cases h : roundRaw F num den ≤ infMag F
  · rw [Nat.min_eq_left h]; exact roundRaw_nearest F hm num hd M
  · rw [Nat.min_eq_right (by omega)]
    refine ⟨?_, fun _ => .inr (infMag_even F hm)⟩
    have a := (roundRaw_nearest F hm num hd (infMag F)).1
    have b := Nat.mul_lt_mul_of_pos_right (magVal_lt F (Nat.lt_of_not_le h)) hd
    have c := Nat.mul_le_mul_right den (magVal_le F hM)
    unfold ndist at *
    generalize magVal F (roundRaw F num den) * den = A at *
    generalize magVal F (infMag F) * den = B at *
    generalize magVal F M * den = C at *
    omega

theorem isNaN_mk' (F : Fmt) {w : Nat} (hw : F.e + F.m < w) (s : Bool) {k : Nat} (hk : k ≤ infMag F) :
    isNaN F (mkFloat F w s k) = false := by
  unfold isNaN
  rw [(fneg_mk F hw s (Nat.lt_of_le_of_lt hk (infMag_lt F))).2]
  exact decide_eq_false (by omega)

/-- A sign and a rounded magnitude are the nearest number. -/
theorem mk_nearest {F : Fmt} {w : Nat} (h : FmtW F w) (s : Bool) (num : Nat) {den : Nat} (hd : 0 < den) :
    NearestTo F (signed s num) den (mkFloat F w s (roundMag F num den)) := by
  have hm : 1 ≤ F.m := by cases h <;> decide
  have hle : roundMag F num den ≤ infMag F := by rw [roundMag_raw]; exact Nat.min_le_right _ _
  have hlt := Nat.lt_of_le_of_lt hle (infMag_lt F)
  refine ⟨isNaN_mk' F h.lt s hle, fun y hy => ?_⟩
  have hyM : fmag F y ≤ infMag F := by
    unfold isNaN at hy
    exact Nat.le_of_not_lt (of_decide_eq_false hy)
  obtain ⟨a, b⟩ := roundMag_nearest F hm num hd hyM
  obtain ⟨a0, _⟩ := roundMag_nearest F hm num hd (Nat.zero_le _)
  rw [magVal_zero, Nat.zero_mul] at a0
  rw [(fneg_mk F h.lt s hlt).2, fval_signed F (mkFloat F w s _), (fneg_mk F h.lt s hlt).1, (fneg_mk F h.lt s hlt).2,
    fval_signed F y, ← signed_mul, ← signed_mul]
  have hR : ((signed s (magVal F (roundMag F num den) * den)) - signed s num).natAbs =
      ndist (magVal F (roundMag F num den) * den) num := by
    generalize magVal F (roundMag F num den) * den = A
    unfold signed ndist; cases s <;> simp <;> omega
  have hY : ndist (magVal F (fmag F y) * den) num ≤
      (signed (fneg F y) (magVal F (fmag F y) * den) - signed s num).natAbs := by
    generalize magVal F (fmag F y) * den = A
    unfold signed ndist; cases s <;> cases fneg F y <;> simp <;> omega
  rw [hR]
  refine ⟨Nat.le_trans a hY, fun e => ?_⟩
  have e' : ndist (magVal F (roundMag F num den) * den) num = ndist (magVal F (fmag F y) * den) num :=
    Nat.le_antisymm a (e ▸ hY)
  rcases b e' with hb | hb
  · -- same magnitude: same sign, or zero
    by_cases hs : fneg F y = s
    · left; rw [hs, hb]
    · rw [← hb] at e ⊢
      have hz : magVal F (fmag F y) * den = 0 ∨ num = 0 := by
        revert e hs
        generalize magVal F (fmag F y) * den = A
        unfold signed ndist
        cases s <;> cases fneg F y <;> simp <;> omega
      rcases hz with hz | hz
      · left
        have : magVal F (fmag F y) = 0 := by
          rcases Nat.mul_eq_zero.mp hz with h0 | h0
          · exact h0
          · omega
        rw [this]; unfold signed; cases s <;> cases fneg F y <;> rfl
      · subst hz
        have h0 : magVal F (roundMag F 0 den) * den = 0 := by
          have := a0; unfold ndist at this; omega
        left
        rw [← hb] at h0
        have : magVal F (fmag F y) = 0 := by
          rcases Nat.mul_eq_zero.mp h0 with h0 | h0
          · exact h0
          · omega
        rw [this]; unfold signed; cases s <;> cases fneg F y <;> rfl
  · exact .inr hb

/-- Rounding of an integer number of units. -/
theorem roundInt_nearest {F : Fmt} {w : Nat} (h : FmtW F w) (n : Int) (nz : Bool) : NearestTo F n 1 (roundInt F w n nz) := by
  unfold roundInt
  have := mk_nearest h (if n = 0 then nz else decide (n < 0)) n.natAbs (den := 1) (by decide)
  have e : signed (if n = 0 then nz else decide (n < 0)) n.natAbs = n := by
    by_cases h0 : n = 0
    · subst h0; unfold signed; cases nz <;> rfl
    · rw [if_neg h0]; unfold signed
      by_cases h1 : n < 0
      · rw [decide_eq_true h1, if_pos rfl]; omega
      · rw [decide_eq_false h1, if_neg (by decide)]; omega
  rwa [e] at this

end Vc.Lemma
