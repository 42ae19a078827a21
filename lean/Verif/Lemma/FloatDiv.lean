import Verif.Lemma.FloatCvt2

/-!
The integer part of a floating-point quotient of integers is the integer quotient, provided the operands
have fewer bits than the mantissa.
-/

namespace Vc.Lemma

open Vc.Model Vc.Spec

theorem div_trunc_fmt (F : Fmt) {o : Nat} (hm : F.m ≤ o) (hoe : o + 2 < 2 ^ F.e) {a b : Nat}
    (ha : a < 2 ^ F.m) (hb0 : 0 < b) (hb : b < 2 ^ F.m) :
    roundMag F (a * 2 ^ o * 2 ^ o) (b * 2 ^ o) < infMag F ∧
    magVal F (roundMag F (a * 2 ^ o * 2 ^ o) (b * 2 ^ o)) / 2 ^ o = a / b := by
  have hp : 0 < 2 ^ o := pow_pos2 o
  have hd : 0 < b * 2 ^ o := Nat.mul_pos hb0 hp
  have hbound : a * 2 ^ o * 2 ^ o ≤ b * 2 ^ o * 2 ^ (F.m + o) := by
    have h1 : a ≤ b * 2 ^ F.m := Nat.le_trans (Nat.le_of_lt ha) (Nat.le_mul_of_pos_left _ hb0)
    calc a * 2 ^ o * 2 ^ o ≤ b * 2 ^ F.m * 2 ^ o * 2 ^ o :=
          Nat.mul_le_mul_right _ (Nat.mul_le_mul_right _ h1)
      _ = _ := by rw [Nat.pow_add]; ac_rfl
  have hno := roundMag_lt F (a * 2 ^ o * 2 ^ o) hd (k := o) hoe hbound
  refine ⟨hno, ?_⟩
  rw [magVal_roundMag F _ hd hno]
  obtain ⟨-, hlow⟩ := log2_bound F (a * 2 ^ o * 2 ^ o) hd
  generalize hk : ulpExp F (a * 2 ^ o * 2 ^ o) (b * 2 ^ o) = k at *
  have hkb2 : b * 2 ^ k < 2 ^ o := by
    by_cases h0 : k = 0
    · rw [h0, Nat.pow_zero, Nat.mul_one]
      exact Nat.lt_of_lt_of_le hb (Nat.pow_le_pow_right (by decide) hm)
    · have h1 : 2 ^ F.m * (b * 2 ^ o * 2 ^ k) ≤ a * 2 ^ o * 2 ^ o := hlow (by omega)
      have h3 : (2 ^ F.m * (b * 2 ^ k)) * 2 ^ o ≤ (a * 2 ^ o) * 2 ^ o := by
        calc _ = 2 ^ F.m * (b * 2 ^ o * 2 ^ k) := by ac_rfl
          _ ≤ _ := h1
      have h4 := Nat.le_of_mul_le_mul_right h3 hp
      have h5 : a * 2 ^ o < 2 ^ F.m * 2 ^ o := Nat.mul_lt_mul_of_pos_right ha hp
      exact Nat.lt_of_mul_lt_mul_left (Nat.lt_of_le_of_lt h4 h5)
  have hko : k ≤ o := by
    have : 2 ^ k ≤ b * 2 ^ k := Nat.le_mul_of_pos_left _ hb0
    have := (Nat.pow_lt_pow_iff_right (by decide : 1 < 2)).mp (Nat.lt_of_le_of_lt this hkb2)
    omega
  have hsplit : 2 ^ o = 2 ^ (o - k) * 2 ^ k := by rw [← Nat.pow_add]; congr 1; omega
  have hdk : 0 < b * 2 ^ o * 2 ^ k := Nat.mul_pos hd (pow_pos2 k)
  have hq := Nat.div_add_mod a b
  have hqm := Nat.mod_lt a hb0
  generalize a / b = q at hq ⊢
  have hlo : q * 2 ^ (o - k) ≤ rne (a * 2 ^ o * 2 ^ o) (b * 2 ^ o * 2 ^ k) := by
    apply rne_ge _ hdk
    calc _ = b * q * (2 ^ (o - k) * 2 ^ k) * 2 ^ o := by ac_rfl
      _ = b * q * 2 ^ o * 2 ^ o := by rw [← hsplit]
      _ ≤ _ := Nat.mul_le_mul_right _ (Nat.mul_le_mul_right _ (by omega))
  have hup : rne (a * 2 ^ o * 2 ^ o) (b * 2 ^ o * 2 ^ k) * 2 ^ k < (q + 1) * 2 ^ o := by
    have hb2 := (rne_bounds (a * 2 ^ o * 2 ^ o) hdk).2
    generalize rne (a * 2 ^ o * 2 ^ o) (b * 2 ^ o * 2 ^ k) = R at *
    apply Nat.lt_of_mul_lt_mul_left (a := 2 * (b * 2 ^ o))
    have e1 : 2 * (R * (b * 2 ^ o * 2 ^ k)) = 2 * (b * 2 ^ o) * (R * 2 ^ k) := by ac_rfl
    rw [e1] at hb2
    apply Nat.lt_of_le_of_lt hb2
    have e2 : 2 * (a * 2 ^ o * 2 ^ o) + b * 2 ^ o * 2 ^ k = (2 * (a * 2 ^ o) + b * 2 ^ k) * 2 ^ o := by
      rw [Nat.add_mul]; congr 1 <;> ac_rfl
    have e3 : 2 * (b * 2 ^ o) * ((q + 1) * 2 ^ o) = (2 * (b * (q + 1) * 2 ^ o)) * 2 ^ o := by ac_rfl
    rw [e2, e3]
    apply Nat.mul_lt_mul_of_pos_right _ hp
    have h1 : a + 1 ≤ b * (q + 1) := by rw [Nat.mul_add]; omega
    have h2 : (a + 1) * 2 ^ o ≤ b * (q + 1) * 2 ^ o := Nat.mul_le_mul_right _ h1
    rw [Nat.add_mul, Nat.one_mul] at h2
    omega
  have hlo' : q * 2 ^ o ≤ rne (a * 2 ^ o * 2 ^ o) (b * 2 ^ o * 2 ^ k) * 2 ^ k := by
    calc _ = q * 2 ^ (o - k) * 2 ^ k := by rw [Nat.mul_assoc, ← hsplit]
      _ ≤ _ := Nat.mul_le_mul_right _ hlo
  exact Nat.div_eq_of_lt_le (by rw [Nat.mul_comm] at hlo'; rw [Nat.mul_comm]; exact hlo') hup

/-- The sign of a number that is not zero. -/
theorem fneg_of_ne (F : Fmt) {w : Nat} (x : BitVec w) (h : fval F x ≠ 0) : fneg F x = decide (fval F x < 0) := by
  unfold fval at h ⊢
  cases hn : fneg F x
  · rw [hn] at h
    simp only [Bool.false_eq_true, if_false] at h ⊢
    symm; apply decide_eq_false; omega
  · rw [hn] at h
    simp only [if_true] at h ⊢
    symm; apply decide_eq_true; omega

/-- `x / y` for integers `A` and `B` with fewer bits than the mantissa: finite, and its integer part is the
quotient of the integers. -/
theorem fDiv_ints {F : Fmt} {w : Nat} (hw : FmtW F w) (hm : F.m ≤ oneExp F) (hoe : oneExp F + 2 < 2 ^ F.e)
    {A B : Int} {x y : BitVec w} (hx : ExactInt F A x) (hy : ExactInt F B y) (ha : A.natAbs < 2 ^ F.m)
    (hb : B.natAbs < 2 ^ F.m) (hb0 : B ≠ 0) :
    isFinite F (fDiv F x y) = true ∧ (fval F (fDiv F x y)).tdiv (2 ^ oneExp F) = A.tdiv B := by
  obtain ⟨fx, vx⟩ := hx
  obtain ⟨fy, vy⟩ := hy
  obtain ⟨xn, xi⟩ := isFinite_not fx
  obtain ⟨yn, yi⟩ := isFinite_not fy
  have hp : (0 : Int) < 2 ^ oneExp F := Int.pow_pos (by decide)
  have hy0 : fval F y ≠ 0 := by rw [vy]; exact Int.mul_ne_zero hb0 (by omega)
  have nx : (fval F x).natAbs = A.natAbs * 2 ^ oneExp F := by rw [vx, Int.natAbs_mul, Int.natAbs_pow]; rfl
  have ny : (fval F y).natAbs = B.natAbs * 2 ^ oneExp F := by rw [vy, Int.natAbs_mul, Int.natAbs_pow]; rfl
  obtain ⟨hno, hv⟩ := div_trunc_fmt F hm hoe ha (b := B.natAbs) (by omega) hb
  have hsy : fneg F y = decide (B < 0) := by
    rw [fneg_of_ne F y hy0, vy]
    by_cases h : B < 0
    · rw [decide_eq_true h]; exact decide_eq_true (Int.mul_neg_of_neg_of_pos h hp)
    · rw [decide_eq_false h]; exact decide_eq_false (Int.not_lt.mpr (Int.mul_nonneg (by omega) (by omega)))
  have hsx : A ≠ 0 → fneg F x = decide (A < 0) := by
    intro h0
    rw [fneg_of_ne F x (by rw [vx]; exact Int.mul_ne_zero h0 (by omega)), vx]
    by_cases h : A < 0
    · rw [decide_eq_true h]; exact decide_eq_true (Int.mul_neg_of_neg_of_pos h hp)
    · rw [decide_eq_false h]; exact decide_eq_false (Int.not_lt.mpr (Int.mul_nonneg (by omega) (by omega)))
  unfold fDiv
  simp only [xn, xi, yn, yi, Bool.false_eq_true, if_false, hy0]
  rw [nx, ny, hsy]
  generalize hM : roundMag F (A.natAbs * 2 ^ oneExp F * 2 ^ oneExp F) (B.natAbs * 2 ^ oneExp F) = M at *
  have hM2 := Nat.lt_trans hno (infMag_lt F)
  refine ⟨isFinite_mk F hw.lt _ hno, ?_⟩
  rw [fval_mk F hw.lt _ hM2]
  have e1 : ((magVal F M : Nat) : Int).tdiv (2 ^ oneExp F) = ((A.natAbs / B.natAbs : Nat) : Int) := by
    rw [← hv, pow_cast]; rfl
  have e2 : (if (fneg F x != decide (B < 0)) = true then -(magVal F M : Int) else (magVal F M : Int)).tdiv
      (2 ^ oneExp F) = if (fneg F x != decide (B < 0)) = true then -((A.natAbs / B.natAbs : Nat) : Int)
        else ((A.natAbs / B.natAbs : Nat) : Int) := by
    split
    · rw [Int.neg_tdiv, e1]
    · exact e1
  rw [e2]
  by_cases h0 : A = 0
  · subst h0
    simp
  rw [hsx h0]
  rcases Int.lt_or_le A 0 with h1 | h1 <;> rcases Int.lt_or_le B 0 with h2 | h2
  · have ea : A = -(A.natAbs : Int) := by omega
    have eb : B = -(B.natAbs : Int) := by omega
    simp only [decide_eq_true h1, decide_eq_true h2]
    conv => rhs; rw [ea, eb, Int.neg_tdiv, Int.tdiv_neg, Int.neg_neg]
    rfl
  · have ea : A = -(A.natAbs : Int) := by omega
    have eb : B = (B.natAbs : Int) := by omega
    simp only [decide_eq_true h1, decide_eq_false (Int.not_lt.mpr h2)]
    conv => rhs; rw [ea, eb, Int.neg_tdiv]
    rfl
  · have ea : A = (A.natAbs : Int) := by omega
    have eb : B = -(B.natAbs : Int) := by omega
    simp only [decide_eq_false (Int.not_lt.mpr h1), decide_eq_true h2]
    conv => rhs; rw [ea, eb, Int.tdiv_neg]
    rfl
  · have ea : A = (A.natAbs : Int) := by omega
    have eb : B = (B.natAbs : Int) := by omega
    simp only [decide_eq_false (Int.not_lt.mpr h1), decide_eq_false (Int.not_lt.mpr h2)]
    conv => rhs; rw [ea, eb]
    rfl

end Vc.Lemma
