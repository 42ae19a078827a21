import Verif.Model.SseDiv
import Verif.Lemma.Float

namespace Vc.Lemma

open Vc.Model Vc.Spec

/-- Single-precision quotient of integers below `2 ^ 16`: its integer part is the integer quotient. -/
theorem div_trunc {a b : Nat} (ha : a < 2 ^ 16) (hb0 : 0 < b) (hb : b < 2 ^ 16) :
    let num := a * 2 ^ 149 * 2 ^ 149
    let den := b * 2 ^ 149
    roundMag f32 num den < infMag f32 ∧ magVal f32 (roundMag f32 num den) / 2 ^ 149 = a / b := by
  intro num den
  have hp : 0 < 2 ^ 149 := pow_pos2 149
  have hd : 0 < den := Nat.mul_pos hb0 hp
  have hbound : num ≤ den * 2 ^ (f32.m + 142) := by
    show a * 2 ^ 149 * 2 ^ 149 ≤ b * 2 ^ 149 * 2 ^ (23 + 142)
    have h1 : a * 2 ^ 149 ≤ b * 2 ^ (23 + 142) := by
      have h1 : a * 2 ^ 149 ≤ 2 ^ 16 * 2 ^ 149 := Nat.mul_le_mul_right _ (by omega)
      have h2 : 2 ^ (23 + 142) ≤ b * 2 ^ (23 + 142) := Nat.le_mul_of_pos_left _ hb0
      have h3 : 2 ^ 16 * 2 ^ 149 = 2 ^ (23 + 142) := (Nat.pow_add 2 16 149).symm
      exact Nat.le_trans h1 (h3 ▸ h2)
    calc a * 2 ^ 149 * 2 ^ 149 ≤ b * 2 ^ (23 + 142) * 2 ^ 149 := Nat.mul_le_mul_right _ h1
      _ = _ := by rw [Nat.mul_right_comm]
  have hno := roundMag_lt f32 num hd (k := 142) (by decide) hbound
  refine ⟨hno, ?_⟩
  rw [magVal_roundMag f32 num hd hno]
  obtain ⟨-, hlow⟩ := log2_bound f32 num hd
  generalize hk : ulpExp f32 num den = k at *
  -- den * 2^k is small against num
  have hkb : b * 2 ^ k < 2 ^ 142 ∨ k = 0 := by
    by_cases h0 : k = 0
    · exact .inr h0
    · left
      have h1 := hlow (by omega)
      have h2 : 2 ^ 23 * (b * 2 ^ 149 * 2 ^ k) ≤ a * 2 ^ 149 * 2 ^ 149 := h1
      have h3 : (2 ^ 23 * (b * 2 ^ k)) * 2 ^ 149 ≤ (a * 2 ^ 149) * 2 ^ 149 := by
        calc _ = _ := by
              rw [Nat.mul_assoc, Nat.mul_assoc b, Nat.mul_comm (2 ^ k), ← Nat.mul_assoc b]
          _ ≤ _ := h2
      have h4 := Nat.le_of_mul_le_mul_right h3 hp
      have h5 : a * 2 ^ 149 < 2 ^ 16 * 2 ^ 149 := Nat.mul_lt_mul_of_pos_right ha hp
      have h6 : 2 ^ 16 * 2 ^ 149 = 2 ^ 23 * 2 ^ 142 := by decide
      have h7 : 2 ^ 23 * (b * 2 ^ k) < 2 ^ 23 * 2 ^ 142 := by omega
      exact Nat.lt_of_mul_lt_mul_left h7
  have hk149 : k ≤ 149 := by
    rcases hkb with h | h
    · have : 2 ^ k ≤ b * 2 ^ k := Nat.le_mul_of_pos_left _ hb0
      have := (Nat.pow_lt_pow_iff_right (by decide : 1 < 2)).mp (Nat.lt_of_le_of_lt this h)
      omega
    · omega
  have hkb2 : b * 2 ^ k < 2 ^ 149 := by
    rcases hkb with h | h
    · exact Nat.lt_trans h (by decide)
    · rw [h, Nat.pow_zero, Nat.mul_one]; exact Nat.lt_trans hb (by decide)
  have hsplit : 2 ^ 149 = 2 ^ (149 - k) * 2 ^ k := by rw [← Nat.pow_add]; congr 1; omega
  have hdk : 0 < den * 2 ^ k := Nat.mul_pos hd (pow_pos2 k)
  have hq := Nat.div_add_mod a b
  have hqm := Nat.mod_lt a hb0
  generalize a / b = q at hq ⊢
  -- lower bound
  have hlo : q * 2 ^ (149 - k) ≤ rne num (den * 2 ^ k) := by
    apply rne_ge _ hdk
    show q * 2 ^ (149 - k) * (b * 2 ^ 149 * 2 ^ k) ≤ a * 2 ^ 149 * 2 ^ 149
    calc _ = b * q * (2 ^ (149 - k) * 2 ^ k) * 2 ^ 149 := by ac_rfl
      _ = b * q * 2 ^ 149 * 2 ^ 149 := by rw [← hsplit]
      _ ≤ _ := Nat.mul_le_mul_right _ (Nat.mul_le_mul_right _ (by omega))
  -- upper bound
  have hup : rne num (den * 2 ^ k) * 2 ^ k < (q + 1) * 2 ^ 149 := by
    have hb2 := (rne_bounds num hdk).2
    apply Nat.lt_of_mul_lt_mul_left (a := 2 * den)
    have e1 : 2 * (rne num (den * 2 ^ k) * (den * 2 ^ k)) =
        2 * den * (rne num (den * 2 ^ k) * 2 ^ k) := by ac_rfl
    rw [e1] at hb2
    apply Nat.lt_of_le_of_lt hb2
    show 2 * (a * 2 ^ 149 * 2 ^ 149) + b * 2 ^ 149 * 2 ^ k < 2 * (b * 2 ^ 149) * ((q + 1) * 2 ^ 149)
    have e2 : 2 * (a * 2 ^ 149 * 2 ^ 149) + b * 2 ^ 149 * 2 ^ k =
        (2 * (a * 2 ^ 149) + b * 2 ^ k) * 2 ^ 149 := by
      rw [Nat.add_mul]; congr 1 <;> ac_rfl
    have e3 : 2 * (b * 2 ^ 149) * ((q + 1) * 2 ^ 149) = (2 * (b * (q + 1) * 2 ^ 149)) * 2 ^ 149 := by ac_rfl
    rw [e2, e3]
    apply Nat.mul_lt_mul_of_pos_right _ hp
    have h1 : a + 1 ≤ b * (q + 1) := by rw [Nat.mul_add]; omega
    have h2 : (a + 1) * 2 ^ 149 ≤ b * (q + 1) * 2 ^ 149 := Nat.mul_le_mul_right _ h1
    rw [Nat.add_mul, Nat.one_mul] at h2
    omega
  have hlo' : q * 2 ^ 149 ≤ rne num (den * 2 ^ k) * 2 ^ k := by
    calc _ = q * 2 ^ (149 - k) * 2 ^ k := by rw [Nat.mul_assoc, ← hsplit]
      _ ≤ _ := Nat.mul_le_mul_right _ hlo
  exact Nat.div_eq_of_lt_le (by rw [Nat.mul_comm] at hlo'; rw [Nat.mul_comm]; exact hlo')
    (by exact hup)

/-- Division of two integers of at most 16 bits through single precision. -/
theorem div16_lane {a b : BitVec 32} (ha : a.toInt.natAbs < 2 ^ 16) (hb : b.toInt.natAbs < 2 ^ 16)
    (hb0 : b.toInt ≠ 0) :
    cvttF2I f32 (fDiv f32 (cvtI2F f32 32 a) (cvtI2F f32 32 b)) = BitVec.ofInt 32 (a.toInt.tdiv b.toInt) := by
  have hone : oneExp f32 = 149 := by decide
  have hw : f32.e + f32.m < 32 := by decide
  have lim : 2 ^ 16 ≤ 2 ^ (f32.m + 1) := by decide
  obtain ⟨va, fa, sa⟩ := cvtI2F_exact f32 hw (a := a) (r := a.toInt.natAbs) (j := 0)
    (by omega) (by rw [hone]; decide) (by omega)
  obtain ⟨vb, fb, sb⟩ := cvtI2F_exact f32 hw (a := b) (r := b.toInt.natAbs) (j := 0)
    (by omega) (by rw [hone]; decide) (by omega)
  rw [hone] at va vb
  generalize cvtI2F f32 32 a = x at *
  generalize cvtI2F f32 32 b = y at *
  obtain ⟨xn, xi⟩ := isFinite_not fa
  obtain ⟨yn, yi⟩ := isFinite_not fb
  have hpz : (2 : Int) ^ 149 ≠ 0 := by decide
  have hy0 : fval f32 y ≠ 0 := by rw [vb]; exact Int.mul_ne_zero hb0 hpz
  have nx : (fval f32 x).natAbs = a.toInt.natAbs * 2 ^ 149 := by
    rw [va, Int.natAbs_mul, Int.natAbs_pow]; rfl
  have ny : (fval f32 y).natAbs = b.toInt.natAbs * 2 ^ 149 := by
    rw [vb, Int.natAbs_mul, Int.natAbs_pow]; rfl
  obtain ⟨hno, hv⟩ := div_trunc ha (b := b.toInt.natAbs) (by omega) hb
  unfold fDiv
  simp only [xn, xi, yn, yi, Bool.false_eq_true, if_false, hy0]
  rw [nx, ny, hone, sa, sb]
  generalize hM : roundMag f32 (a.toInt.natAbs * 2 ^ 149 * 2 ^ 149) (b.toInt.natAbs * 2 ^ 149) = M at *
  have hM2 := Nat.lt_trans hno (infMag_lt f32)
  unfold cvttF2I
  rw [if_pos (isFinite_mk f32 hw _ hno), fval_mk f32 hw _ hM2, hone]
  have key : (if (decide (a.toInt < 0) != decide (b.toInt < 0)) = true then -(magVal f32 M : Int)
      else (magVal f32 M : Int)).tdiv (2 ^ 149) = a.toInt.tdiv b.toInt := by
    have e1 : ((magVal f32 M : Nat) : Int).tdiv (2 ^ 149) = ((a.toInt.natAbs / b.toInt.natAbs : Nat) : Int) := by
      rw [← hv]; rfl
    have e2 : a.toInt.tdiv b.toInt =
        if (decide (a.toInt < 0) != decide (b.toInt < 0)) = true then
          -((a.toInt.natAbs / b.toInt.natAbs : Nat) : Int)
        else ((a.toInt.natAbs / b.toInt.natAbs : Nat) : Int) := by
      rcases Int.lt_or_le a.toInt 0 with h1 | h1 <;> rcases Int.lt_or_le b.toInt 0 with h2 | h2
      · have ea : a.toInt = -(a.toInt.natAbs : Int) := by omega
        have eb : b.toInt = -(b.toInt.natAbs : Int) := by omega
        simp only [decide_eq_true h1, decide_eq_true h2]
        conv => lhs; rw [ea, eb, Int.neg_tdiv, Int.tdiv_neg, Int.neg_neg]
        rfl
      · have ea : a.toInt = -(a.toInt.natAbs : Int) := by omega
        have eb : b.toInt = (b.toInt.natAbs : Int) := by omega
        simp only [decide_eq_true h1, decide_eq_false (Int.not_lt.mpr h2)]
        conv => lhs; rw [ea, eb, Int.neg_tdiv]
        rfl
      · have ea : a.toInt = (a.toInt.natAbs : Int) := by omega
        have eb : b.toInt = -(b.toInt.natAbs : Int) := by omega
        simp only [decide_eq_false (Int.not_lt.mpr h1), decide_eq_true h2]
        conv => lhs; rw [ea, eb, Int.tdiv_neg]
        rfl
      · have ea : a.toInt = (a.toInt.natAbs : Int) := by omega
        have eb : b.toInt = (b.toInt.natAbs : Int) := by omega
        simp only [decide_eq_false (Int.not_lt.mpr h1), decide_eq_false (Int.not_lt.mpr h2)]
        conv => lhs; rw [ea, eb]
        rfl
    rw [e2]
    split
    · rw [Int.neg_tdiv, e1]
    · exact e1
  rw [key]
  unfold intOrIndefinite
  rw [if_pos]
  have : (a.toInt.tdiv b.toInt).natAbs ≤ a.toInt.natAbs := by
    rw [Int.natAbs_tdiv]; exact Nat.div_le_self _ _
  omega

end Vc.Lemma
