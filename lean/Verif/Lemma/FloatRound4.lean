import Verif.Lemma.FloatRound3

/-!
`round` of the scalar implementation.
-/

namespace Vc.Lemma

open Vc.Model Vc.Spec

/-- `round` of the scalar implementation, if no operation rounds: `x` is `z` times `2 ^ j` units, `2 ^ j`
is at most one half. -/
theorem sRound_spec {F : Fmt} {w : Nat} (hF : FmtW F w) {half one two x : BitVec w}
    (hhf : isFinite F half = true) (hhv : fval F half = 2 ^ (oneExp F - 1))
    (h1f : isFinite F one = true) (h1v : fval F one = 2 ^ oneExp F)
    (h2f : isFinite F two = true) (h2v : fval F two = 2 ^ (oneExp F + 1))
    (hx : isFinite F x = true) {z : Int} {j i : Nat} (hj : 1 ≤ j) (hij : j + i + 1 = oneExp F)
    (hz : fval F x = z * 2 ^ j) (hb : z.natAbs + 2 ^ (i + 2) ≤ 2 ^ (F.m + 1)) :
    isFinite F (sRound F half one two x) = true ∧
      ∃ n, fval F (sRound F half one two x) = n * 2 ^ oneExp F ∧ IsNearest (fval F x) (2 ^ oneExp F) n := by
  have hU : (0 : Int) < 2 ^ j := Int.pow_pos (by decide)
  have he : 0 < F.e := by cases hF <;> decide
  have hje : oneExp F + 5 < 2 ^ F.e := by cases hF <;> decide
  -- h = 2 ^ i: one half in units of 2 ^ j
  have hh : (0 : Int) < 2 ^ i := Int.pow_pos (by decide)
  have hd : (2 : Int) ^ oneExp F = 2 * 2 ^ i * 2 ^ j := by
    rw [← hij, show j + i + 1 = 1 + (i + j) from by omega, Int.pow_add, Int.pow_add, Int.mul_assoc]; rfl
  have hH : (2 : Int) ^ (oneExp F - 1) = 2 ^ i * 2 ^ j := by
    rw [← hij, show j + i + 1 - 1 = i + j from by omega, Int.pow_add]
  have h4 : ((2 ^ (i + 2) : Nat) : Int) = 4 * 2 ^ i := by
    rw [Nat.pow_add, Int.natCast_mul, Int.natCast_pow]; exact Int.mul_comm _ _
  have hb' : (z.natAbs : Int) + 4 * 2 ^ i ≤ ((2 ^ (F.m + 1) : Nat) : Int) := by rw [← h4]; omega
  generalize hhe : (2 : Int) ^ i = h at *
  generalize hM : 2 ^ (F.m + 1) = M at *
  -- x + 0.5
  have hA : fval F x + fval F half = (z + h) * 2 ^ j := by rw [hz, hhv, hH, Int.add_mul]
  have hadd := fAdd_exact F hF.lt hx hhf (r := (z + h).natAbs) (j := j) (by rw [hM]; omega) (by omega)
    (by rw [hA, natAbs_mul_pow])
  obtain ⟨n1f, n1, n1v, n1s⟩ := fRound_down hF hadd.2
  rw [hadd.1, hA] at n1s
  have n1lo : 2 * h * n1 ≤ z + h := by
    have := n1s.1
    rw [hd, ← Int.mul_assoc] at this
    have := Int.le_of_mul_le_mul_right this hU
    rw [Int.mul_comm]; exact this
  have n1hi : z + h < 2 * h * n1 + 2 * h := by
    have := n1s.2
    rw [hd, ← Int.mul_assoc] at this
    have := Int.lt_of_mul_lt_mul_right this (Int.le_of_lt hU)
    rw [Int.add_mul, Int.one_mul, Int.mul_comm n1] at this; exact this
  -- x * 0.5
  have hm : fval F (fMul F x half) * 2 ^ oneExp F = fval F x * fval F half ∧ isFinite F (fMul F x half) = true := by
    apply fMul_exact F hF.lt hx hhf (r := z.natAbs) (j := j - 1) (by rw [hM]; omega) (by omega)
    rw [hz, hhv, natAbs_mul_pow, Int.natAbs_pow, show Int.natAbs 2 = 2 from rfl, Nat.mul_assoc, Nat.mul_assoc, ← Nat.pow_add,
      ← Nat.pow_add]
    congr 2; omega
  have hmv : fval F (fMul F x half) = z * 2 ^ (j - 1) := by
    apply mul_pow_inj (k := oneExp F)
    rw [hm.1, hz, hhv, Int.mul_assoc, Int.mul_assoc, ← Int.pow_add, ← Int.pow_add]
    congr 2; omega
  obtain ⟨n2f, n2, n2v, n2s⟩ := fRound_down hF hm.2
  rw [hmv] at n2s
  have hU1 : (0 : Int) < 2 ^ (j - 1) := Int.pow_pos (by decide)
  have hd1 : (2 : Int) ^ oneExp F = 4 * h * 2 ^ (j - 1) := by
    rw [hd, show (2 : Int) ^ j = 2 * 2 ^ (j - 1) from by
      rw [show j = 1 + (j - 1) from by omega, Int.pow_add, show 1 + (j - 1) - 1 = j - 1 from by omega]; rfl]
    rw [← Int.mul_assoc]; congr 1; omega
  have n2lo : 4 * h * n2 ≤ z := by
    have := n2s.1
    rw [hd1, ← Int.mul_assoc] at this
    have := Int.le_of_mul_le_mul_right this hU1
    rw [Int.mul_comm]; exact this
  have n2hi : z < 4 * h * n2 + 4 * h := by
    have := n2s.2
    rw [hd1, ← Int.mul_assoc] at this
    have := Int.lt_of_mul_lt_mul_right this (Int.le_of_lt hU1)
    rw [Int.add_mul, Int.one_mul, Int.mul_comm n2] at this; exact this
  have hn2 : n2.natAbs ≤ M := by
    have hn : ∀ k : Int, 4 * h * k ≤ z → z < 4 * h * k + 4 * h → k.natAbs ≤ M := by
      intro k k1 k2
      have hk : (k.natAbs : Int) ≤ h * k.natAbs := by
        have := Int.mul_le_mul_of_nonneg_right (show (1 : Int) ≤ h from hh) (Int.natCast_nonneg k.natAbs)
        rw [Int.one_mul] at this; exact this
      rcases Int.natAbs_eq k with e | e
      · rw [e, Int.mul_assoc] at k1; omega
      · rw [e, Int.mul_assoc, Int.mul_neg, Int.mul_neg] at k2; omega
    exact hn n2 n2lo n2hi
  have hf : fval F (fMul F (fRound F .down (fMul F x half)) two) * 2 ^ oneExp F =
      fval F (fRound F .down (fMul F x half)) * fval F two ∧
      isFinite F (fMul F (fRound F .down (fMul F x half)) two) = true := by
    apply fMul_exact F hF.lt n2f h2f (r := n2.natAbs) (j := oneExp F + 1) (by rw [hM]; exact hn2) (by omega)
    rw [n2v, h2v, natAbs_mul_pow, Int.natAbs_pow, show Int.natAbs 2 = 2 from rfl, Nat.mul_assoc, Nat.mul_assoc,
      Nat.mul_comm (2 ^ oneExp F)]
  have hfv : fval F (fMul F (fRound F .down (fMul F x half)) two) = (4 * h * n2) * 2 ^ j := by
    apply mul_pow_inj (k := oneExp F)
    rw [hf.1, n2v, h2v, Int.pow_add, show ((2 : Int) ^ 1) = 2 from rfl, hd]
    generalize (2 : Int) ^ j = U
    simp only [Int.mul_comm, Int.mul_left_comm, Int.mul_assoc]
    rw [show (4 : Int) = 2 * 2 from rfl]
  have hs : fval F x - fval F (fMul F (fRound F .down (fMul F x half)) two) = (z - 4 * h * n2) * 2 ^ j := by
    rw [hz, hfv, Int.sub_mul]
  have hsub := fSub_exact F hF.lt hx hf.2 (r := (z - 4 * h * n2).natAbs) (j := j) (by rw [hM]; omega) (by omega)
    (by rw [hs, natAbs_mul_pow])
  have heven : realIsEvenHalf F half two x = decide (z - 4 * h * n2 = h) := by
    unfold realIsEvenHalf
    simp only
    rw [fEq_fin hsub.2 hhf, hsub.1, hs, hhv, hH, decide_eq_decide]
    constructor
    · exact fun e => mul_pow_inj e
    · intro e; rw [e]
  -- the final subtraction
  have hb2 : ((2 : Nat) : Int) * n1.natAbs ≤ z.natAbs + 3 * h := by
    have hk : (n1.natAbs : Int) ≤ h * n1.natAbs := by
      have := Int.mul_le_mul_of_nonneg_right (show (1 : Int) ≤ h from hh) (Int.natCast_nonneg n1.natAbs)
      rw [Int.one_mul] at this; exact this
    rcases Int.natAbs_eq n1 with e | e
    · rw [e, Int.mul_assoc] at n1lo; omega
    · rw [e, Int.mul_assoc, Int.mul_neg, Int.mul_neg] at n1hi; omega
  have final : ∀ (b : BitVec w) (k : Int), isFinite F b = true → fval F b = k * 2 ^ oneExp F → (k = 0 ∨ k = 1) →
      isFinite F (fSub F (fRound F .down (fAdd F x half)) b) = true ∧
      fval F (fSub F (fRound F .down (fAdd F x half)) b) = (n1 - k) * 2 ^ oneExp F := by
    intro b k bf bv hk
    have e : fval F (fRound F .down (fAdd F x half)) - fval F b = (n1 - k) * 2 ^ oneExp F := by
      rw [n1v, bv, Int.sub_mul]
    have := fSub_exact F hF.lt n1f bf (r := (n1 - k).natAbs) (j := oneExp F) (by rw [hM]; omega) (by omega)
      (by rw [e, natAbs_mul_pow])
    exact ⟨this.2, this.1.trans e⟩
  unfold sRound
  rw [heven]
  by_cases hc : z - 4 * h * n2 = h
  · rw [decide_eq_true hc, if_pos rfl]
    obtain ⟨r1, r2⟩ := final one 1 h1f (by rw [h1v, Int.one_mul]) (.inr rfl)
    have hn : n1 = 2 * n2 + 1 := by
      apply floor_uniq (D := 2 * h) (t := z + h) (by omega) n1lo n1hi
      · rw [Int.mul_add, Int.mul_one, ← Int.mul_assoc, Int.mul_assoc 2 h 2, Int.mul_comm h 2, ← Int.mul_assoc]
        simp only [show (2 : Int) * 2 = 4 from rfl]; omega
      · rw [Int.mul_add, Int.mul_one, ← Int.mul_assoc, Int.mul_assoc 2 h 2, Int.mul_comm h 2, ← Int.mul_assoc]
        simp only [show (2 : Int) * 2 = 4 from rfl]; omega
    refine ⟨r1, _, r2, ?_⟩
    have e2 : (n1 - 1) * 2 ^ oneExp F = (4 * h * n2) * 2 ^ j := by
      rw [hn, hd, Int.add_sub_cancel, ← Int.mul_assoc]
      congr 1
      rw [Int.mul_comm, ← Int.mul_assoc, Int.mul_assoc 2 h 2, Int.mul_comm h 2, ← Int.mul_assoc]
      rfl
    unfold IsNearest
    rw [e2, hz, show z = 4 * h * n2 + h from by omega, Int.add_mul, hd, Int.mul_assoc 2 h]
    have hp : 0 < h * 2 ^ j := Int.mul_pos hh hU
    generalize 4 * h * n2 * 2 ^ j = P
    generalize h * 2 ^ j = Q at *
    refine ⟨by omega, by omega, fun _ => by omega⟩
  · rw [decide_eq_false hc, if_neg (by decide)]
    obtain ⟨r1, r2⟩ := final 0#w 0 (isFinite_zero F he w) (by rw [fval_zero, Int.zero_mul]) (.inl rfl)
    rw [Int.sub_zero] at r2
    refine ⟨r1, _, r2, ?_⟩
    have e2 : n1 * 2 ^ oneExp F = (2 * h * n1) * 2 ^ j := by
      rw [hd, ← Int.mul_assoc, Int.mul_comm n1]
    have l1 := Int.mul_le_mul_of_nonneg_right n1lo (Int.le_of_lt hU)
    have l2 := Int.mul_lt_mul_of_pos_right n1hi hU
    rw [Int.add_mul] at l1 l2
    rw [Int.add_mul, Int.mul_assoc 2 h (2 ^ j)] at l2
    have ht : n1 * 2 ^ oneExp F = z * 2 ^ j + h * 2 ^ j → n1 % 2 = 0 := by
      intro hq
      rw [e2, ← Int.add_mul] at hq
      have hq := mul_pow_inj hq
      rcases Int.emod_two_eq n1 with h0 | h0
      · exact h0
      · exfalso
        apply hc
        have hk : n1 = 2 * (n1 / 2) + 1 := by omega
        have e4 : 2 * h * n1 = 4 * h * (n1 / 2) + 2 * h := by
          conv => lhs; rw [hk]
          rw [Int.mul_add, Int.mul_one, ← Int.mul_assoc, Int.mul_assoc 2 h 2, Int.mul_comm h 2, ← Int.mul_assoc]
          simp only [show (2 : Int) * 2 = 4 from rfl]
        have hn : n2 = n1 / 2 := by
          apply floor_uniq (D := 4 * h) (t := z) (by omega) n2lo n2hi <;> omega
        rw [hn]; omega
    unfold IsNearest
    rw [e2, hz, hd, Int.mul_assoc 2 h (2 ^ j)]
    rw [e2] at ht
    generalize 2 * h * n1 * 2 ^ j = P at *
    generalize h * 2 ^ j = Q at *
    generalize z * 2 ^ j = R at *
    refine ⟨by omega, by omega, ?_⟩
    rintro (hq | hq)
    · omega
    · exact ht (by omega)

end Vc.Lemma
