import Mathlib.Analysis.SpecialFunctions.Complex.Arctan
import Mathlib.Analysis.SpecificLimits.Normed
import Mathlib.Tactic.Linarith
import Mathlib.Tactic.Ring

/-!
Fifty digits of `π`, from Machin's formula and the power series of the arctangent.
-/

namespace Vc.Lemma

/-- The first `n` terms of the series of `arctan t`, as rational numbers. -/
def atanSum (t : ℚ) (n : Nat) : ℚ := ∑ i ∈ Finset.range n, (-1) ^ i * t ^ (2 * i + 1) / (2 * i + 1 : Nat)

theorem arctan_series {t : ℝ} (ht : |t| < 1) (n : Nat) :
    |(∑ i ∈ Finset.range n, (-1) ^ i * t ^ (2 * i + 1) / ((2 * i + 1 : Nat) : ℝ)) - Real.arctan t| ≤
      |t| * (t ^ 2) ^ n / (1 - t ^ 2) := by
  have h1 : t ^ 2 < 1 := by
    rw [← sq_abs]
    nlinarith [abs_nonneg t]
  have := norm_sub_le_of_geometric_bound_of_hasSum (C := |t|) (r := t ^ 2) h1 (fun i => ?_) (Real.hasSum_arctan (by simpa using ht)) n
  · exact this
  · rw [Real.norm_eq_abs, abs_div, abs_mul, abs_pow, abs_neg, abs_one, one_pow, one_mul, abs_pow, pow_succ, pow_mul, sq_abs,
      mul_comm (|t|)]
    refine div_le_self (by positivity) ?_
    rw [Nat.abs_cast]
    exact_mod_cast (by omega : 1 ≤ 2 * i + 1)

theorem arctan_sum {t : ℚ} (h0 : 0 ≤ t) (ht : t < 1) (n : Nat) :
    |((atanSum t n : ℚ) : ℝ) - Real.arctan t| ≤ ((t * (t ^ 2) ^ n / (1 - t ^ 2) : ℚ) : ℝ) := by
  have h0' : (0 : ℝ) ≤ t := by exact_mod_cast h0
  have := arctan_series (t := (t : ℝ)) (by rw [abs_of_nonneg h0']; exact_mod_cast ht) n
  rw [abs_of_nonneg h0'] at this
  unfold atanSum
  push_cast at this ⊢
  exact this

theorem machin_lo : (3.14159265358979323846264338327950288419716939937510 : ℚ) ≤
    4 * (4 * (atanSum (1 / 5) 37 - (1 / 5) * ((1 / 5) ^ 2) ^ 37 / (1 - (1 / 5) ^ 2)) -
      (atanSum (1 / 239) 11 + (1 / 239) * ((1 / 239) ^ 2) ^ 11 / (1 - (1 / 239) ^ 2))) := by decide +kernel

theorem machin_hi : 4 * (4 * (atanSum (1 / 5) 37 + (1 / 5) * ((1 / 5) ^ 2) ^ 37 / (1 - (1 / 5) ^ 2)) -
      (atanSum (1 / 239) 11 - (1 / 239) * ((1 / 239) ^ 2) ^ 11 / (1 - (1 / 239) ^ 2))) ≤
    (3.14159265358979323846264338327950288419716939937511 : ℚ) := by decide +kernel

theorem pi_gt_d50 : (3.14159265358979323846264338327950288419716939937510 : ℝ) ≤ Real.pi := by
  have h := Real.four_mul_arctan_inv_5_sub_arctan_inv_239
  have a := arctan_sum (t := 1 / 5) (by norm_num) (by norm_num) 37
  have b := arctan_sum (t := 1 / 239) (by norm_num) (by norm_num) 11
  have c := (Rat.cast_le (K := ℝ)).mpr machin_lo
  rw [show (((1 / 5 : ℚ)) : ℝ) = 5⁻¹ by norm_num, abs_le] at a
  rw [show (((1 / 239 : ℚ)) : ℝ) = 239⁻¹ by norm_num, abs_le] at b
  rw [show ((3.14159265358979323846264338327950288419716939937510 : ℚ) : ℝ) =
    3.14159265358979323846264338327950288419716939937510 by norm_num] at c
  generalize Real.pi = p at *
  generalize Real.arctan 5⁻¹ = x at *
  generalize Real.arctan 239⁻¹ = y at *
  generalize (1 / 5 : ℚ) * ((1 / 5) ^ 2) ^ 37 / (1 - (1 / 5) ^ 2) = e at *
  generalize (1 / 239 : ℚ) * ((1 / 239) ^ 2) ^ 11 / (1 - (1 / 239) ^ 2) = f at *
  generalize atanSum (1 / 5) 37 = s at *
  generalize atanSum (1 / 239) 11 = t at *
  push_cast at c
  linarith [a.1, a.2, b.1, b.2]

theorem pi_lt_d50 : Real.pi ≤ 3.14159265358979323846264338327950288419716939937511 := by
  have h := Real.four_mul_arctan_inv_5_sub_arctan_inv_239
  have a := arctan_sum (t := 1 / 5) (by norm_num) (by norm_num) 37
  have b := arctan_sum (t := 1 / 239) (by norm_num) (by norm_num) 11
  have c := (Rat.cast_le (K := ℝ)).mpr machin_hi
  rw [show (((1 / 5 : ℚ)) : ℝ) = 5⁻¹ by norm_num, abs_le] at a
  rw [show (((1 / 239 : ℚ)) : ℝ) = 239⁻¹ by norm_num, abs_le] at b
  rw [show ((3.14159265358979323846264338327950288419716939937511 : ℚ) : ℝ) =
    3.14159265358979323846264338327950288419716939937511 by norm_num] at c
  generalize Real.pi = p at *
  generalize Real.arctan 5⁻¹ = x at *
  generalize Real.arctan 239⁻¹ = y at *
  generalize (1 / 5 : ℚ) * ((1 / 5) ^ 2) ^ 37 / (1 - (1 / 5) ^ 2) = e at *
  generalize (1 / 239 : ℚ) * ((1 / 239) ^ 2) ^ 11 / (1 - (1 / 239) ^ 2) = f at *
  generalize atanSum (1 / 5) 37 = s at *
  generalize atanSum (1 / 239) 11 = t at *
  push_cast at c
  linarith [a.1, a.2, b.1, b.2]

end Vc.Lemma
