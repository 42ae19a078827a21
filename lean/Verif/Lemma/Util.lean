import Verif.Model.Util
import Verif.Spec.Util

namespace Vc.Lemma
open Vc.Model Vc.Spec

theorem le_nextPow2 (x : Nat) : x ≤ nextPow2 x := by
  fun_induction nextPow2 x with
  | case1 x h => exact Nat.le_refl _
  | case2 x h ih => have := lt_nextPow2Step x; omega

theorem nextPow2_le_two_pow (x k : Nat) (hx : x ≤ 2 ^ k) : nextPow2 x ≤ 2 ^ k := by
  fun_induction nextPow2 x with
  | case1 x h => exact hx
  | case2 x h ih =>
    apply ih
    have : x < 2 ^ k := Nat.lt_of_le_of_ne hx (ne_two_pow_of_and h)
    exact or_shifts_lt this

theorem and_sub_one_nextPow2 (x : Nat) : (nextPow2 x &&& (nextPow2 x - 1)) = 0 := by
  fun_induction nextPow2 x with
  | case1 x h => exact h
  | case2 x h ih => exact ih

/-- `x & (x-1) = 0` with `x > 0` means power of two. -/
theorem isPow2_of_and {x : Nat} (hx : 0 < x) (h : (x &&& (x - 1)) = 0) : IsPow2 x := by
  refine ⟨x.log2, ?_⟩
  have h1 : 2 ^ x.log2 ≤ x := Nat.log2_self_le (by omega)
  have h2 : x < 2 ^ (x.log2 + 1) := Nat.lt_log2_self
  by_cases he : x = 2 ^ x.log2
  · exact he
  · exfalso
    have h3 : 2 ^ x.log2 ≤ x - 1 := by omega
    have t1 : x.testBit x.log2 = true := by
      rw [Nat.testBit_eq_decide_div_mod_eq]
      have : x / 2 ^ x.log2 = 1 := by
        rw [Nat.div_eq_iff (Nat.two_pow_pos _)]
        rw [Nat.pow_succ] at h2; omega
      simp [this]
    have t2 : (x - 1).testBit x.log2 = true := by
      rw [Nat.testBit_eq_decide_div_mod_eq]
      have : (x - 1) / 2 ^ x.log2 = 1 := by
        rw [Nat.div_eq_iff (Nat.two_pow_pos _)]
        rw [Nat.pow_succ] at h2; omega
      simp [this]
    have := congrArg (fun y => Nat.testBit y x.log2) h
    simp [Nat.testBit_and, t1, t2] at this

theorem isPow2_nextPow2 {x : Nat} (hx : 1 ≤ x) : IsPow2 (nextPow2 x) :=
  isPow2_of_and (Nat.lt_of_lt_of_le hx (le_nextPow2 x)) (and_sub_one_nextPow2 x)

theorem nextPow2_isLeast {x : Nat} (hx : 1 ≤ x) : IsLeastPow2 x (nextPow2 x) := by
  refine ⟨isPow2_nextPow2 hx, le_nextPow2 x, ?_⟩
  rintro q ⟨k, rfl⟩ hq
  exact nextPow2_le_two_pow x k hq

theorem nextPow2_of_isPow2 {x : Nat} (h : IsPow2 x) : nextPow2 x = x := by
  obtain ⟨k, rfl⟩ := h
  exact Nat.le_antisymm (nextPow2_le_two_pow _ _ (Nat.le_refl _)) (le_nextPow2 _)

theorem nextPow2_lt_two_mul {x : Nat} (hx : 1 ≤ x) : nextPow2 x < 2 * x := by
  obtain ⟨⟨k, hk⟩, h1, h2⟩ := nextPow2_isLeast hx
  match k with
  | 0 => rw [hk]; omega
  | k + 1 =>
    by_cases h : x ≤ 2 ^ k
    · have := h2 (2 ^ k) ⟨k, rfl⟩ h
      rw [hk, Nat.pow_succ] at this
      have := Nat.two_pow_pos k
      omega
    · rw [hk, Nat.pow_succ]; omega

theorem one_le_leftSize {n : Nat} (h : 1 ≤ n) : 1 ≤ leftSize n := by
  have := le_nextPow2 ((n + 1) / 2); unfold leftSize; omega

theorem leftSize_lt {n : Nat} (h : 2 ≤ n) : leftSize n < n := by
  unfold leftSize
  have h1 := nextPow2_lt_two_mul (x := (n + 1) / 2) (by omega)
  by_cases h2 : n % 2 = 0
  · omega
  · by_cases h3 : nextPow2 ((n + 1) / 2) < n
    · exact h3
    · exfalso
      obtain ⟨k, hk⟩ := isPow2_nextPow2 (x := (n + 1) / 2) (by omega)
      have h4 : 2 ^ k = n := by omega
      match k with
      | 0 => omega
      | k + 1 => rw [Nat.pow_succ] at h4; omega

theorem leftSize_add_rightSize {n : Nat} (h : 2 ≤ n) : leftSize n + rightSize n = n := by
  have := leftSize_lt h; unfold rightSize; omega

theorem one_le_rightSize {n : Nat} (h : 2 ≤ n) : 1 ≤ rightSize n := by
  have := leftSize_lt h; unfold rightSize; omega

theorem rightSize_le_leftSize (n : Nat) : rightSize n ≤ leftSize n := by
  have := le_nextPow2 ((n + 1) / 2); unfold rightSize leftSize; omega

theorem rightSize_lt {n : Nat} (h : 2 ≤ n) : rightSize n < n := by
  have := one_le_leftSize (n := n) (by omega)
  have := leftSize_add_rightSize h
  omega

/-- Both halves are equal exactly for powers of two. -/
theorem leftSize_eq_rightSize_iff {n : Nat} (h : 2 ≤ n) :
    leftSize n = rightSize n ↔ IsPow2 n := by
  have hs := leftSize_add_rightSize h
  obtain ⟨k, hk⟩ := isPow2_nextPow2 (x := (n + 1) / 2) (by omega)
  constructor
  · intro he
    refine ⟨k + 1, ?_⟩
    have : leftSize n = 2 ^ k := hk
    rw [Nat.pow_succ]; omega
  · rintro ⟨j, hj⟩
    match j with
    | 0 => omega
    | j + 1 =>
      have e : (n + 1) / 2 = 2 ^ j := by rw [hj, Nat.pow_succ]; omega
      have : leftSize n = 2 ^ j := by
        unfold leftSize; rw [e]; exact nextPow2_of_isPow2 ⟨j, rfl⟩
      rw [Nat.pow_succ] at hj
      omega

end Vc.Lemma
