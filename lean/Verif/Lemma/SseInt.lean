import Verif.Model.SseInt
import Verif.Lemma.Reg
import Verif.Spec.Lane

namespace Vc.Lemma
open Vc.Model Vc.Spec

theorem xor_two_pow_lt {k n : Nat} (h : n < 2 ^ k) : n ^^^ 2 ^ k = 2 ^ k + n := by
  apply Nat.eq_of_testBit_eq
  intro j
  rw [Nat.testBit_xor, Nat.testBit_two_pow]
  by_cases hj : j < k
  · rw [Nat.testBit_two_pow_add_gt hj]
    have : k ≠ j := by omega
    simp [this]
  · by_cases hjk : j = k
    · subst hjk
      rw [Nat.testBit_two_pow_add_eq, Nat.testBit_lt_two_pow h]
      simp
    · have h2 : 2 ^ (k + 1) ≤ 2 ^ j := Nat.pow_le_pow_right (by decide) (by omega)
      have h3 : 2 ^ (k + 1) = 2 ^ k + 2 ^ k := by rw [Nat.pow_succ]; omega
      rw [Nat.testBit_lt_two_pow (x := n) (by omega), Nat.testBit_lt_two_pow (by omega)]
      have : k ≠ j := by omega
      simp [this]

theorem xor_two_pow_ge {k n : Nat} (h1 : 2 ^ k ≤ n) (h : n < 2 ^ (k + 1)) :
    n ^^^ 2 ^ k = n - 2 ^ k := by
  have h3 : 2 ^ (k + 1) = 2 ^ k + 2 ^ k := by rw [Nat.pow_succ]; omega
  have h4 : n - 2 ^ k < 2 ^ k := by omega
  have h5 : n = (n - 2 ^ k) ^^^ 2 ^ k := by rw [xor_two_pow_lt h4]; omega
  conv => lhs; rw [h5]
  rw [Nat.xor_assoc, Nat.xor_self, Nat.xor_zero]

/-- Flipping the sign bit turns the unsigned value into a signed one, shifted by half the range. -/
theorem toInt_xor_signBit {w : Nat} (hw : 0 < w) (a : BitVec w) :
    (a ^^^ signBit w).toInt = (a.toNat : Int) - 2 ^ (w - 1) := by
  obtain ⟨k, rfl⟩ : ∃ k, w = k + 1 := ⟨w - 1, by omega⟩
  have ha := a.isLt
  have h3 : 2 ^ (k + 1) = 2 ^ k + 2 ^ k := by rw [Nat.pow_succ]; omega
  have hs : (signBit (k + 1)).toNat = 2 ^ k := by
    have : 2 ^ k < 2 ^ (k + 1) := by have := Nat.two_pow_pos k; omega
    simp [signBit, Nat.mod_eq_of_lt this]
  have hp : ((2 : Int) ^ k) = ((2 ^ k : Nat) : Int) := by simp
  rw [BitVec.toInt_eq_toNat_cond, BitVec.toNat_xor, hs]
  simp only [Nat.add_sub_cancel]
  rw [hp]
  by_cases h : a.toNat < 2 ^ k
  · rw [xor_two_pow_lt h]
    rw [if_neg (by omega)]
    omega
  · rw [xor_two_pow_ge (by omega) ha]
    rw [if_pos (by omega)]
    omega

theorem lane_setmin {w i : Nat} (h : w * (i + 1) ≤ 128) : lane w (setmin w) i = signBit w :=
  lane_set1 _ h

theorem lane_cmpgtEpu {w i : Nat} (hw : 0 < w) (h : w * (i + 1) ≤ 128) (a b : M128) :
    lane w (cmpgtEpu w a b) i = laneMask (decide ((lane w b i).toNat < (lane w a i).toNat)) := by
  unfold cmpgtEpu cmpgtEpi
  rw [lane_map2 _ _ _ h, lane_xor, lane_xor, lane_setmin h, toInt_xor_signBit hw,
    toInt_xor_signBit hw]
  congr 1
  apply decide_eq_decide.mpr
  omega

theorem lane_cmpltEpu {w i : Nat} (hw : 0 < w) (h : w * (i + 1) ≤ 128) (a b : M128) :
    lane w (cmpltEpu w a b) i = laneMask (decide ((lane w a i).toNat < (lane w b i).toNat)) := by
  unfold cmpltEpu cmpltEpi
  rw [lane_map2 _ _ _ h, lane_xor, lane_xor, lane_setmin h, toInt_xor_signBit hw,
    toInt_xor_signBit hw]
  congr 1
  apply decide_eq_decide.mpr
  omega

theorem lane_vnot {w i : Nat} (h : w * (i + 1) ≤ 128) (a : M128) :
    lane w (vnot a) i = ~~~lane w a i := by
  unfold vnot andnot
  rw [lane_and, lane_not _ h, lane_allOnes h]
  simp

theorem not_laneMask {w : Nat} (b : Bool) : ~~~(laneMask b : BitVec w) = laneMask (!b) := by
  cases b <;> simp [laneMask]

/-- Narrow lanes of a uniform mask lane. -/
theorem lane_laneMask {v c j : Nat} (hj : j < c) (p : Bool) :
    lane v (laneMask p : BitVec (v * c)) j = laneMask p := by
  cases p
  · simp [laneMask, lane_zero]
  · simp only [laneMask, if_true]
    apply lane_allOnes
    exact Nat.mul_le_mul_left _ hj

/-- Both implementations of the variable blend agree on mask lanes that are uniform. -/
theorem lane_blendv (I : Isa) {w v c i : Nat} (hw : w = v * c) (hv : 0 < v)
    (h : w * (i + 1) ≤ 128) (x y m : M128) {p : Bool} (hm : lane w m i = laneMask p) :
    lane w (blendv I v x y m) i = if p then lane w y i else lane w x i := by
  subst hw
  unfold blendv
  by_cases h41 : I.sse41 = true
  · rw [if_pos h41]
    apply lane_ext hv
    intro j hj
    have hr : v * (c * i + j + 1) ≤ 128 := by
      have : c * i + j + 1 ≤ c * (i + 1) := by rw [Nat.mul_add]; omega
      have := Nat.mul_le_mul_left v this
      rw [← Nat.mul_assoc] at this
      omega
    rw [lane_lane _ _ _ _ hj, lane_blendvIntr _ _ _ hr, ← lane_lane v c m i hj, hm,
      lane_laneMask hj, laneMask_msb hv]
    cases p <;> simp [lane_lane _ _ _ _ hj]
  · rw [if_neg h41]
    unfold andnot
    rw [lane_or, lane_and, lane_and, lane_not _ h, hm]
    cases p <;> simp [laneMask]

theorem ite_decide {α : Type} (p : Prop) [Decidable p] (a b : α) :
    (if decide p = true then a else b) = if p then a else b := by
  by_cases h : p <;> simp [h]

theorem lane_vmaxEpi (I : Isa) {w c i : Nat} (hw : w = 8 * c)
    (h : w * (i + 1) ≤ 128) (a b : M128) :
    lane w (vmaxEpi I w a b) i =
      if (lane w b i).toInt < (lane w a i).toInt then lane w a i else lane w b i := by
  unfold vmaxEpi
  by_cases h1 : (I.sse41 || w == 16) = true
  · rw [if_pos h1, maxEpi, lane_map2 _ _ _ h]
  · rw [if_neg h1, lane_blendv I hw (by decide) h _ _ _ (lane_map2 _ _ _ h), ite_decide]

theorem lane_vminEpi (I : Isa) {w c i : Nat} (hw : w = 8 * c)
    (h : w * (i + 1) ≤ 128) (a b : M128) :
    lane w (vminEpi I w a b) i =
      if (lane w b i).toInt < (lane w a i).toInt then lane w b i else lane w a i := by
  unfold vminEpi
  by_cases h1 : (I.sse41 || w == 16) = true
  · rw [if_pos h1, minEpi, lane_map2 _ _ _ h]
    by_cases h2 : (lane w a i).toInt < (lane w b i).toInt
    · rw [if_pos h2, if_neg (by omega)]
    · rw [if_neg h2]
      by_cases h3 : (lane w b i).toInt < (lane w a i).toInt
      · rw [if_pos h3]
      · rw [if_neg h3]; exact BitVec.eq_of_toInt_eq (by omega)
  · rw [if_neg h1, lane_blendv I hw (by decide) h _ _ _ (lane_map2 _ _ _ h), ite_decide]

theorem lane_vmaxEpu (I : Isa) {w c i : Nat} (hw : w = 8 * c) (hc : 0 < c)
    (h : w * (i + 1) ≤ 128) (a b : M128) :
    lane w (vmaxEpu I w a b) i =
      if (lane w b i).toNat < (lane w a i).toNat then lane w a i else lane w b i := by
  unfold vmaxEpu
  by_cases h1 : (I.sse41 || w == 8) = true
  · rw [if_pos h1, maxEpu, lane_map2 _ _ _ h]
  · rw [if_neg h1, lane_blendv I hw (by decide) h _ _ _ (lane_cmpgtEpu (by omega) h a b),
      ite_decide]

theorem lane_vminEpu (I : Isa) {w c i : Nat} (hw : w = 8 * c) (hc : 0 < c)
    (h : w * (i + 1) ≤ 128) (a b : M128) :
    lane w (vminEpu I w a b) i =
      if (lane w b i).toNat < (lane w a i).toNat then lane w b i else lane w a i := by
  unfold vminEpu
  by_cases h1 : (I.sse41 || w == 8) = true
  · rw [if_pos h1, minEpu, lane_map2 _ _ _ h]
    by_cases h2 : (lane w a i).toNat < (lane w b i).toNat
    · rw [if_pos h2, if_neg (by omega)]
    · rw [if_neg h2]
      by_cases h3 : (lane w b i).toNat < (lane w a i).toNat
      · rw [if_pos h3]
      · rw [if_neg h3]; exact BitVec.eq_of_toNat_eq (by omega)
  · rw [if_neg h1, lane_blendv I hw (by decide) h _ _ _ (lane_cmpgtEpu (by omega) h a b),
      ite_decide]

/-- The value of a lane of `v + v` bits from its halves. -/
theorem toNat_halves {v : Nat} (x : BitVec (v * 2)) :
    x.toNat = (lane v x 1).toNat * 2 ^ v + (lane v x 0).toNat := by
  have h2 : v * 2 = v + v := by omega
  have hx : x.toNat < 2 ^ v * 2 ^ v := by rw [← Nat.pow_add, ← h2]; exact x.isLt
  simp only [lane, BitVec.extractLsb'_toNat, Nat.mul_one, Nat.mul_zero,
    Nat.shiftRight_eq_div_pow, Nat.pow_zero, Nat.div_one]
  rw [Nat.mod_eq_of_lt (Nat.div_lt_of_lt_mul hx), Nat.div_add_mod']

theorem halves_arith (q m l : Nat) (hl : l < 2 * q) :
    (if 2 * (m * (2 * q) + l) < 2 * q * (2 * q) then ((m * (2 * q) + l : Nat) : Int)
      else ((m * (2 * q) + l : Nat) : Int) - ((2 * q * (2 * q) : Nat) : Int)) =
    (if 2 * m < 2 * q then (m : Int) else (m : Int) - ((2 * q : Nat) : Int)) * ((2 * q : Nat) : Int)
      + (l : Int) := by
  have h2 : 2 * q * (2 * q) = 2 * (q * (2 * q)) := by rw [Nat.mul_assoc]
  by_cases hm : 2 * m < 2 * q
  · rw [if_pos hm, if_pos]
    · simp
    · have h1 : m * (2 * q) + 2 * q ≤ q * (2 * q) := by
        have : (m + 1) * (2 * q) ≤ q * (2 * q) := Nat.mul_le_mul_right _ (by omega)
        rw [Nat.add_mul] at this; omega
      omega
  · rw [if_neg hm, if_neg]
    · rw [Int.sub_mul]
      simp only [Int.natCast_add, Int.natCast_mul]
      omega
    · have h1 : q * (2 * q) ≤ m * (2 * q) := Nat.mul_le_mul_right _ (by omega)
      omega

theorem toInt_halves {v : Nat} (hv : 0 < v) (x : BitVec (v * 2)) :
    x.toInt = (lane v x 1).toInt * 2 ^ v + (lane v x 0).toNat := by
  have hn := toNat_halves x
  have hl : (lane v x 0).toNat < 2 ^ v := (lane v x 0).isLt
  have hcast : ((2 : Int) ^ v) = ((2 ^ v : Nat) : Int) := by simp
  have hp2 : 2 ^ (v * 2) = 2 ^ v * 2 ^ v := by rw [← Nat.pow_add]; congr 1; omega
  have hp : 2 ^ v = 2 * 2 ^ (v - 1) := by
    conv => lhs; rw [show v = v - 1 + 1 by omega, Nat.pow_succ]
    omega
  rw [BitVec.toInt_eq_toNat_cond, BitVec.toInt_eq_toNat_cond, hn, hcast, hp2, hp]
  rw [hp] at hl
  exact halves_arith _ _ _ hl

end Vc.Lemma
