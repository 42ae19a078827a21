import Verif.Lemma.SseInt

namespace Vc.Lemma
open Vc.Model Vc.Spec

/-- Shifting the lanes of width `2*v` right by `v` moves the high half down. -/
theorem lane_srli_half {n v i : Nat} (h : v * 2 * (i + 1) ≤ n) (x : BitVec n) :
    lane v (srliEpi (v * 2) x v) (2 * i) = lane v x (2 * i + 1) ∧
    lane v (srliEpi (v * 2) x v) (2 * i + 1) = 0#v := by
  unfold srliEpi
  have e : lane (v * 2) (map1 (v * 2) (· >>> v) x) i = lane (v * 2) x i >>> v := lane_map1 _ _ h
  constructor
  · rw [show 2 * i = 2 * i + 0 by omega, ← lane_lane v 2 _ i (by decide), e,
      show 2 * i + 0 + 1 = 2 * i + 1 by omega, ← lane_lane v 2 x i (by decide)]
    apply BitVec.eq_of_getLsbD_eq
    intro b hb
    simp [-BitVec.getLsbD_eq_getElem, getLsbD_lane, hb]
  · rw [← lane_lane v 2 _ i (by decide), e]
    apply BitVec.eq_of_getLsbD_eq
    intro b hb
    simp [-BitVec.getLsbD_eq_getElem, getLsbD_lane]
    intros
    omega

theorem lane_srli64 {i : Nat} (h : i < 2) (x : M128) :
    lane 32 (srliEpi 64 x 32) (2 * i) = lane 32 x (2 * i + 1) ∧
    lane 32 (srliEpi 64 x 32) (2 * i + 1) = 0#32 :=
  lane_srli_half (v := 32) (by omega) x

theorem laneMask_or {w : Nat} (p q : Bool) :
    (laneMask p : BitVec w) ||| laneMask q = laneMask (p || q) := by
  cases p <;> cases q <;> simp [laneMask]

theorem laneMask_and {w : Nat} (p q : Bool) :
    (laneMask p : BitVec w) &&& laneMask q = laneMask (p && q) := by
  cases p <;> cases q <;> simp [laneMask]

theorem eq_halves {v : Nat} (hv : 0 < v) (x y : BitVec (v * 2)) :
    x = y ↔ lane v x 1 = lane v y 1 ∧ lane v x 0 = lane v y 0 := by
  constructor
  · rintro rfl; simp
  · rintro ⟨h1, h0⟩
    apply lane_ext hv
    intro j hj
    match j with
    | 0 => exact h0
    | 1 => exact h1

theorem lane_cmpgtEpi {n w i : Nat} (h : w * (i + 1) ≤ n) (a b : BitVec n) :
    lane w (cmpgtEpi w a b) i = laneMask (decide ((lane w b i).toInt < (lane w a i).toInt)) :=
  lane_map2 _ _ _ h

theorem lane_cmpltEpi {n w i : Nat} (h : w * (i + 1) ≤ n) (a b : BitVec n) :
    lane w (cmpltEpi w a b) i = laneMask (decide ((lane w a i).toInt < (lane w b i).toInt)) :=
  lane_map2 _ _ _ h

theorem lane_cmpeqEpi {n w i : Nat} (h : w * (i + 1) ≤ n) (a b : BitVec n) :
    lane w (cmpeqEpi w a b) i = laneMask (decide (lane w a i = lane w b i)) :=
  lane_map2 _ _ _ h

theorem sel_f5 {i : Nat} (h : i < 2) : sel4 0xf5 (2 * i) = 2 * i + 1 ∧ sel4 0xf5 (2 * i + 1) = 2 * i + 1 := by
  match i, h with
  | 0, _ => decide
  | 1, _ => decide

theorem sel_a0 {i : Nat} (h : i < 2) : sel4 0xa0 (2 * i) = 2 * i ∧ sel4 0xa0 (2 * i + 1) = 2 * i := by
  match i, h with
  | 0, _ => decide
  | 1, _ => decide

theorem sel_b1 {i : Nat} (h : i < 2) :
    sel4 (1 * 1 + 0 * 4 + 3 * 16 + 2 * 64) (2 * i) = 2 * i + 1 ∧
    sel4 (1 * 1 + 0 * 4 + 3 * 16 + 2 * 64) (2 * i + 1) = 2 * i := by
  match i, h with
  | 0, _ => decide
  | 1, _ => decide

/-- The 64 bit signed comparison from its halves. -/
theorem lt_halves (x y : BitVec 64) :
    (y.toInt < x.toInt) ↔
      ((lane 32 y 1).toInt < (lane 32 x 1).toInt ∨
        (lane 32 x 1 = lane 32 y 1 ∧ (lane 32 y 0).toNat < (lane 32 x 0).toNat)) := by
  have hx := toInt_halves (v := 32) (by decide) x
  have hy := toInt_halves (v := 32) (by decide) y
  have h1 := (lane 32 x 0).isLt
  have h2 := (lane 32 y 0).isLt
  have h3 : (lane 32 x 1 = lane 32 y 1) ↔ ((lane 32 x 1).toInt = (lane 32 y 1).toInt) :=
    BitVec.toInt_inj.symm
  rw [h3, hx, hy]
  omega

theorem lane_cmpgtEpi64 (I : Isa) (a b : M128) {i : Nat} (hi : i < 2) :
    lane 64 (cmpgtEpi64 I a b) i = laneMask (decide ((lane 64 b i).toInt < (lane 64 a i).toInt)) := by
  unfold cmpgtEpi64
  by_cases h42 : I.sse42 = true
  · rw [if_pos h42]; exact lane_cmpgtEpi (by omega) a b
  · rw [if_neg h42]
    have s1 := lane_srli64 hi (setmin 32)
    have hmin : lane 32 (setmin 32) (2 * i + 1) = signBit 32 := lane_setmin (by omega)
    have ahi : ∀ x : M128, lane 32 (x ^^^ srliEpi 64 (setmin 32) 32) (2 * i + 1)
        = lane 32 x (2 * i + 1) := by
      intro x; rw [lane_xor, s1.2]; simp
    have alo : ∀ x : M128, lane 32 (x ^^^ srliEpi 64 (setmin 32) 32) (2 * i)
        = lane 32 x (2 * i) ^^^ signBit 32 := by
      intro x; rw [lane_xor, s1.1, hmin]
    have key : ∀ j, j < 2 → lane 32
        (shuffleEpi32 (cmpgtEpi 32 (a ^^^ srliEpi 64 (setmin 32) 32) (b ^^^ srliEpi 64 (setmin 32) 32)) 0xf5 |||
         shuffleEpi32 (srliEpi 64 (cmpeqEpi 32 (a ^^^ srliEpi 64 (setmin 32) 32) (b ^^^ srliEpi 64 (setmin 32) 32)) 32
          &&& cmpgtEpi 32 (a ^^^ srliEpi 64 (setmin 32) 32) (b ^^^ srliEpi 64 (setmin 32) 32)) 0xa0)
        (2 * i + j) = laneMask (decide ((lane 64 b i).toInt < (lane 64 a i).toInt)) := by
      intro j hj
      have f5 : sel4 0xf5 (2 * i + j) = 2 * i + 1 := by
        match j, hj with
        | 0, _ => exact (sel_f5 hi).1
        | 1, _ => exact (sel_f5 hi).2
      have a0 : sel4 0xa0 (2 * i + j) = 2 * i := by
        match j, hj with
        | 0, _ => exact (sel_a0 hi).1
        | 1, _ => exact (sel_a0 hi).2
      rw [lane_or, lane_shuffleEpi32 _ _ (by omega), lane_shuffleEpi32 _ _ (by omega), f5, a0,
        lane_and, (lane_srli64 hi _).1, lane_cmpgtEpi (by omega), lane_cmpgtEpi (by omega),
        lane_cmpeqEpi (by omega), ahi, ahi, alo, alo, toInt_xor_signBit (by decide),
        toInt_xor_signBit (by decide), laneMask_and, laneMask_or]
      congr 1
      have h0 : ∀ x : M128, lane 32 (lane 64 x i) 0 = lane 32 x (2 * i) :=
        fun x => lane_lane 32 2 x i (by decide)
      have h1 : ∀ x : M128, lane 32 (lane 64 x i) 1 = lane 32 x (2 * i + 1) :=
        fun x => lane_lane 32 2 x i (by decide)
      rw [Bool.eq_iff_iff]
      simp only [Bool.or_eq_true, Bool.and_eq_true, decide_eq_true_eq]
      rw [lt_halves, h0, h0, h1, h1]
      constructor
      · rintro (h | ⟨h, h'⟩)
        · exact .inl h
        · exact .inr ⟨h, by omega⟩
      · rintro (h | ⟨h, h'⟩)
        · exact .inl h
        · exact .inr ⟨h, by omega⟩
    apply lane_ext (v := 32) (c := 2) (by decide)
    intro j hj
    rw [lane_lane 32 2 _ i hj, lane_laneMask hj]
    exact key j hj

theorem lane_cmpeqEpi64 (I : Isa) (a b : M128) {i : Nat} (hi : i < 2) :
    lane 64 (cmpeqEpi64 I a b) i = laneMask (decide (lane 64 a i = lane 64 b i)) := by
  unfold cmpeqEpi64
  by_cases h41 : I.sse41 = true
  · rw [if_pos h41]; exact lane_cmpeqEpi (by omega) a b
  · rw [if_neg h41]
    have h0 : ∀ x : M128, lane 32 (lane 64 x i) 0 = lane 32 x (2 * i) :=
      fun x => lane_lane 32 2 x i (by decide)
    have h1 : ∀ x : M128, lane 32 (lane 64 x i) 1 = lane 32 x (2 * i + 1) :=
      fun x => lane_lane 32 2 x i (by decide)
    have heq := eq_halves (v := 32) (by decide) (lane 64 a i) (lane 64 b i)
    rw [h0, h0, h1, h1] at heq
    have hd : decide (lane 64 a i = lane 64 b i) = (decide (lane 32 a (2 * i + 1) = lane 32 b (2 * i + 1)) &&
        decide (lane 32 a (2 * i) = lane 32 b (2 * i))) := by
      rw [Bool.eq_iff_iff]
      simp only [Bool.and_eq_true, decide_eq_true_eq]
      exact heq
    rw [hd]
    have hs := sel_b1 hi
    generalize (1 * 1 + 0 * 4 + 3 * 16 + 2 * 64) = imm at *
    apply lane_ext (v := 32) (c := 2) (by decide)
    intro j hj
    rw [lane_lane 32 2 _ i hj, lane_laneMask hj]
    match j, hj with
    | 0, _ =>
      rw [Nat.add_zero, lane_and, lane_shuffleEpi32 _ _ (by omega), hs.1,
        lane_cmpeqEpi (by omega), lane_cmpeqEpi (by omega), laneMask_and, Bool.and_comm]
    | 1, _ =>
      rw [lane_and, lane_shuffleEpi32 _ _ (by omega), hs.2,
        lane_cmpeqEpi (by omega), lane_cmpeqEpi (by omega), laneMask_and]

/-- The low half of the 64 bit product. -/
theorem lane_mulEpu32 (x y : M128) {i : Nat} (hi : i < 2) :
    lane 32 (mulEpu32 x y) (2 * i) = lane 32 x (2 * i) * lane 32 y (2 * i) := by
  have e : lane 64 (mulEpu32 x y) i =
      (lane 32 x (2 * i)).zeroExtend 64 * (lane 32 y (2 * i)).zeroExtend 64 := by
    unfold mulEpu32; exact lane_ofLanes _ (by omega)
  have h0 : lane 32 (lane 64 (mulEpu32 x y) i) 0 = lane 32 (mulEpu32 x y) (2 * i) :=
    lane_lane 32 2 _ i (by decide)
  rw [← h0, e]
  generalize lane 32 x (2 * i) = u
  generalize lane 32 y (2 * i) = v
  apply BitVec.eq_of_toNat_eq
  have hx := u.isLt
  have hy := v.isLt
  simp only [lane, BitVec.extractLsb'_toNat, BitVec.toNat_mul, BitVec.toNat_setWidth, Nat.mul_zero,
    Nat.shiftRight_zero]
  rw [Nat.mod_mod_of_dvd _ (by decide), Nat.mod_eq_of_lt (a := u.toNat) (by omega),
    Nat.mod_eq_of_lt (a := v.toNat) (by omega)]

theorem lane_vMul (I : Isa) {w i : Nat} (hw : w = 16 ∨ w = 32) (h : w * (i + 1) ≤ 128)
    (a b : M128) : lane w (vMul I w a b) i = lane w a i * lane w b i := by
  unfold vMul
  by_cases h1 : (I.sse41 || w == 16) = true
  · rw [if_pos h1]; exact lane_map2 _ _ _ h
  · rw [if_neg h1]
    have hw : w = 32 := by
      rcases hw with rfl | rfl
      · simp at h1
      · rfl
    subst hw
    have hi : i < 4 := by omega
    rw [lane_unpacklo _ _ (by omega)]
    have s8 : sel4 8 0 = 2 * 0 ∧ sel4 8 1 = 2 * 1 := by decide
    have sh : ∀ (x : M128) k, lane 32 (srliSi128 x 4) k = lane 32 x (k + 1) :=
      fun x k => lane_srliSi128 (j := 1) x (by decide) k
    match i, hi with
    | 0, _ =>
      simp only [Nat.zero_mod, if_true, Nat.zero_div]
      rw [lane_shuffleEpi32 _ _ (by decide), s8.1, lane_mulEpu32 _ _ (by decide)]
    | 1, _ =>
      simp only [Nat.reduceMod, Nat.reduceDiv]
      rw [if_neg (by decide), lane_shuffleEpi32 _ _ (by decide), s8.1, lane_mulEpu32 _ _ (by decide), sh, sh]
    | 2, _ =>
      simp only [Nat.reduceMod, Nat.reduceDiv, if_true]
      rw [lane_shuffleEpi32 _ _ (by decide), s8.2, lane_mulEpu32 _ _ (by decide)]
    | 3, _ =>
      simp only [Nat.reduceMod, Nat.reduceDiv]
      rw [if_neg (by decide), lane_shuffleEpi32 _ _ (by decide), s8.2, lane_mulEpu32 _ _ (by decide), sh, sh]

end Vc.Lemma
