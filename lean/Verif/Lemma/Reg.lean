import Verif.Model.Reg

/-!
Lane calculus for the register model: what each intrinsic does to a lane, and how lanes of different
widths relate.
-/

namespace Vc.Lemma
open Vc.Model

theorem natOfBits_lt (f : Nat → Bool) (n : Nat) : natOfBits f n < 2 ^ n := by
  induction n with
  | zero => simp [natOfBits]
  | succ n ih =>
    simp only [natOfBits]
    have : 2 ^ (n + 1) = 2 ^ n + 2 ^ n := by rw [Nat.pow_succ]; omega
    split <;> omega

theorem testBit_natOfBits (f : Nat → Bool) (n k : Nat) :
    (natOfBits f n).testBit k = (decide (k < n) && f k) := by
  induction n with
  | zero => simp [natOfBits]
  | succ n ih =>
    simp only [natOfBits]
    have hlt := natOfBits_lt f n
    by_cases hf : f n = true
    · rw [if_pos hf, Nat.add_comm]
      by_cases hk : k < n
      · rw [Nat.testBit_two_pow_add_gt hk, ih]
        have : k < n + 1 := by omega
        simp [hk, this]
      · by_cases hkn : k = n
        · subst hkn
          rw [Nat.testBit_two_pow_add_eq, ih]
          simp [hf]
        · have h1 : ¬ k < n + 1 := by omega
          have h2 : 2 ^ n + natOfBits f n < 2 ^ k := by
            have : 2 ^ (n + 1) ≤ 2 ^ k := Nat.pow_le_pow_right (by decide) (by omega)
            have : 2 ^ (n + 1) = 2 ^ n + 2 ^ n := by rw [Nat.pow_succ]; omega
            omega
          rw [Nat.testBit_lt_two_pow h2]
          simp [h1]
    · rw [if_neg hf, Nat.add_zero, ih]
      by_cases hkn : k = n
      · subst hkn; simp at hf; simp [hf]
      · have : (k < n) = (k < n + 1) := by apply propext; constructor <;> intro <;> omega
        simp [this]

theorem natOfBits_congr {f g : Nat → Bool} {n : Nat} (h : ∀ i, i < n → f i = g i) :
    natOfBits f n = natOfBits g n := by
  induction n with
  | zero => rfl
  | succ n ih =>
    simp only [natOfBits]
    rw [ih (fun i hi => h i (by omega)), h n (by omega)]

theorem getLsbD_ofBits {n : Nat} (f : Nat → Bool) (k : Nat) :
    (ofBits f : BitVec n).getLsbD k = (decide (k < n) && f k) := by
  unfold ofBits
  rw [BitVec.getLsbD_ofNat, testBit_natOfBits]
  by_cases h : k < n <;> simp [h]

theorem getLsbD_ofLanes {n : Nat} (w : Nat) (f : Nat → BitVec w) (k : Nat) :
    (ofLanes w f : BitVec n).getLsbD k = (decide (k < n) && (f (k / w)).getLsbD (k % w)) := by
  unfold ofLanes; rw [getLsbD_ofBits]

theorem getLsbD_lane {n : Nat} (w : Nat) (x : BitVec n) (i j : Nat) :
    (lane w x i).getLsbD j = (decide (j < w) && x.getLsbD (w * i + j)) := by
  unfold lane; rw [BitVec.getLsbD_extractLsb']

theorem lane_ofLanes {n w : Nat} (f : Nat → BitVec w) {i : Nat} (h : w * (i + 1) ≤ n) :
    lane w (ofLanes w f : BitVec n) i = f i := by
  apply BitVec.eq_of_getLsbD_eq
  intro j hj
  rw [getLsbD_lane, getLsbD_ofLanes]
  have h1 : w * i + j < n := by rw [Nat.mul_add] at h; omega
  have h2 : (w * i + j) / w = i := by
    rw [Nat.mul_add_div (by omega), Nat.div_eq_of_lt hj]; omega
  have h3 : (w * i + j) % w = j := by
    rw [Nat.mul_add_mod, Nat.mod_eq_of_lt hj]
  simp [hj, h1, h2, h3]

theorem lane_map1 {n w : Nat} (g : BitVec w → BitVec w) (x : BitVec n) {i : Nat}
    (h : w * (i + 1) ≤ n) : lane w (map1 w g x) i = g (lane w x i) := by
  unfold map1; rw [lane_ofLanes _ h]

theorem lane_map2 {n w : Nat} (g : BitVec w → BitVec w → BitVec w) (x y : BitVec n) {i : Nat}
    (h : w * (i + 1) ≤ n) : lane w (map2 w g x y) i = g (lane w x i) (lane w y i) := by
  unfold map2; rw [lane_ofLanes _ h]

theorem lane_set1 {n w : Nat} (v : BitVec w) {i : Nat} (h : w * (i + 1) ≤ n) :
    lane w (set1 w v : BitVec n) i = v := by
  unfold set1; rw [lane_ofLanes _ h]

theorem lane_xor {n w : Nat} (x y : BitVec n) (i : Nat) :
    lane w (x ^^^ y) i = lane w x i ^^^ lane w y i := by
  apply BitVec.eq_of_getLsbD_eq
  intro j hj
  simp [-BitVec.getLsbD_eq_getElem, getLsbD_lane, hj]

theorem lane_and {n w : Nat} (x y : BitVec n) (i : Nat) :
    lane w (x &&& y) i = lane w x i &&& lane w y i := by
  apply BitVec.eq_of_getLsbD_eq
  intro j hj
  simp [-BitVec.getLsbD_eq_getElem, getLsbD_lane, hj]

theorem lane_or {n w : Nat} (x y : BitVec n) (i : Nat) :
    lane w (x ||| y) i = lane w x i ||| lane w y i := by
  apply BitVec.eq_of_getLsbD_eq
  intro j hj
  simp [-BitVec.getLsbD_eq_getElem, getLsbD_lane, hj]

theorem lane_not {n w : Nat} (x : BitVec n) {i : Nat} (h : w * (i + 1) ≤ n) :
    lane w (~~~x) i = ~~~lane w x i := by
  apply BitVec.eq_of_getLsbD_eq
  intro j hj
  have h1 : w * i + j < n := by rw [Nat.mul_add] at h; omega
  simp [-BitVec.getLsbD_eq_getElem, getLsbD_lane, hj, h1]

theorem lane_zero {n w : Nat} (i : Nat) : lane w (0#n) i = 0#w := by
  apply BitVec.eq_of_getLsbD_eq
  intro j hj
  simp [-BitVec.getLsbD_eq_getElem, getLsbD_lane]

theorem lane_allOnes {n w : Nat} {i : Nat} (h : w * (i + 1) ≤ n) :
    lane w (BitVec.allOnes n) i = BitVec.allOnes w := by
  apply BitVec.eq_of_getLsbD_eq
  intro j hj
  have h1 : w * i + j < n := by rw [Nat.mul_add] at h; omega
  simp [-BitVec.getLsbD_eq_getElem, getLsbD_lane, hj, h1]

/-- Lanes beyond the end of the register are zero. -/
theorem lane_out {n w : Nat} (x : BitVec n) {i : Nat} (h : n ≤ w * i) : lane w x i = 0#w := by
  apply BitVec.eq_of_getLsbD_eq
  intro j hj
  rw [getLsbD_lane, BitVec.getLsbD_of_ge x _ (by omega)]
  simp

/-- Two registers with equal lanes are equal. -/
theorem reg_ext {n : Nat} (w : Nat) (hw : 0 < w) (hn : w ∣ n) {x y : BitVec n}
    (h : ∀ i, i < n / w → lane w x i = lane w y i) : x = y := by
  apply BitVec.eq_of_getLsbD_eq
  intro k hk
  have hi : k / w < n / w := by
    obtain ⟨c, rfl⟩ := hn
    rw [Nat.mul_div_cancel_left c hw]
    exact Nat.div_lt_of_lt_mul hk
  have hl := h (k / w) hi
  have hb := congrArg (fun z => BitVec.getLsbD z (k % w)) hl
  simp only [getLsbD_lane] at hb
  have hm : k % w < w := Nat.mod_lt _ hw
  have hd : w * (k / w) + k % w = k := Nat.div_add_mod k w
  simpa [hm, hd] using hb

/-- A narrow lane of a wide lane is a lane of the register. -/
theorem lane_lane {n : Nat} (v c : Nat) (x : BitVec n) (i : Nat) {j : Nat} (h : j < c) :
    lane v (lane (v * c) x i) j = lane v x (c * i + j) := by
  apply BitVec.eq_of_getLsbD_eq
  intro k hk
  have h1 : v * j + k < v * c := by
    have : v * (j + 1) ≤ v * c := Nat.mul_le_mul_left _ (by omega)
    rw [Nat.mul_add] at this; omega
  have h2 : v * c * i + (v * j + k) = v * (c * i + j) + k := by
    rw [Nat.mul_add, Nat.mul_assoc]; omega
  simp [-BitVec.getLsbD_eq_getElem, getLsbD_lane, hk, h1, h2]

/-- A narrow lane of a register built from wide lanes. -/
theorem lane_ofLanes_wide {n v c : Nat} (f : Nat → BitVec (v * c)) {i : Nat}
    (hc : 0 < c) (h : v * c * (i / c + 1) ≤ n) :
    lane v (ofLanes (v * c) f : BitVec n) i = lane v (f (i / c)) (i % c) := by
  have := lane_lane v c (ofLanes (v * c) f : BitVec n) (i / c) (Nat.mod_lt i hc)
  rw [lane_ofLanes f h] at this
  rw [this, Nat.div_add_mod]

theorem lane_srliSi128 {w : Nat} (x : M128) {k j : Nat} (hk : 8 * k = w * j) (i : Nat) :
    lane w (srliSi128 x k) i = lane w x (i + j) := by
  apply BitVec.eq_of_getLsbD_eq
  intro b hb
  have : 8 * k + (w * i + b) = w * (i + j) + b := by rw [Nat.mul_add, hk]; omega
  simp [-BitVec.getLsbD_eq_getElem, srliSi128, getLsbD_lane, hb, this]

theorem lane_slliSi128 {w : Nat} (x : M128) {k j : Nat} (hk : 8 * k = w * j) {i : Nat}
    (h : w * (i + 1) ≤ 128) :
    lane w (slliSi128 x k) i = if i < j then 0#w else lane w x (i - j) := by
  apply BitVec.eq_of_getLsbD_eq
  intro b hb
  have h1 : w * i + b < 128 := by rw [Nat.mul_add] at h; omega
  by_cases hij : i < j
  · have h2 : w * i + b < 8 * k := by
      have : w * (i + 1) ≤ w * j := Nat.mul_le_mul_left _ (by omega)
      rw [Nat.mul_add] at this; omega
    simp [-BitVec.getLsbD_eq_getElem, slliSi128, getLsbD_lane, hb, h2, hij]
  · have h2 : ¬ w * i + b < 8 * k := by
      have : w * j ≤ w * i := Nat.mul_le_mul_left _ (by omega)
      omega
    have h3 : w * i + b - 8 * k = w * (i - j) + b := by
      rw [Nat.mul_sub]
      have : w * j ≤ w * i := Nat.mul_le_mul_left _ (by omega)
      omega
    simp [-BitVec.getLsbD_eq_getElem, slliSi128, getLsbD_lane, hb, h2, hij, h1, h3]

theorem lane_alignr {w : Nat} (a b : M128) {k j m : Nat} (hk : 8 * k = w * j) (hm : w * m = 128)
    {i : Nat} (h : i < m) :
    lane w (alignrEpi8 a b k) i = if i + j < m then lane w b (i + j) else lane w a (i + j - m) := by
  apply BitVec.eq_of_getLsbD_eq
  intro c hc
  have h1 : w * i + c < 128 := by
    have : w * (i + 1) ≤ w * m := Nat.mul_le_mul_left _ (by omega)
    rw [Nat.mul_add] at this; omega
  have h2 : 8 * k + (w * i + c) = w * (i + j) + c := by rw [Nat.mul_add, hk]; omega
  unfold alignrEpi8
  rw [getLsbD_lane, BitVec.getLsbD_setWidth, BitVec.getLsbD_ushiftRight, h2, BitVec.getLsbD_append]
  by_cases hij : i + j < m
  · have h3 : w * (i + j) + c < 128 := by
      have : w * (i + j + 1) ≤ w * m := Nat.mul_le_mul_left _ (by omega)
      rw [Nat.mul_add] at this; omega
    rw [if_pos hij, if_pos h3, getLsbD_lane]
    simp [h1, hc]
  · have h4 : w * m ≤ w * (i + j) := Nat.mul_le_mul_left _ (by omega)
    have h3 : ¬ w * (i + j) + c < 128 := by omega
    have h5 : w * (i + j) + c - 128 = w * (i + j - m) + c := by
      rw [Nat.mul_sub]; omega
    rw [if_neg hij, if_neg h3, getLsbD_lane, h5]
    simp [h1, hc]

theorem lane_shuffleEpi32 (x : M128) (imm : Nat) {i : Nat} (h : i < 4) :
    lane 32 (shuffleEpi32 x imm) i = lane 32 x (sel4 imm i) := by
  unfold shuffleEpi32; rw [lane_ofLanes _ (by omega)]

theorem lane_shufflePs (x y : M128) (imm : Nat) {i : Nat} (h : i < 4) :
    lane 32 (shufflePs x y imm) i =
      if i < 2 then lane 32 x (sel4 imm i) else lane 32 y (sel4 imm i) := by
  unfold shufflePs; rw [lane_ofLanes _ (by omega)]

theorem lane_shufflePd (x y : M128) (imm : Nat) {i : Nat} (h : i < 2) :
    lane 64 (shufflePd x y imm) i =
      if i = 0 then lane 64 x (imm % 2) else lane 64 y (imm / 2 % 2) := by
  unfold shufflePd; rw [lane_ofLanes _ (by omega)]

theorem lane_shufflelo (x : M128) (imm : Nat) {i : Nat} (h : i < 8) :
    lane 16 (shuffleloEpi16 x imm) i = if i < 4 then lane 16 x (sel4 imm i) else lane 16 x i := by
  unfold shuffleloEpi16; rw [lane_ofLanes _ (by omega)]

theorem lane_shufflehi (x : M128) (imm : Nat) {i : Nat} (h : i < 8) :
    lane 16 (shufflehiEpi16 x imm) i =
      if i < 4 then lane 16 x i else lane 16 x (4 + sel4 imm (i - 4)) := by
  unfold shufflehiEpi16; rw [lane_ofLanes _ (by omega)]

theorem lane_unpacklo {w : Nat} (x y : M128) {i : Nat} (h : w * (i + 1) ≤ 128) :
    lane w (unpacklo w x y) i = if i % 2 = 0 then lane w x (i / 2) else lane w y (i / 2) := by
  unfold unpacklo; rw [lane_ofLanes _ h]

theorem lane_unpackhi {w : Nat} (x y : M128) {i : Nat} (h : w * (i + 1) ≤ 128) :
    lane w (unpackhi w x y) i =
      if i % 2 = 0 then lane w x (64 / w + i / 2) else lane w y (64 / w + i / 2) := by
  unfold unpackhi; rw [lane_ofLanes _ h]

theorem lane_packs {v : Nat} (x y : M128) {i : Nat} (h : v * (i + 1) ≤ 128) :
    lane v (packs v x y) i = if i < 64 / v then satSigned v (lane (2 * v) x i)
      else satSigned v (lane (2 * v) y (i - 64 / v)) := by
  unfold packs; rw [lane_ofLanes _ h]

theorem lane_packus {v : Nat} (x y : M128) {i : Nat} (h : v * (i + 1) ≤ 128) :
    lane v (packus v x y) i = if i < 64 / v then satUnsigned v (lane (2 * v) x i)
      else satUnsigned v (lane (2 * v) y (i - 64 / v)) := by
  unfold packus; rw [lane_ofLanes _ h]

theorem lane_blendvIntr {n w : Nat} (x y m : BitVec n) {i : Nat} (h : w * (i + 1) ≤ n) :
    lane w (blendvIntr w x y m) i = if (lane w m i).msb then lane w y i else lane w x i := by
  unfold blendvIntr; rw [lane_ofLanes _ h]

theorem lane_blendImm {n w : Nat} (x y : BitVec n) (imm : Nat) {i : Nat} (h : w * (i + 1) ≤ n) :
    lane w (blendImm w x y imm) i = if imm.testBit i then lane w y i else lane w x i := by
  unfold blendImm; rw [lane_ofLanes _ h]

theorem movemask_testBit {n : Nat} (w : Nat) (x : BitVec n) (i : Nat) :
    (movemask w x).testBit i = (decide (i < n / w) && (lane w x i).msb) := by
  unfold movemask; rw [testBit_natOfBits]

theorem movemask_lt {n : Nat} (w : Nat) (x : BitVec n) : movemask w x < 2 ^ (n / w) :=
  natOfBits_lt _ _

theorem laneMask_msb {w : Nat} (hw : 0 < w) (b : Bool) : (laneMask b : BitVec w).msb = b := by
  cases b
  · simp [laneMask]
  · simp [laneMask, BitVec.msb_allOnes hw]

/-- A wide lane is determined by its narrow lanes. -/
theorem lane_ext {v c : Nat} (hv : 0 < v) {a b : BitVec (v * c)}
    (h : ∀ j, j < c → lane v a j = lane v b j) : a = b :=
  reg_ext v hv ⟨c, rfl⟩ (by intro i hi; rw [Nat.mul_div_cancel_left c hv] at hi; exact h i hi)

end Vc.Lemma
