import Verif.Lemma.SseInt2

/-!
Lanes of the widening, narrowing and negation helpers.
-/

namespace Vc.Lemma
open Vc.Model Vc.Spec

theorem laneMask_getLsbD {w : Nat} (p : Bool) (k : Nat) :
    (laneMask p : BitVec w).getLsbD k = (decide (k < w) && p) := by
  cases p
  · simp [laneMask]
  · simp [laneMask]

theorem lane_zeroExtend {v : Nat} (a : BitVec v) :
    lane v (a.zeroExtend (v * 2)) 0 = a ∧ lane v (a.zeroExtend (v * 2)) 1 = 0#v := by
  constructor
  · apply BitVec.eq_of_getLsbD_eq
    intro k hk
    have : k < v * 2 := by omega
    simp [-BitVec.getLsbD_eq_getElem, getLsbD_lane, hk, this]
  · apply BitVec.eq_of_getLsbD_eq
    intro k hk
    simp [-BitVec.getLsbD_eq_getElem, getLsbD_lane]

theorem lane_signExtend {v : Nat} (a : BitVec v) :
    lane v (a.signExtend (v * 2)) 0 = a ∧ lane v (a.signExtend (v * 2)) 1 = laneMask a.msb := by
  constructor
  · apply BitVec.eq_of_getLsbD_eq
    intro k hk
    have : k < v * 2 := by omega
    simp [-BitVec.getLsbD_eq_getElem, getLsbD_lane, BitVec.getLsbD_signExtend, hk, this]
  · apply BitVec.eq_of_getLsbD_eq
    intro k hk
    have : v + k < v * 2 := by omega
    simp [-BitVec.getLsbD_eq_getElem, getLsbD_lane, BitVec.getLsbD_signExtend, laneMask_getLsbD,
      hk, this]

/-- The wide lanes of an unpacked register. -/
theorem unpacklo_wide {v i : Nat} (h : v * 2 * (i + 1) ≤ 128) (x y : M128) :
    lane v (lane (v * 2) (unpacklo v x y) i) 0 = lane v x i ∧
    lane v (lane (v * 2) (unpacklo v x y) i) 1 = lane v y i := by
  have hm : v * (2 * i + 1 + 1) ≤ 128 := by
    rw [Nat.mul_assoc, Nat.mul_add] at h
    exact h
  have hm' : v * (2 * i + 1) ≤ 128 := Nat.le_trans (Nat.mul_le_mul_left _ (by omega)) hm
  constructor
  · rw [lane_lane v 2 _ i (by decide), Nat.add_zero, lane_unpacklo _ _ hm', if_pos (by omega)]
    congr 1; omega
  · rw [lane_lane v 2 _ i (by decide), lane_unpacklo _ _ hm, if_neg (by omega)]
    congr 1; omega

theorem unpackhi_wide {v i : Nat} (h : v * 2 * (i + 1) ≤ 128) (x y : M128) :
    lane v (lane (v * 2) (unpackhi v x y) i) 0 = lane v x (64 / v + i) ∧
    lane v (lane (v * 2) (unpackhi v x y) i) 1 = lane v y (64 / v + i) := by
  have hm : v * (2 * i + 1 + 1) ≤ 128 := by
    rw [Nat.mul_assoc, Nat.mul_add] at h
    exact h
  have hm' : v * (2 * i + 1) ≤ 128 := Nat.le_trans (Nat.mul_le_mul_left _ (by omega)) hm
  constructor
  · rw [lane_lane v 2 _ i (by decide), Nat.add_zero, lane_unpackhi _ _ hm', if_pos (by omega)]
    congr 1; omega
  · rw [lane_lane v 2 _ i (by decide), lane_unpackhi _ _ hm, if_neg (by omega)]
    congr 1; omega

theorem zext_of_halves {v : Nat} (hv : 0 < v) {z : BitVec (v * 2)} {a : BitVec v}
    (h0 : lane v z 0 = a) (h1 : lane v z 1 = 0#v) : z = a.zeroExtend (v * 2) :=
  (eq_halves hv _ _).mpr ⟨by rw [h1, (lane_zeroExtend a).2], by rw [h0, (lane_zeroExtend a).1]⟩

theorem sext_of_halves {v : Nat} (hv : 0 < v) {z : BitVec (v * 2)} {a : BitVec v}
    (h0 : lane v z 0 = a) (h1 : lane v z 1 = laneMask a.msb) : z = a.signExtend (v * 2) :=
  (eq_halves hv _ _).mpr ⟨by rw [h1, (lane_signExtend a).2], by rw [h0, (lane_signExtend a).1]⟩

theorem unpacklo_zero {v i : Nat} (hv : 0 < v) (h : v * 2 * (i + 1) ≤ 128) (x : M128) :
    lane (v * 2) (unpacklo v x 0#128) i = (lane v x i).zeroExtend (v * 2) :=
  zext_of_halves hv (unpacklo_wide h x _).1 (by rw [(unpacklo_wide h x _).2, lane_zero])

theorem unpackhi_zero {v i : Nat} (hv : 0 < v) (h : v * 2 * (i + 1) ≤ 128) (x : M128) :
    lane (v * 2) (unpackhi v x 0#128) i = (lane v x (64 / v + i)).zeroExtend (v * 2) :=
  zext_of_halves hv (unpackhi_wide h x _).1 (by rw [(unpackhi_wide h x _).2, lane_zero])

/-- The comparison with zero is the sign. -/
theorem lane_cmplt_zero {w i : Nat} (h : w * (i + 1) ≤ 128) (x : M128) :
    lane w (cmpltEpi w x 0#128) i = laneMask (lane w x i).msb := by
  rw [lane_cmpltEpi h, lane_zero]
  simp [BitVec.msb_eq_toInt]

theorem unpacklo_sign {v i : Nat} (hv : 0 < v) (h : v * 2 * (i + 1) ≤ 128) (x : M128) :
    lane (v * 2) (unpacklo v x (cmpltEpi v x 0#128)) i = (lane v x i).signExtend (v * 2) := by
  apply sext_of_halves hv (unpacklo_wide h x _).1
  rw [(unpacklo_wide h x _).2, lane_cmplt_zero]
  have : v * 2 * (i + 1) = v * (i + 1) + v * (i + 1) := by rw [Nat.mul_right_comm]; omega
  omega

/-- Arithmetic shift of a lane by half its width. -/
theorem sshiftRight_half {v : Nat} (hv : 0 < v) (z : BitVec (v * 2)) :
    z.sshiftRight v = (lane v z 1).signExtend (v * 2) := by
  have hmsb : z.msb = (lane v z 1).msb := by
    rw [BitVec.msb_eq_getLsbD_last, BitVec.msb_eq_getLsbD_last, getLsbD_lane]
    have : v - 1 < v := by omega
    have e : v + (v - 1) = v * 2 - 1 := by omega
    simp [this, e]
  apply BitVec.eq_of_getLsbD_eq
  intro k hk
  rw [BitVec.getLsbD_sshiftRight, BitVec.getLsbD_signExtend, ← hmsb, getLsbD_lane]
  by_cases hkv : k < v
  · have h1 : v + k < v * 2 := by omega
    have h2 : ¬ v * 2 ≤ k := by omega
    simp [hkv, hk, h1, h2]
  · have h1 : ¬ v + k < v * 2 := by omega
    have h2 : ¬ v * 2 ≤ k := by omega
    simp [hkv, hk, h1, h2]

theorem ushiftRight_half {v : Nat} (z : BitVec (v * 2)) :
    z >>> v = (lane v z 1).zeroExtend (v * 2) := by
  apply BitVec.eq_of_getLsbD_eq
  intro k hk
  rw [BitVec.getLsbD_ushiftRight, BitVec.getLsbD_setWidth, getLsbD_lane]
  by_cases hkv : k < v
  · simp [hkv, hk]
  · simp [hkv]
    rw [BitVec.getLsbD_of_ge z _ (by omega)]

theorem lane_expand0S (x : M128) {i : Nat} (hi : i < 4) :
    lane 32 (expand0S x) i = (lane 16 x i).signExtend 32 := by
  unfold expand0S sraiEpi
  rw [lane_map1 _ _ (by omega)]
  have := sshiftRight_half (v := 16) (by decide) (lane 32 (unpacklo 16 x x) i)
  rw [this]
  congr 1
  exact (unpacklo_wide (v := 16) (by omega) x x).2

theorem lane_expand1S (x : M128) {i : Nat} (hi : i < 4) :
    lane 32 (expand1S x) i = (lane 16 x (4 + i)).signExtend 32 := by
  unfold expand1S sraiEpi
  rw [lane_map1 _ _ (by omega)]
  have := sshiftRight_half (v := 16) (by decide) (lane 32 (unpackhi 16 x x) i)
  rw [this]
  congr 1
  exact (unpackhi_wide (v := 16) (by omega) x x).2

theorem lane_expand0U (x : M128) {i : Nat} (hi : i < 4) :
    lane 32 (expand0U x) i = (lane 16 x i).zeroExtend 32 :=
  unpacklo_zero (v := 16) (by decide) (by omega) x

theorem lane_expand1U (x : M128) {i : Nat} (hi : i < 4) :
    lane 32 (expand1U x) i = (lane 16 x (4 + i)).zeroExtend 32 :=
  unpackhi_zero (v := 16) (by decide) (by omega) x

theorem lane_cvtepu8epi16 (I : Isa) (x : M128) {i : Nat} (hi : i < 8) :
    lane 16 (cvtepu8epi16 I x) i = (lane 8 x i).zeroExtend 16 := by
  unfold cvtepu8epi16
  by_cases h : I.sse41 = true
  · rw [if_pos h]; exact lane_ofLanes _ (by omega)
  · rw [if_neg h]; exact unpacklo_zero (v := 8) (by decide) (by omega) x

theorem lane_cvtepi8epi16 (I : Isa) (x : M128) {i : Nat} (hi : i < 8) :
    lane 16 (cvtepi8epi16 I x) i = (lane 8 x i).signExtend 16 := by
  unfold cvtepi8epi16
  by_cases h : I.sse41 = true
  · rw [if_pos h]; exact lane_ofLanes _ (by omega)
  · rw [if_neg h]; exact unpacklo_sign (v := 8) (by decide) (by omega) x

theorem lane_cvtepu16epi32 (I : Isa) (x : M128) {i : Nat} (hi : i < 4) :
    lane 32 (cvtepu16epi32 I x) i = (lane 16 x i).zeroExtend 32 := by
  unfold cvtepu16epi32
  by_cases h : I.sse41 = true
  · rw [if_pos h]; exact lane_ofLanes _ (by omega)
  · rw [if_neg h]; exact unpacklo_zero (v := 16) (by decide) (by omega) x

theorem lane_cvtepi16epi32 (I : Isa) (x : M128) {i : Nat} (hi : i < 4) :
    lane 32 (cvtepi16epi32 I x) i = (lane 16 x i).signExtend 32 := by
  unfold cvtepi16epi32
  by_cases h : I.sse41 = true
  · rw [if_pos h]; exact lane_ofLanes _ (by omega)
  · rw [if_neg h]; exact unpacklo_sign (v := 16) (by decide) (by omega) x

theorem lane_cvtepu8epi32 (I : Isa) (x : M128) {i : Nat} (hi : i < 4) :
    lane 32 (cvtepu8epi32 I x) i = (lane 8 x i).zeroExtend 32 := by
  unfold cvtepu8epi32
  by_cases h : I.sse41 = true
  · rw [if_pos h]; exact lane_ofLanes _ (by omega)
  · rw [if_neg h, lane_cvtepu16epi32 I _ hi, lane_cvtepu8epi16 I _ (by omega)]
    apply BitVec.eq_of_toNat_eq
    have := (lane 8 x i).isLt
    simp only [BitVec.toNat_setWidth]
    omega

theorem lane_cvtepi8epi32 (I : Isa) (x : M128) {i : Nat} (hi : i < 4) :
    lane 32 (cvtepi8epi32 I x) i = (lane 8 x i).signExtend 32 := by
  unfold cvtepi8epi32
  by_cases h : I.sse41 = true
  · rw [if_pos h]; exact lane_ofLanes _ (by omega)
  · rw [if_neg h]
    have w := unpacklo_wide (v := 16) (i := i) (by omega) (unpacklo 8 x (cmpltEpi 8 x 0#128))
      (unpacklo 8 (cmpltEpi 8 x 0#128) (cmpltEpi 8 x 0#128))
    have w0 : lane 16 (unpacklo 8 x (cmpltEpi 8 x 0#128)) i = (lane 8 x i).signExtend 16 :=
      unpacklo_sign (v := 8) (by decide) (by omega) x
    have w1 : lane 16 (unpacklo 8 (cmpltEpi 8 x 0#128) (cmpltEpi 8 x 0#128)) i =
        laneMask (lane 8 x i).msb := by
      have u := unpacklo_wide (v := 8) (i := i) (by omega) (cmpltEpi 8 x 0#128) (cmpltEpi 8 x 0#128)
      apply lane_ext (v := 8) (c := 2) (by decide)
      intro j hj
      rw [lane_laneMask hj]
      have hc : lane 8 (cmpltEpi 8 x 0#128) i = laneMask (lane 8 x i).msb :=
        lane_cmplt_zero (by omega) x
      match j, hj with
      | 0, _ => exact u.1.trans hc
      | 1, _ => exact u.2.trans hc
    have hmsb : ((lane 8 x i).signExtend 16).msb = (lane 8 x i).msb := by
      rw [BitVec.msb_signExtend]; simp
    have e := sext_of_halves (v := 16) (by decide) (w.1.trans w0) (by rw [w.2, w1, hmsb])
    refine Eq.trans e ?_
    apply BitVec.eq_of_toInt_eq
    rw [BitVec.toInt_signExtend_of_le (by decide), BitVec.toInt_signExtend_of_le (by decide),
      BitVec.toInt_signExtend_of_le (by decide)]

theorem lane_convertShortInt (I : Isa) (x : M128) {i : Nat} (hi : i < 4) :
    lane 32 (convertShortInt I x) i = (lane 16 x i).signExtend 32 := by
  unfold convertShortInt
  by_cases h : I.sse41 = true
  · rw [if_pos h]; exact lane_ofLanes _ (by omega)
  · rw [if_neg h]; exact lane_expand0S x hi

theorem lane_convertUshortInt (I : Isa) (x : M128) {i : Nat} (hi : i < 4) :
    lane 32 (convertUshortInt I x) i = (lane 16 x i).zeroExtend 32 := by
  unfold convertUshortInt
  by_cases h : I.sse41 = true
  · rw [if_pos h]; exact lane_ofLanes _ (by omega)
  · rw [if_neg h]
    unfold srliEpi
    rw [lane_map1 _ _ (by omega)]
    have := ushiftRight_half (v := 16) (lane 32 (unpacklo 16 x x) i)
    rw [this]
    congr 1
    exact (unpacklo_wide (v := 16) (by omega) x x).2

/-- The three unpack steps pick the low halves of the 32 bit lanes of `a`, then of `b`. -/
theorem lane_unpack3 (a b : M128) {i : Nat} (hi : i < 8) :
    lane 16 (unpacklo 16 (unpacklo 16 (unpacklo 16 a b) (unpackhi 16 a b))
      (unpackhi 16 (unpacklo 16 a b) (unpackhi 16 a b))) i =
      if i < 4 then lane 16 a (2 * i) else lane 16 b (2 * (i - 4)) := by
  match i, hi with
  | 0, _ | 1, _ | 2, _ | 3, _ | 4, _ | 5, _ | 6, _ | 7, _ =>
    simp [lane_unpacklo, lane_unpackhi]

theorem lane_low_half (x : M128) {i : Nat} : lane 16 x (2 * i) = (lane 32 x i).setWidth 16 := by
  have : lane 16 (lane 32 x i) 0 = lane 16 x (2 * i) := lane_lane 16 2 x i (by decide)
  rw [← this]
  apply BitVec.eq_of_getLsbD_eq
  intro k hk
  simp [-BitVec.getLsbD_eq_getElem, getLsbD_lane, hk]

theorem lane_convertIntUshort (x : M128) {i : Nat} (hi : i < 8) :
    lane 16 (convertIntUshort x) i = if i < 4 then (lane 32 x i).setWidth 16 else 0#16 := by
  have := lane_unpack3 x 0#128 hi
  rw [lane_low_half, lane_zero] at this
  exact this

theorem lane_concatU_emul (I : Isa) (h : I.sse41 = false) (a b : M128) {i : Nat} (hi : i < 8) :
    lane 16 (concatU I a b) i =
      if i < 4 then (lane 32 a i).setWidth 16 else (lane 32 b (i - 4)).setWidth 16 := by
  have := lane_unpack3 a b hi
  rw [lane_low_half, lane_low_half] at this
  unfold concatU
  rw [if_neg (by simp [h])]
  exact this

theorem lane_vNeg (I : Isa) {w i : Nat} (hw : 0 < w) (h : w * (i + 1) ≤ 128) (a : M128) :
    lane w (vNeg I w a) i = - lane w a i := by
  unfold vNeg
  by_cases hs : I.ssse3 = true
  · rw [if_pos hs, signEpiIntr, lane_map2 _ _ _ h, lane_allOnes h]
    have : (BitVec.allOnes w).toInt < 0 := by
      have := BitVec.msb_eq_toInt (x := BitVec.allOnes w)
      rw [BitVec.msb_allOnes hw] at this
      simpa using this
    rw [if_pos this]
  · rw [if_neg hs, subEpi, lane_map2 _ _ _ h, lane_zero]
    simp

theorem lane_vAbs (I : Isa) {w i : Nat} (hw : w = 8 ∨ w = 16 ∨ w = 32) (h : w * (i + 1) ≤ 128)
    (a : M128) :
    lane w (vAbs I w a) i = if (lane w a i).toInt < 0 then - lane w a i else lane w a i := by
  unfold vAbs
  by_cases hs : I.ssse3 = true
  · rw [if_pos hs, absEpiIntr, lane_map1 _ _ h]
  · rw [if_neg hs]
    have hneg := lane_cmplt_zero h a
    have hone : lane w (if (w == 8) = true then cmpltEpi w a 0#128 &&& set1 8 1#8
        else srliEpi w (cmpltEpi w a 0#128) (w - 1)) i =
        if (lane w a i).msb then 1#w else 0#w := by
      rcases hw with rfl | rfl | rfl
      · rw [if_pos (by decide), lane_and, hneg, lane_set1 _ h]
        cases (lane 8 a i).msb <;> simp [laneMask]
      · rw [if_neg (by decide), srliEpi, lane_map1 _ _ h, hneg]
        cases (lane 16 a i).msb <;> decide
      · rw [if_neg (by decide), srliEpi, lane_map1 _ _ h, hneg]
        cases (lane 32 a i).msb <;> decide
    rw [addEpi, lane_map2 _ _ _ h, lane_xor, hone, hneg, BitVec.msb_eq_toInt]
    by_cases hn : (lane w a i).toInt < 0
    · simp only [hn, decide_true, if_true, laneMask]
      rw [BitVec.xor_allOnes, BitVec.neg_eq_not_add]
    · simp [hn, laneMask]

end Vc.Lemma
