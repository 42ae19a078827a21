import Verif.Lemma.AvxShuffle
import Verif.Lemma.FloatCvt2
import Verif.Lemma.InterleaveW
import Verif.Model.Deinterleave
import Verif.Spec.Deinterleave

namespace Vc.Lemma

open Vc.Model Vc.Spec

theorem loadReg_some {w c n : Nat} (hc : w * c = n) (hw : 0 < w) {m : ILMem w} {a : Int} {x : BitVec n}
    (h : loadReg n m a = some x) {j : Nat} (hj : j < c) : m (a + Int.ofNat j) = some (Model.lane w x j) := by
  have hn : n / w = c := by rw [← hc, Nat.mul_div_cancel_left _ hw]
  unfold loadReg at h
  rw [hn] at h
  by_cases hr : ∀ j, j < c → (m (a + Int.ofNat j)).isSome
  · rw [if_pos hr] at h
    cases h
    rw [lane_ofLanes _ (lane_room hc hj)]
    have := hr j hj
    obtain ⟨v, hv⟩ := Option.isSome_iff_exists.1 this
    rw [hv]; rfl
  · rw [if_neg hr] at h
    exact absurd h (by simp)

theorem loadReg_none {w c n : Nat} (hc : w * c = n) (hw : 0 < w) {m : ILMem w} {a : Int} :
    loadReg n m a = none ↔ ∃ j, j < c ∧ m (a + Int.ofNat j) = none := by
  have hn : n / w = c := by rw [← hc, Nat.mul_div_cancel_left _ hw]
  unfold loadReg
  rw [hn]
  by_cases hr : ∀ j, j < c → (m (a + Int.ofNat j)).isSome
  · rw [if_pos hr]
    constructor
    · intro h; exact absurd h (by simp)
    · rintro ⟨j, hj, h⟩
      have := hr j hj
      rw [h] at this
      exact absurd this (by simp)
  · rw [if_neg hr]
    refine ⟨fun _ => ?_, fun _ => rfl⟩
    apply Classical.byContradiction
    intro hn
    apply hr
    intro j hj
    cases h : m (a + Int.ofNat j) with
    | none => exact absurd ⟨j, hj, h⟩ hn
    | some _ => rfl

theorem loadTwo_some {w c n : Nat} (hc : w * c = n) (hw : 0 < w) {m : ILMem w} {a : Int} {x y : BitVec n}
    (h : loadTwo n m a = some (x, y)) {j : Nat} (hj : j < 2 * c) :
    m (a + Int.ofNat j) = some (if j < c then Model.lane w x j else Model.lane w y (j - c)) := by
  have hn : n / w = c := by rw [← hc, Nat.mul_div_cancel_left _ hw]
  unfold loadTwo at h
  rw [hn] at h
  cases hx : loadReg n m a with
  | none => rw [hx] at h; exact absurd h (by simp)
  | some x' =>
    cases hy : loadReg n m (a + Int.ofNat c) with
    | none => rw [hx, hy] at h; exact absurd h (by simp)
    | some y' =>
      rw [hx, hy] at h
      cases h
      by_cases hjc : j < c
      · rw [if_pos hjc]; exact loadReg_some hc hw hx hjc
      · rw [if_neg hjc, ← loadReg_some hc hw hy (show j - c < c by omega)]
        congr 1
        show a + Int.ofNat j = a + Int.ofNat c + Int.ofNat (j - c)
        simp only [Int.ofNat_eq_natCast]
        omega

theorem loadTwo_none {w c n : Nat} (hc : w * c = n) (hw : 0 < w) {m : ILMem w} {a : Int} :
    loadTwo n m a = none ↔ ∃ j, j < 2 * c ∧ m (a + Int.ofNat j) = none := by
  have hn : n / w = c := by rw [← hc, Nat.mul_div_cancel_left _ hw]
  have hx := loadReg_none hc hw (m := m) (a := a)
  have hy := loadReg_none hc hw (m := m) (a := a + Int.ofNat c)
  have e : ∀ j, c ≤ j → a + Int.ofNat c + Int.ofNat (j - c) = a + Int.ofNat j := by
    intro j hj; simp only [Int.ofNat_eq_natCast]; omega
  unfold loadTwo
  rw [hn]
  constructor
  · intro h
    cases h1 : loadReg n m a with
    | none =>
      obtain ⟨j, hj, hm⟩ := hx.1 h1
      exact ⟨j, by omega, hm⟩
    | some _ =>
      cases h2 : loadReg n m (a + Int.ofNat c) with
      | none =>
        obtain ⟨j, hj, hm⟩ := hy.1 h2
        refine ⟨c + j, by omega, ?_⟩
        rw [← e (c + j) (by omega), Nat.add_sub_cancel_left]
        exact hm
      | some _ => rw [h1, h2] at h; exact absurd h (by simp)
  · rintro ⟨j, hj, hm⟩
    by_cases hjc : j < c
    · rw [hx.2 ⟨j, hjc, hm⟩]; rfl
    · rw [hy.2 ⟨j - c, by omega, by rw [e j (by omega)]; exact hm⟩]
      cases loadReg n m a <;> rfl

/-- Registers that hold `2 * c` entries in order, and what `deinterleave` makes of them. -/
def Deint (w c : Nat) {n : Nat} (x y a b : BitVec n) : Prop :=
  ∀ i, i < c → Model.lane w a i = (if 2 * i < c then Model.lane w x (2 * i) else Model.lane w y (2 * i - c)) ∧
    Model.lane w b i = (if 2 * i + 1 < c then Model.lane w x (2 * i + 1) else Model.lane w y (2 * i + 1 - c))

theorem deint32_spec (x y : M128) : Deint 32 4 x y (deint32 x y).1 (deint32 x y).2 := by
  intro i hi
  match i, hi with
  | 0, _ | 1, _ | 2, _ | 3, _ => simp [deint32, lane_unpacklo, lane_unpackhi]

theorem deint64_spec (x y : M128) : Deint 64 2 x y (deint64 x y).1 (deint64 x y).2 := by
  intro i hi
  match i, hi with
  | 0, _ | 1, _ => simp [deint64, lane_unpacklo, lane_unpackhi]

theorem deint16_spec (x y : M128) : Deint 16 8 x y (deint16 x y).1 (deint16 x y).2 := by
  intro i hi
  match i, hi with
  | 0, _ | 1, _ | 2, _ | 3, _ | 4, _ | 5, _ | 6, _ | 7, _ => simp [deint16, lane_unpacklo, lane_unpackhi]

theorem regPermute128_lo (x y : M256) : regPermute128 8 0 x y = some (concat128 (lo128 x) (lo128 y)) := rfl
theorem regPermute128_hi (x y : M256) : regPermute128 9 1 x y = some (concat128 (hi128 x) (hi128 y)) := rfl

theorem lanes_split {w k : Nat} (hk : w * k = 128) (x y : M256) {i : Nat} (hi : i < 2 * k) :
    Model.lane w (concat128 (lo128 x) (lo128 y)) i = (if i < k then Model.lane w x i else Model.lane w y (i - k)) ∧
    Model.lane w (concat128 (hi128 x) (hi128 y)) i =
      (if i < k then Model.lane w x (k + i) else Model.lane w y i) := by
  rw [lane_concat128 hk _ _ hi, lane_concat128 hk _ _ hi]
  by_cases h : i < k
  · rw [if_pos h, if_pos h, if_pos h, if_pos h, lane_lo128 hk _ h, lane_hi128 hk _ h]
    exact ⟨rfl, rfl⟩
  · rw [if_neg h, if_neg h, if_neg h, if_neg h, lane_lo128 hk _ (by omega), lane_hi128 hk _ (by omega)]
    exact ⟨rfl, by congr 1; omega⟩

theorem deint32Avx_spec (x y : M256) : ∃ a b, deint32Avx x y = some (a, b) ∧ Deint 32 8 x y a b := by
  refine ⟨_, _, rfl, ?_⟩
  intro i hi
  have h0 := fun j hj => (lanes_split (w := 32) (k := 4) rfl x y (i := j) hj).1
  have h1 := fun j hj => (lanes_split (w := 32) (k := 4) rfl x y (i := j) hj).2
  have e0 : permute2f128 x y 32 = concat128 (lo128 x) (lo128 y) := rfl
  have e1 : permute2f128 x y 49 = concat128 (hi128 x) (hi128 y) := rfl
  match i, hi with
  | 0, _ | 1, _ | 2, _ | 3, _ | 4, _ | 5, _ | 6, _ | 7, _ =>
    simp [e0, e1, lane_unpacklo256_32, lane_unpackhi256_32, h0, h1]

theorem deint32iAvx_eq (x y : M256) : deint32iAvx x y = deint32Avx x y := rfl

theorem deint64Avx_spec (x y : M256) : ∃ a b, deint64Avx x y = some (a, b) ∧ Deint 64 4 x y a b := by
  refine ⟨_, _, rfl, ?_⟩
  intro i hi
  have h0 := fun j hj => (lanes_split (w := 64) (k := 2) rfl x y (i := j) hj).1
  have h1 := fun j hj => (lanes_split (w := 64) (k := 2) rfl x y (i := j) hj).2
  have e0 : permute2f128 x y 32 = concat128 (lo128 x) (lo128 y) := rfl
  have e1 : permute2f128 x y 49 = concat128 (hi128 x) (hi128 y) := rfl
  match i, hi with
  | 0, _ | 1, _ | 2, _ | 3, _ =>
    simp [e0, e1, lane_unpacklo256_64, lane_unpackhi256_64, h0, h1]

theorem deint16Avx_spec (x y : M256) : ∃ a b, deint16Avx x y = some (a, b) ∧ Deint 16 16 x y a b := by
  refine ⟨_, _, rfl, ?_⟩
  intro i hi
  have h0 := fun j hj => (lanes_split (w := 16) (k := 8) rfl x y (i := j) hj).1
  have h1 := fun j hj => (lanes_split (w := 16) (k := 8) rfl x y (i := j) hj).2
  have e0 : permute2f128 x y 32 = concat128 (lo128 x) (lo128 y) := rfl
  have e1 : permute2f128 x y 49 = concat128 (hi128 x) (hi128 y) := rfl
  match i, hi with
  | 0, _ | 1, _ | 2, _ | 3, _ | 4, _ | 5, _ | 6, _ | 7, _ | 8, _ | 9, _ | 10, _ | 11, _ | 12, _ | 13, _ | 14, _ | 15, _ =>
    simp [e0, e1, lane_unpacklo256_16, lane_unpackhi256_16, h0, h1]
  | j + 16, hj => omega

/-! ### 16-bit entries -/

theorem lane16_even {n : Nat} (x : BitVec n) (i : Nat) : Model.lane 16 x (2 * i) = (Model.lane 32 x i).setWidth 16 := by
  have : Model.lane 16 (Model.lane 32 x i) 0 = Model.lane 16 x (2 * i) := lane_lane 16 2 x i (by decide)
  rw [← this]
  apply BitVec.eq_of_getLsbD_eq
  intro k hk
  simp [-BitVec.getLsbD_eq_getElem, getLsbD_lane, hk]

theorem lane16_odd {n : Nat} (x : BitVec n) (i : Nat) :
    Model.lane 16 x (2 * i + 1) = (Model.lane 32 x i >>> 16).setWidth 16 := by
  have : Model.lane 16 (Model.lane 32 x i) 1 = Model.lane 16 x (2 * i + 1) := lane_lane 16 2 x i (by decide)
  rw [← this]
  apply BitVec.eq_of_getLsbD_eq
  intro k hk
  simp [-BitVec.getLsbD_eq_getElem, getLsbD_lane, hk]

theorem srai_even (d : BitVec 32) : ((d <<< 16).sshiftRight 16) = (d.setWidth 16).signExtend 32 := by
  apply BitVec.eq_of_getLsbD_eq
  intro k hk
  rw [BitVec.getLsbD_sshiftRight, BitVec.getLsbD_signExtend, BitVec.msb_eq_getLsbD_last, BitVec.msb_eq_getLsbD_last]
  simp only [BitVec.getLsbD_shiftLeft, BitVec.getLsbD_setWidth]
  by_cases h : k < 16
  · simp [h, show 16 + k < 32 by omega, show ¬ 32 ≤ k by omega, hk, show ¬ 16 + k < 16 by omega]
  · simp [h, show ¬ 16 + k < 32 by omega, show ¬ 32 ≤ k by omega, hk]

theorem srai_odd (d : BitVec 32) : d.sshiftRight 16 = ((d >>> 16).setWidth 16).signExtend 32 := by
  apply BitVec.eq_of_getLsbD_eq
  intro k hk
  rw [BitVec.getLsbD_sshiftRight, BitVec.getLsbD_signExtend, BitVec.msb_eq_getLsbD_last, BitVec.msb_eq_getLsbD_last]
  simp only [BitVec.getLsbD_ushiftRight, BitVec.getLsbD_setWidth]
  by_cases h : k < 16
  · simp [h, show 16 + k < 32 by omega, show ¬ 32 ≤ k by omega, hk]
  · simp [h, show ¬ 16 + k < 32 by omega, show ¬ 32 ≤ k by omega, hk]

theorem srli_even (d : BitVec 32) : (d <<< 16) >>> 16 = (d.setWidth 16).setWidth 32 := by
  apply BitVec.eq_of_getLsbD_eq
  intro k hk
  simp only [BitVec.getLsbD_ushiftRight, BitVec.getLsbD_shiftLeft, BitVec.getLsbD_setWidth]
  by_cases h : k < 16
  · simp [h, show 16 + k < 32 by omega, hk]
  · simp [h, show ¬ 16 + k < 32 by omega, hk]

theorem srli_odd (d : BitVec 32) : d >>> 16 = ((d >>> 16).setWidth 16).setWidth 32 := by
  apply BitVec.eq_of_getLsbD_eq
  intro k hk
  simp only [BitVec.getLsbD_ushiftRight, BitVec.getLsbD_setWidth]
  by_cases h : k < 16
  · simp [h, hk]
  · simp [h, hk]
    exact BitVec.getLsbD_of_ge _ _ (by omega)

theorem sameInt_signExtend (p : BitVec 16) : SameInt true p (p.signExtend 32) := by
  unfold SameInt val
  rw [if_pos rfl, if_pos rfl, BitVec.toInt_signExtend_of_le (by decide)]

theorem sameInt_zeroExtend (p : BitVec 16) : SameInt false p (p.setWidth 32) := by
  unfold SameInt val
  rw [if_neg (by decide), if_neg (by decide), BitVec.toNat_setWidth_of_le (by decide)]

theorem sameFloat_signExtend (p : BitVec 16) : SameFloat f32 true p (cvtI2F f32 32 (p.signExtend 32)) := by
  have h := sameInt_signExtend p
  unfold SameInt val at h
  rw [if_pos rfl, if_pos rfl] at h
  unfold SameFloat val
  rw [if_pos rfl, ← h]
  have := BitVec.toInt_lt (x := p)
  have := BitVec.le_toInt p
  exact cvtI2F_small FmtW.single _ (by omega)

theorem sameFloat_zeroExtend (p : BitVec 16) : SameFloat f32 false p (cvtI2F f32 32 (p.setWidth 32)) := by
  have h := sameInt_zeroExtend p
  unfold SameInt val at h
  rw [if_neg (by decide), if_neg (by decide)] at h
  have hp := p.isLt
  have e : (p.setWidth 32).toInt = ((p.setWidth 32).toNat : Int) := by
    rw [BitVec.toInt_eq_toNat_of_lt]; omega
  unfold SameFloat val
  rw [if_neg (by decide), ← h, ← e]
  exact cvtI2F_small FmtW.single _ (by omega)

section
variable {n k : Nat} {x : BitVec n} {y z : BitVec k} {i : Nat}

theorem sameInt_short (h0 : Model.lane 32 y i = (Model.lane 32 x i <<< 16).sshiftRight 16)
    (h1 : Model.lane 32 z i = (Model.lane 32 x i).sshiftRight 16) :
    SameInt true (Model.lane 16 x (2 * i)) (Model.lane 32 y i) ∧
    SameInt true (Model.lane 16 x (2 * i + 1)) (Model.lane 32 z i) := by
  rw [h0, h1, lane16_even, lane16_odd, srai_even, srai_odd]
  exact ⟨sameInt_signExtend _, sameInt_signExtend _⟩

theorem sameInt_ushort (h0 : Model.lane 32 y i = (Model.lane 32 x i <<< 16) >>> 16)
    (h1 : Model.lane 32 z i = Model.lane 32 x i >>> 16) :
    SameInt false (Model.lane 16 x (2 * i)) (Model.lane 32 y i) ∧
    SameInt false (Model.lane 16 x (2 * i + 1)) (Model.lane 32 z i) := by
  rw [lane16_even, lane16_odd]
  rw [srli_even] at h0; rw [srli_odd] at h1
  rw [h0, h1]
  exact ⟨sameInt_zeroExtend _, sameInt_zeroExtend _⟩

theorem sameFloat_short (h0 : Model.lane 32 y i = cvtI2F f32 32 ((Model.lane 32 x i <<< 16).sshiftRight 16))
    (h1 : Model.lane 32 z i = cvtI2F f32 32 ((Model.lane 32 x i).sshiftRight 16)) :
    SameFloat f32 true (Model.lane 16 x (2 * i)) (Model.lane 32 y i) ∧
    SameFloat f32 true (Model.lane 16 x (2 * i + 1)) (Model.lane 32 z i) := by
  rw [h0, h1, lane16_even, lane16_odd, srai_even, srai_odd]
  exact ⟨sameFloat_signExtend _, sameFloat_signExtend _⟩

theorem sameFloat_ushort (h0 : Model.lane 32 y i = cvtI2F f32 32 ((Model.lane 32 x i <<< 16) >>> 16))
    (h1 : Model.lane 32 z i = cvtI2F f32 32 (Model.lane 32 x i >>> 16)) :
    SameFloat f32 false (Model.lane 16 x (2 * i)) (Model.lane 32 y i) ∧
    SameFloat f32 false (Model.lane 16 x (2 * i + 1)) (Model.lane 32 z i) := by
  rw [lane16_even, lane16_odd]
  rw [srli_even] at h0; rw [srli_odd] at h1
  rw [h0, h1]
  exact ⟨sameFloat_zeroExtend _, sameFloat_zeroExtend _⟩

end

/-- A function on the two halves. -/
theorem lane_halves {f : BitVec 32 → BitVec 32} {g : M128 → M128}
    (hg : ∀ x : M128, ∀ j, j < 4 → Model.lane 32 (g x) j = f (Model.lane 32 x j)) (x : M256) {i : Nat} (hi : i < 8) :
    Model.lane 32 (concat128 (g (lo128 x)) (g (hi128 x))) i = f (Model.lane 32 x i) := by
  rw [lane_concat128 (k := 4) rfl _ _ hi]
  by_cases h : i < 4
  · rw [if_pos h, hg _ _ h, lane_lo128 (k := 4) rfl _ h]
  · rw [if_neg h, hg _ _ (by omega), lane_hi128 (k := 4) rfl _ (by omega)]
    congr 2; omega

/-- `_mm_blend_epi16(x, 0, 0xaa)`. -/
theorem lane_blendaa (x : M128) {j : Nat} (hj : j < 4) :
    Model.lane 32 (blendImm 16 x 0#128 0xaa) j = (Model.lane 32 x j <<< 16) >>> 16 := by
  have h : ∀ q, q < 8 → Model.lane 16 (blendImm 16 x 0#128 0xaa) q = if q % 2 = 0 then Model.lane 16 x q else 0#16 := by
    intro q hq
    rw [lane_blendImm _ _ _ (lane_room (k := 8) rfl hq)]
    match q, hq with
    | 0, _ | 2, _ | 4, _ | 6, _ => rfl
    | 1, _ | 3, _ | 5, _ | 7, _ => exact lane_zero ..
  have h0 := h (2 * j) (by omega)
  have h1 := h (2 * j + 1) (by omega)
  rw [if_pos (by omega), lane16_even, lane16_even] at h0
  rw [if_neg (by omega), lane16_odd] at h1
  rw [srli_even, ← h0]
  generalize Model.lane 32 (blendImm 16 x 0#128 0xaa) j = d at *
  apply BitVec.eq_of_getLsbD_eq
  intro k hk
  simp only [BitVec.getLsbD_setWidth]
  by_cases h : k < 16
  · simp [h, hk]
  · have := congrArg (fun b => b.getLsbD (k - 16)) h1
    simp [show k - 16 < 16 by omega, show 16 + (k - 16) = k by omega] at this
    simp [h, this]

end Vc.Lemma
