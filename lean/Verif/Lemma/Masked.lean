import Verif.Model.Masked
import Verif.Lemma.AvxDiv
import Verif.Lemma.SseInt
import Verif.Lemma.FloatExp
import Verif.Lemma.FloatCvt2

/-!
Lemmas for the masked compound assignments (C58).
-/

namespace Vc.Lemma
open Vc.Model Vc.Spec

theorem value_add (sgn : Bool) {w : Nat} (a b : BitVec w) : a + b = IntOp.value .add sgn a b := by
  show _ = BitVec.ofInt w (val sgn a + val sgn b)
  rw [BitVec.ofInt_add, ofInt_val, ofInt_val]

theorem value_sub (sgn : Bool) {w : Nat} (a b : BitVec w) : a - b = IntOp.value .sub sgn a b := by
  show _ = BitVec.ofInt w (val sgn a - val sgn b)
  have h : BitVec.ofInt w (val sgn a - val sgn b) + BitVec.ofInt w (val sgn b) = a := by
    rw [← BitVec.ofInt_add, Int.sub_add_cancel, ofInt_val]
  rw [ofInt_val] at h
  rw [← BitVec.add_sub_cancel (BitVec.ofInt w (val sgn a - val sgn b)) b, h]

theorem value_mul (sgn : Bool) {w : Nat} (a b : BitVec w) : a * b = IntOp.value .mul sgn a b := by
  show _ = BitVec.ofInt w (val sgn a * val sgn b)
  rw [BitVec.ofInt_mul, ofInt_val, ofInt_val]

theorem shl_ofInt (sgn : Bool) {w : Nat} (a : BitVec w) (k : Nat) :
    a <<< k = BitVec.ofInt w (val sgn a * 2 ^ k) := by
  rw [BitVec.ofInt_mul, ofInt_val, BitVec.shiftLeft_eq_mul_twoPow]
  congr 1
  apply BitVec.eq_of_toNat_eq
  rw [show (2 : Int) ^ k = ((2 ^ k : Nat) : Int) from by simp, BitVec.ofInt_natCast, BitVec.toNat_twoPow,
    BitVec.toNat_ofNat]

theorem shr_ofInt (sgn : Bool) {w : Nat} (a : BitVec w) (k : Nat) :
    (if sgn then a.sshiftRight k else a >>> k) = BitVec.ofInt w (val sgn a / 2 ^ k) := by
  cases sgn
  · simp only [Bool.false_eq_true, if_false, val]
    apply BitVec.eq_of_toNat_eq
    rw [show (a.toNat : Int) / 2 ^ k = ((a.toNat / 2 ^ k : Nat) : Int) from by simp, BitVec.ofInt_natCast,
      BitVec.toNat_ushiftRight, BitVec.toNat_ofNat, Nat.shiftRight_eq_div_pow, Nat.mod_eq_of_lt]
    exact Nat.lt_of_le_of_lt (Nat.div_le_self _ _) a.isLt
  · simp only [if_true, val]
    rw [BitVec.sshiftRight, Int.shiftRight_eq_div_pow]
    congr 2

theorem toNat_count {sgn : Bool} {b : BitVec 32} (h : 0 ≤ val sgn b) : b.toNat = (val sgn b).toNat := by
  have := b.isLt
  cases sgn
  · simp [val]
  · simp only [val, if_true] at *
    rw [BitVec.toInt_eq_toNat_cond] at *
    split at h <;> split <;> omega

theorem generate_some {n w : Nat} {g : Nat → Option (BitVec w)} {v : Nat → BitVec w}
    (h : ∀ i, w * (i + 1) ≤ n → g i = some (v i)) :
    ∃ r : BitVec n, generate w g = some r ∧ ∀ i, w * (i + 1) ≤ n → lane w r i = v i := by
  refine ⟨ofLanes w fun i => (g i).getD 0, ?_, fun i hi => ?_⟩
  · unfold generate
    rw [if_pos]
    rw [List.all_eq_true]
    intro i hi
    rw [List.mem_range] at hi
    rw [h i]
    · rfl
    · exact Nat.le_trans (Nat.mul_le_mul_left _ hi) (Nat.mul_div_le n w)
  · rw [lane_ofLanes _ hi, h i hi]
    rfl

theorem generate_none {n w : Nat} {g : Nat → Option (BitVec w)} {i : Nat} (hw : 0 < w) (hi : w * (i + 1) ≤ n)
    (h : g i = none) : (generate w g : Option (BitVec n)) = none := by
  unfold generate
  rw [if_neg]
  rw [List.all_eq_true]
  intro hall
  have := hall i (List.mem_range.mpr (by rw [Nat.lt_iff_add_one_le, Nat.le_div_iff_mul_le hw, Nat.mul_comm]; exact hi))
  rw [h] at this
  exact absurd this (by simp)

theorem shlLane_some {sgn : Bool} {w : Nat} {a b : BitVec w} (h : IntOp.Defined .shl sgn a b) :
    shlLane sgn a b = some (IntOp.value .shl sgn a b) := by
  unfold shlLane
  rw [if_pos (show 0 ≤ val sgn b ∧ val sgn b < 32 from h), shl_ofInt sgn]
  rfl

theorem shrLane_some {sgn : Bool} {w : Nat} {a b : BitVec w} (h : IntOp.Defined .shr sgn a b) :
    shrLane sgn a b = some (IntOp.value .shr sgn a b) := by
  unfold shrLane
  rw [if_pos (show 0 ≤ val sgn b ∧ val sgn b < 32 from h), shr_ofInt sgn]
  rfl

theorem lane_avxBlendv8 (avx2 : Bool) {w c k i : Nat} (hw : w = 8 * c) (hk : w * k = 128) (hi : i < 2 * k)
    (x y m : M256) {p : Bool} (hm : lane w m i = laneMask p) :
    lane w (avxBlendv8 avx2 x y m) i = if p then lane w y i else lane w x i := by
  have key : ∀ {n j : Nat} (x y m : BitVec n), w * (j + 1) ≤ n → lane w m j = laneMask p →
      lane w (blendvIntr 8 x y m) j = if p then lane w y j else lane w x j := by
    intro n j x y m hj hm
    subst hw
    apply lane_ext (by decide)
    intro t ht
    have hb : 8 * (c * j + t + 1) ≤ n := by
      refine Nat.le_trans ?_ hj
      have : 8 * c * (j + 1) = 8 * (c * j + c) := by rw [Nat.mul_add, Nat.mul_assoc, Nat.mul_one, Nat.mul_add]
      omega
    have hmt : lane 8 m (c * j + t) = laneMask p := by
      rw [← lane_lane 8 c m j ht, hm, lane_laneMask ht]
    rw [lane_lane 8 c _ j ht, lane_blendvIntr _ _ _ hb, hmt, laneMask_msb (by decide)]
    cases p
    · rw [if_neg Bool.false_ne_true, if_neg Bool.false_ne_true, lane_lane 8 c _ j ht]
    · rw [if_pos rfl, if_pos rfl, lane_lane 8 c _ j ht]
  have hroom : w * (i + 1) ≤ 256 := lane_room (show w * (2 * k) = 256 by rw [Nat.mul_left_comm, hk]) hi
  unfold avxBlendv8
  cases avx2
  · rw [if_neg Bool.false_ne_true, lane_concat128 hk _ _ hi]
    by_cases h : i < k
    · have hr : w * (i + 1) ≤ 128 := hk ▸ Nat.mul_le_mul_left _ h
      rw [if_pos h, key _ _ _ hr (by rw [lane_lo128 hk _ h]; exact hm), lane_lo128 hk _ h, lane_lo128 hk _ h]
    · have h' : i - k < k := by omega
      have e : k + (i - k) = i := by omega
      have hr : w * (i - k + 1) ≤ 128 := hk ▸ Nat.mul_le_mul_left _ h'
      rw [if_neg h, key _ _ _ hr (by rw [lane_hi128 hk _ h', e]; exact hm), lane_hi128 hk _ h', lane_hi128 hk _ h', e]
  · rw [if_pos rfl]
    exact key x y m hroom hm

/-- Adding and subtracting `+0.0`. -/
theorem zero_fval {F : Fmt} {w : Nat} : fval F (0#w) = 0 ∧ fneg F (0#w) = false ∧ fmag F (0#w) = 0 := by
  have h2 : fneg F (0#w) = false := by simp [fneg]
  have h3 : fmag F (0#w) = 0 := by simp [fmag]
  refine ⟨?_, h2, h3⟩
  unfold fval
  rw [h2, h3]
  simp [magVal]

theorem quiet_id {F : Fmt} {w : Nat} {x : BitVec w} (h : x.toNat.testBit (F.m - 1) = true) : quiet F x = x := by
  apply BitVec.eq_of_getLsbD_eq
  intro j hj
  unfold quiet
  rw [BitVec.getLsbD_or, BitVec.getLsbD_ofNat]
  by_cases hjm : j = F.m - 1
  · subst hjm
    rw [show x.getLsbD (F.m - 1) = true from h, Bool.true_or]
  · have e : (2 ^ (F.m - 1)).testBit j = false := by
      rw [Nat.testBit_two_pow]
      exact decide_eq_false (fun h => hjm h.symm)
    rw [e, Bool.and_false, Bool.or_false]

theorem cases_inf {F : Fmt} {w : Nat} {x : BitVec w} (h1 : isNaN F x = false) (h2 : isInf F x = false) :
    isFinite F x = true := by
  unfold isNaN isInf isFinite at *
  simp only [decide_eq_false_iff_not, decide_eq_true_eq] at *
  omega

theorem roundInt_self {F : Fmt} {w : Nat} (h : FmtW F w) {x : BitVec w} (hf : isFinite F x = true) {z : Bool}
    (hz : fmag F x = 0 → z = fneg F x) : roundInt F w (fval F x) z = x := by
  have hmag : fmag F x < infMag F := of_decide_eq_true hf
  have hlt := infMag_lt F
  have habs : (fval F x).natAbs = magVal F (fmag F x) := by
    unfold fval; split <;> simp
  unfold roundInt
  rw [habs, roundMag_one F (Nat.le_of_lt hmag)]
  have hsign : (if fval F x = 0 then z else decide (fval F x < 0)) = fneg F x := by
    by_cases h0 : fmag F x = 0
    · have : fval F x = 0 := by
        have : magVal F (fmag F x) = 0 := by rw [h0]; simp [magVal]
        omega
      rw [if_pos this, hz h0]
    · have hne : magVal F (fmag F x) ≠ 0 := fun h => h0 ((magVal_eq_zero F _).mp h)
      rw [if_neg (by omega)]
      unfold fval
      cases fneg F x <;> simp <;> omega
  rw [hsign]
  apply sm_ext h.width
  · rw [(fneg_mk F h.lt _ (by omega)).1]
  · rw [(fneg_mk F h.lt _ (by omega)).2]

/-- Adding `+0.0` changes the pattern of `-0.0` and of signalling NaNs only. -/
theorem fAdd_zero {F : Fmt} {w : Nat} (h : FmtW F w) {x : BitVec w}
    (hz : ¬(fmag F x = 0 ∧ fneg F x = true)) (hn : isNaN F x = true → x.toNat.testBit (F.m - 1) = true) :
    fAdd F x 0#w = x := by
  obtain ⟨z1, z2, z3⟩ := zero_fval (F := F) (w := w)
  have hpos : 0 < infMag F := by cases h <;> decide +kernel
  have f0 : isFinite F (0#w) = true := by unfold isFinite; rw [z3]; exact decide_eq_true hpos
  cases hnan : isNaN F x
  · cases hinf : isInf F x
    · rw [fAdd_fin F (cases_inf hnan hinf) f0, z1, z2, Int.add_zero, Bool.and_false]
      exact roundInt_self h (cases_inf hnan hinf) (fun h0 => by
        cases hs : fneg F x
        · rfl
        · exact absurd ⟨h0, hs⟩ hz)
    · obtain ⟨b1, b2⟩ := isFinite_not f0
      unfold fAdd
      rw [hnan, hinf, b1, b2]
      rfl
  · unfold fAdd
    rw [hnan, if_pos rfl]
    exact quiet_id (hn hnan)

/-- Subtracting `+0.0` changes the pattern of signalling NaNs only. -/
theorem fSub_zero {F : Fmt} {w : Nat} (h : FmtW F w) {x : BitVec w}
    (hn : isNaN F x = true → x.toNat.testBit (F.m - 1) = true) : fSub F x 0#w = x := by
  obtain ⟨z1, z2, z3⟩ := zero_fval (F := F) (w := w)
  have hpos : 0 < infMag F := by cases h <;> decide +kernel
  have f0 : isFinite F (0#w) = true := by unfold isFinite; rw [z3]; exact decide_eq_true hpos
  cases hnan : isNaN F x
  · cases hinf : isInf F x
    · rw [fSub_fin F (cases_inf hnan hinf) f0, z1, z2, Int.sub_zero, Bool.not_false, Bool.and_true]
      exact roundInt_self h (cases_inf hnan hinf) (fun _ => rfl)
    · obtain ⟨b1, b2⟩ := isFinite_not f0
      unfold fSub
      rw [hnan, hinf, b1, b2]
      rfl
  · unfold fSub
    rw [hnan, if_pos rfl]
    exact quiet_id (hn hnan)

end Vc.Lemma
