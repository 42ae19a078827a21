import Verif.Model.Iterators
import Verif.Lemma.GatherScatter
import Verif.Prop.ExCfg

/-!
# C12: iteration over `where(mask)`; C13: vector iterators
-/

namespace Vc.Prop
open Vc.Model Vc.Spec Vc.Lemma

variable {C : Cfg}

/-! ## C12 -/

theorem bitmask_loop (u : Nat) : ∀ (fuel mask : Nat), mask < 2 ^ 64 →
    (setBits 64 mask).length ≤ fuel →
    BitmaskIterator.loop u (whereEnd u) fuel (BitmaskIterator.nextBit u mask) =
      some (setBits 64 mask) := by
  have hend : ∀ mask, (BitmaskIterator.nextBit u mask).ne (whereEnd u) = decide (mask ≠ 0) := by
    intro mask
    show (mask != 0) = _
    by_cases h : mask = 0
    · subst h; rfl
    · simp [h]
  intro fuel
  induction fuel with
  | zero =>
    intro mask h hf
    have h0 : mask = 0 := by
      apply Classical.byContradiction
      intro h0
      obtain ⟨i, ei, hi, _⟩ := bsf_spec mask h0
      rw [setBits_cons 64 mask i ei (testBit_lt h hi)] at hf
      simp at hf
    subst h0
    rw [BitmaskIterator.loop, hend, setBits_zero]; rfl
  | succ fuel ih =>
    intro mask h hf
    rw [BitmaskIterator.loop, hend]
    by_cases h0 : mask = 0
    · subst h0
      rw [setBits_zero]; rfl
    · obtain ⟨i, ei, hi, _⟩ := bsf_spec mask h0
      have hc := setBits_cons 64 mask i ei (testBit_lt h hi)
      have hlt := and_pred_lt mask h0
      have hn : (BitmaskIterator.nextBit u mask).next u =
          BitmaskIterator.nextBit u (mask &&& (mask - 1)) := by
        show BitmaskIterator.nextBit u (mask &&& ((mask + (2 ^ 64 - 1)) % 2 ^ 64)) = _
        rw [show (mask + (2 ^ 64 - 1)) % 2 ^ 64 = mask - 1 by omega]
      have hb : (BitmaskIterator.nextBit u mask).bit = i := by
        show (bsf mask).getD u = i
        rw [ei]; rfl
      rw [hn, ih _ (by omega) (by rw [hc] at hf; simpa using hf), hb, hc]
      simp [h0]

theorem whereLanes_eq (u : Nat) (m : BitVec 32) :
    whereLanes u m = some (setBits 64 (m.signExtend 64).toNat) := by
  refine bitmask_loop u 64 _ (m.signExtend 64).isLt ?_
  rw [setBits_length]
  exact countBits_le 64 _

theorem setBits_eq (k n x : Nat) (f : Nat → Bool) (hnk : n ≤ k)
    (h1 : ∀ i, i < n → x.testBit i = f i) (h2 : ∀ i, n ≤ i → x.testBit i = false) :
    setBits k x = (List.range n).filter f := by
  unfold setBits
  rw [show k = n + (k - n) by omega, List.range_add, List.filter_append]
  have : ((List.range (k - n)).map (n + ·)).filter (fun i => x.testBit i) = [] := by
    rw [List.filter_eq_nil_iff]
    intro i hi
    simp only [List.mem_map] at hi
    obtain ⟨j, _, rfl⟩ := hi
    rw [h2 _ (by omega)]; simp
  rw [this, List.append_nil]
  exact List.filter_congr fun i hi => h1 i (by simpa using hi)

/-- The lanes visited by `for (i : where(mask))` are the active lanes in ascending order, for masks
of up to 31 lanes and for 32 lanes if lane 31 is not active. `u` is what `__builtin_ctzl(0)`
yields; the result does not depend on it. -/
theorem C12_where_partial (hC : C.Valid) (n : Nat) (hn : 1 ≤ n) (h32 : n ≤ 32) (m : SA Bool)
    (hm : SA.WF C n m) (h31 : m.get C 31 ≠ some true ∨ n < 32) (u : Nat) :
    ∃ bits, m.toInt n = some bits ∧ whereLanes u bits =
      some ((List.range n).filter (fun i : Nat => decide (m.get C (i : Int) = some true))) := by
  refine ⟨natToInt m.toList, toInt_wf hC n hn h32 m hm, ?_⟩
  have hlen := WF.length hC hn hm
  have hg : ∀ i : Nat, m.get C (i : Int) = m.toList[i]? := fun i => get_eq hC hn hm i
  rw [whereLanes_eq]
  have hmsb : (natToInt m.toList).msb = false := by
    rw [BitVec.msb_eq_getLsbD_last]
    show (natToInt m.toList).getLsbD 31 = false
    rw [natToInt_getLsbD _ 31 (by decide)]
    rcases h31 with h | h
    · have := hg 31
      simp only [Int.cast_ofNat_Int] at this
      rw [this] at h
      cases e : m.toList[31]? with
      | none => rfl
      | some b => rw [e] at h; cases b <;> simp_all
    · rw [List.getElem?_eq_none (by omega)]; rfl
  rw [BitVec.signExtend_eq_setWidth_of_msb_false hmsb, BitVec.toNat_setWidth_of_le (by decide)]
  congr 1
  refine setBits_eq 64 n _ _ (by omega) (fun i hi => ?_) (fun i hi => ?_)
  · rw [hg]
    have := natToInt_testBit m.toList (by omega) i
    by_cases h : m.toList[i]? = some true
    · rw [this.mpr h]; simp [h]
    · simp only [h, decide_false]
      exact Bool.eq_false_iff.mpr fun e => h (this.mp e)
  · refine Bool.eq_false_iff.mpr fun e => ?_
    rw [natToInt_testBit m.toList (by omega), List.getElem?_eq_none (by omega)] at e
    cases e

/-- With 32 lanes and lane 31 active the loop also visits 32, 33, ..., 63, which are no lanes. -/
theorem C12_where_32_violated (hC : C.Valid) (m : SA Bool) (hm : SA.WF C 32 m)
    (h31 : m.get C 31 = some true) (u : Nat) :
    ∃ bits l, m.toInt 32 = some bits ∧ whereLanes u bits = some l ∧
      ∀ i, 32 ≤ i → i < 64 → i ∈ l := by
  refine ⟨natToInt m.toList, _, toInt_wf hC 32 (by decide) (by decide) m hm, whereLanes_eq u _, ?_⟩
  intro i h1 h2
  rw [mem_setBits (BitVec.isLt _), BitVec.testBit_toNat, BitVec.getLsbD_signExtend]
  have hmsb : (natToInt m.toList).msb = true := by
    rw [BitVec.msb_eq_getLsbD_last]
    show (natToInt m.toList).getLsbD 31 = true
    rw [natToInt_getLsbD _ 31 (by decide)]
    have := get_eq hC (by decide) hm 31
    simp only [Int.cast_ofNat_Int] at this
    rw [← this, h31]; rfl
  rw [if_neg (by omega), hmsb]
  simp [h2]

/-- A 7-lane mask. -/
example (u : Nat) : ∃ (m : SA Bool) (bits : BitVec 32), SA.WF exCfg 7 m ∧ m.toInt 7 = some bits ∧
    whereLanes u bits = some [0, 3, 4] := by
  obtain ⟨m, w, t⟩ := exMask7
  obtain ⟨bits, e, h⟩ := C12_where_partial exCfg_valid 7 (by decide) (by decide) m w
    (Or.inr (by decide)) u
  refine ⟨m, bits, w, e, ?_⟩
  rw [h]
  congr 1
  have hg : (fun i : Nat => decide (m.get exCfg (i : Int) = some true)) =
      fun i : Nat => decide ([true, false, false, true, true, false, false][i]? = some true) := by
    funext i; rw [get_eq exCfg_valid (by decide) w, t]
  rw [hg]; decide

/-! ## C13 -/

/-- `==` is equality of iterators: same object and same position. -/
theorem C13_eq (a b : LaneIterator) : a.eq b = true ↔ a = b := by
  rcases a with ⟨va, ia⟩; rcases b with ⟨vb, ib⟩
  simp [LaneIterator.eq]

/-- The ordering operators compare positions; iterators of different objects are unordered. -/
theorem C13_order (a b : LaneIterator) :
    (a.lt b = true ↔ a.v = b.v ∧ a.i < b.i) ∧ (a.le b = true ↔ a.v = b.v ∧ a.i ≤ b.i) ∧
    (a.gt b = true ↔ a.v = b.v ∧ b.i < a.i) ∧ (a.ge b = true ↔ a.v = b.v ∧ b.i ≤ a.i) := by
  simp [LaneIterator.lt, LaneIterator.le, LaneIterator.gt, LaneIterator.ge]

/-- `!=` is the negation of `==` for iterators of the same object. -/
theorem C13_ne_partial (a b : LaneIterator) (h : a.v = b.v) : a.ne b = !(a.eq b) := by
  simp [LaneIterator.ne, LaneIterator.eq, h, bne]

/-- Iterators of different objects are neither `==` nor `!=`. -/
theorem C13_ne_violated (a b : LaneIterator) (h : a.v ≠ b.v) : a.ne b = false ∧ a.eq b = false := by
  simp [LaneIterator.ne, LaneIterator.eq, h]

/-- Random access: moving by `d` and measuring it. -/
theorem C13_arithmetic (a : LaneIterator) (d : Int) :
    (a.add d).diff a = d ∧ (a.add d).sub d = a ∧ a.next = a.add 1 ∧ ((a.add d).v = a.v) ∧
    (a.lt (a.add d) = true ↔ 0 < d) := by
  rcases a with ⟨v, i⟩
  refine ⟨?_, ?_, rfl, rfl, ?_⟩
  · show i + d - i = d; omega
  · show LaneIterator.mk v (i + d - d) = _
    rw [Int.add_sub_cancel]
  · rw [show LaneIterator.lt ⟨v, i⟩ (LaneIterator.add ⟨v, i⟩ d) = (v == v && decide (i < i + d)) from rfl,
      beq_self_eq_true, Bool.true_and, decide_eq_true_iff]
    omega

theorem lane_loop (v n : Nat) : ∀ (fuel k : Nat), k ≤ n → n - k ≤ fuel →
    LaneIterator.loop (LaneIterator.end v n) fuel ⟨v, k⟩ =
      some ((List.range (n - k)).map fun i => ((k + i : Nat) : Int)) := by
  intro fuel
  induction fuel with
  | zero =>
    intro k hk hf
    have : n = k := by omega
    subst this
    simp [LaneIterator.loop, LaneIterator.ne, LaneIterator.end]
  | succ fuel ih =>
    intro k hk hf
    by_cases e : k = n
    · subst e
      simp [LaneIterator.loop, LaneIterator.ne, LaneIterator.end]
    · have hne : LaneIterator.ne ⟨v, k⟩ (LaneIterator.end v n) = true := by
        simp [LaneIterator.ne, LaneIterator.end]; omega
      rw [LaneIterator.loop, if_pos hne]
      have := ih (k + 1) (by omega) (by omega)
      rw [show LaneIterator.next ⟨v, k⟩ = ⟨v, ((k + 1 : Nat) : Int)⟩ by
        simp [LaneIterator.next]] at *
      rw [this, show n - k = (n - (k + 1)) + 1 by omega, List.range_succ_eq_map]
      simp only [Option.map_some, List.map_cons, Nat.add_zero, List.map_map]
      congr 2
      apply List.map_congr_left
      intro i _
      show ((k + 1 + i : Nat) : Int) = ((k + (i + 1) : Nat) : Int)
      congr 1; omega

/-- `for (it = begin(x); it != end(x); ++it)` visits the positions `0, 1, ..., size - 1` and
ends. -/
theorem C13_loop (v n : Nat) :
    LaneIterator.loop (LaneIterator.end v n) n (LaneIterator.begin v) =
      some ((List.range n).map fun i : Nat => (i : Int)) := by
  have := lane_loop v n n 0 (by omega) (by omega)
  simpa [LaneIterator.begin] using this

example : (⟨1, 3⟩ : LaneIterator).v = (⟨1, 5⟩ : LaneIterator).v ∧
    (⟨1, 3⟩ : LaneIterator).ne ⟨1, 5⟩ = true := by decide
example : (⟨1, 3⟩ : LaneIterator).v ≠ (⟨2, 5⟩ : LaneIterator).v := by decide

end Vc.Prop
