import Verif.Lemma.SimdArrayMove

namespace Vc.Lemma
open Vc.Model Vc.Spec

/-- Amounts for which `SimdArray<T, n>::shifted(int)` moves the lanes correctly. -/
inductive ShiftOk (C : Cfg) : Nat → Int → Prop
  /-- power-of-two sizes: every amount -/
  | pow2 {n : Nat} {k : Int} : IsPow2 n → ShiftOk C n k
  | zero {n : Nat} : ShiftOk C n 0
  /-- to the right by at least the first half -/
  | neg {n : Nat} {k : Int} : k ≤ -(leftSize n : Int) → ShiftOk C n k
  /-- to the left by at least the first half -/
  | big {n : Nat} {k : Int} : (leftSize n : Int) ≤ k → ShiftOk C n k
  /-- to the left by less than the first half, within the lanes of the second half unless the
  first half is one native vector -/
  | low {n : Nat} {k : Int} : 0 < k → k < leftSize n → (k ≤ rightSize n ∨ C.atomic (leftSize n) = true) →
      (k < rightSize n → ShiftOk C (rightSize n) k) → ShiftOk C n k

theorem shifted_general {C : Cfg} (hC : C.Valid) (z : α) {n : Nat} {k : Int} (h : ShiftOk C n k) :
    1 ≤ n → ∀ (x : SA α), SA.WF C n x → ∃ r, x.shifted C z n k = some r ∧ SA.WF C n r ∧
      r.toList = tab n fun i => lane z x.toList (i + k) := by
  induction h with
  | pow2 hp => intro _ x wx; exact shifted_pow2 z hC hp _ wx
  | @zero n =>
    intro hn x wx
    cases ha : C.atomic n with
    | true => exact shifted_pow2 z hC (hC.isPow2 ha) _ wx
    | false =>
      obtain ⟨a, b, rfl, wa, wb⟩ := WF.exists_node ha wx
      rw [SA.shifted, if_neg (by simp [ha]), dif_pos (hC.two_le hn ha), if_pos rfl]
      refine ⟨_, rfl, wx, ?_⟩
      refine (eq_tab_lane z (WF.length hC hn wx)).trans ?_
      simp
  | @neg n k hk =>
    intro hn x wx
    cases ha : C.atomic n with
    | true => exact shifted_pow2 z hC (hC.isPow2 ha) _ wx
    | false =>
      have hn2 := hC.two_le hn ha
      have hsum := leftSize_add_rightSize hn2
      have hle := rightSize_le_leftSize n
      have hL1 := one_le_leftSize (n := n) hn
      have hR1 := one_le_rightSize hn2
      obtain ⟨a, b, rfl, wa, wb⟩ := WF.exists_node ha wx
      have la := WF.length hC hL1 wa
      have lb := WF.length hC hR1 wb
      obtain ⟨wz0, tz0⟩ := broadcast_wf hC z (leftSize n) hL1
      rw [← tab_const] at tz0
      rw [SA.shifted, if_neg (by simp [ha]), dif_pos hn2, if_neg (by omega), if_pos (by omega),
        if_neg (by omega)]
      by_cases he : k = -(leftSize n : Int)
      · rw [if_pos he]
        obtain ⟨c, ec, wc, tc⟩ := lane_cast z hC hL1 hR1 wa
        refine ⟨.node _ _, by rw [ec]; rfl, ⟨ha, wz0, wc⟩, ?_⟩
        rw [SA.toList, tz0, tc]
        refine tab_split hsum _ _ _ ?_ ?_ <;> intro i h0 h1 <;>
          simp only [SA.toList, lane_append, la] <;> lane_fin
      · rw [if_neg he]
        obtain ⟨s, es, ws, ts⟩ := shifted_pow2 z hC (isPow2_leftSize hn) (k + leftSize n) wa
        obtain ⟨c, ec, wc, tc⟩ := lane_cast z hC hL1 hR1 ws
        refine ⟨.node _ _, by rw [es, Option.bind_eq_bind, Option.bind_some, ec]; rfl, ⟨ha, wz0, wc⟩, ?_⟩
        rw [SA.toList, tz0, tc, ts]
        refine tab_split hsum _ _ _ ?_ ?_ <;> intro i h0 h1 <;>
          simp only [SA.toList, lane_append, la, lane_tab] <;> lane_fin
  | @big n k hk =>
    intro hn x wx
    cases ha : C.atomic n with
    | true => exact shifted_pow2 z hC (hC.isPow2 ha) _ wx
    | false =>
      have hn2 := hC.two_le hn ha
      have hsum := leftSize_add_rightSize hn2
      have hle := rightSize_le_leftSize n
      have hL1 := one_le_leftSize (n := n) hn
      have hR1 := one_le_rightSize hn2
      obtain ⟨a, b, rfl, wa, wb⟩ := WF.exists_node ha wx
      have la := WF.length hC hL1 wa
      have lb := WF.length hC hR1 wb
      obtain ⟨wz1, tz1⟩ := broadcast_wf hC z (rightSize n) hR1
      rw [← tab_const] at tz1
      rw [SA.shifted, if_neg (by simp [ha]), dif_pos hn2, if_neg (by omega), if_neg (by omega)]
      by_cases hN : k ≥ (n : Int)
      · rw [if_pos hN]
        obtain ⟨wz, tz⟩ := broadcast_wf hC z n hn
        rw [← tab_const] at tz
        refine ⟨_, rfl, wz, ?_⟩
        rw [tz]
        apply tab_congr
        intro i h0 h1
        rw [lane_of_ge _ _ _ (by simp only [SA.toList, List.length_append]; omega)]
      · rw [if_neg hN, if_pos hk]
        obtain ⟨c, ec, wc, tc⟩ := lane_cast z hC hR1 hL1 wb
        obtain ⟨s, es, ws, ts⟩ := shifted_pow2 z hC (isPow2_leftSize hn) (k - leftSize n) wc
        refine ⟨.node _ _, by rw [ec, Option.bind_eq_bind, Option.bind_some, es]; rfl, ⟨ha, ws, wz1⟩, ?_⟩
        rw [SA.toList, tz1, ts, tc]
        refine tab_split hsum _ _ _ ?_ ?_ <;> intro i h0 h1 <;>
          simp only [SA.toList, lane_append, la, lane_tab] <;> lane_fin
  | @low n k h0 hlt hc _ ih =>
    intro hn x wx
    cases ha : C.atomic n with
    | true => exact shifted_pow2 z hC (hC.isPow2 ha) _ wx
    | false =>
      have hn2 := hC.two_le hn ha
      have hsum := leftSize_add_rightSize hn2
      have hle := rightSize_le_leftSize n
      have hL1 := one_le_leftSize (n := n) hn
      have hR1 := one_le_rightSize hn2
      obtain ⟨a, b, rfl, wa, wb⟩ := WF.exists_node ha wx
      have la := WF.length hC hL1 wa
      have lb := WF.length hC hR1 wb
      obtain ⟨wz1, tz1⟩ := broadcast_wf hC z (rightSize n) hR1
      rw [← tab_const] at tz1
      rw [SA.shifted, if_neg (by simp [ha]), dif_pos hn2, if_neg (by omega), if_neg (by omega),
        if_neg (by omega), if_neg (by omega)]
      obtain ⟨r0, e0, w0, t0⟩ := shiftedIn_other z hC hL1 hR1 wa wb (k := k)
        (.inl ⟨by omega, by omega, hc⟩)
      by_cases h1 : k ≥ (rightSize n : Int)
      · rw [if_pos h1]
        refine ⟨.node _ _, by rw [e0]; rfl, ⟨ha, w0, wz1⟩, ?_⟩
        rw [SA.toList, tz1, t0]
        refine tab_split hsum _ _ _ ?_ ?_ <;> intro i h0 h1 <;>
          simp only [SA.toList, lane_append, la, shInAt] <;> lane_fin
      · rw [if_neg h1]
        obtain ⟨r1, e1, w1, t1⟩ := ih (by omega) hR1 b wb
        refine ⟨.node _ _, by rw [e0, Option.bind_eq_bind, Option.bind_some, e1]; rfl, ⟨ha, w0, w1⟩, ?_⟩
        rw [SA.toList, t1, t0]
        refine tab_split hsum _ _ _ ?_ ?_ <;> intro i h0 h1 <;>
          simp only [SA.toList, lane_append, la, shInAt] <;> lane_fin

end Vc.Lemma
