import Verif.Model.SetLanes
import Verif.Spec.SetLanes
import Verif.Spec.Mask
import Verif.Lemma.Where
import Verif.Lemma.FloatRound2

namespace Vc.Lemma
open Vc.Model Vc.Spec

variable {C : Cfg}

/-- A function of a SimdArray and a mask that works on the halves and lane by lane on native vectors. -/
theorem masked_wf (hC : C.Valid) (op : SA α → SA Bool → Option (SA α)) (f : α → Bool → α)
    (ha : ∀ l m, op (.atom l) (.atom m) = some (.atom (List.zipWith f l m)))
    (hb : ∀ a b c d, op (.node a b) (.node c d) = (do return .node (← op a c) (← op b d))) (n : Nat) (hn : 1 ≤ n) :
    ∀ (x : SA α) (m : SA Bool), SA.WF C n x → SA.WF C n m →
      ∃ r, op x m = some r ∧ SA.WF C n r ∧ r.toList = List.zipWith f x.toList m.toList := by
  refine template_induction hC (P := fun n => ∀ (x : SA α) (m : SA Bool), SA.WF C n x → SA.WF C n m →
      ∃ r, op x m = some r ∧ SA.WF C n r ∧ r.toList = List.zipWith f x.toList m.toList) ?_ ?_ n hn
  · intro n hn hat x m wx wm
    obtain ⟨l, rfl, hl⟩ := WF.exists_atom hat wx
    obtain ⟨b, rfl, hb⟩ := WF.exists_atom hat wm
    exact ⟨_, ha _ _, ⟨by simp; omega, hat⟩, rfl⟩
  · intro n hn hat ih0 ih1 x m wx wm
    obtain ⟨a, b, rfl, wa, wb⟩ := WF.exists_node hat wx
    obtain ⟨c, d, rfl, wc, wd⟩ := WF.exists_node hat wm
    have la := WF.length hC (one_le_leftSize (by omega)) wa
    have lc := WF.length hC (one_le_leftSize (by omega)) wc
    obtain ⟨r0, e0, w0, t0⟩ := ih0 a c wa wc
    obtain ⟨r1, e1, w1, t1⟩ := ih1 b d wb wd
    refine ⟨.node r0 r1, by simp [hb, e0, e1], ⟨hat, w0, w1⟩, ?_⟩
    rw [SA.toList, SA.toList, SA.toList, t0, t1, List.zipWith_append (by omega)]

/-- The same without a mask. -/
theorem unmasked_wf (hC : C.Valid) (op : SA α → SA α) (f : α → α) (ha : ∀ l, op (.atom l) = .atom (l.map f))
    (hb : ∀ a b, op (.node a b) = .node (op a) (op b)) (n : Nat) (hn : 1 ≤ n) :
    ∀ x : SA α, SA.WF C n x → SA.WF C n (op x) ∧ (op x).toList = x.toList.map f := by
  refine template_induction hC (P := fun n => ∀ x : SA α, SA.WF C n x →
      SA.WF C n (op x) ∧ (op x).toList = x.toList.map f) ?_ ?_ n hn
  · intro n hn hat x wx
    obtain ⟨l, rfl, hl⟩ := WF.exists_atom hat wx
    rw [ha]
    exact ⟨⟨by simp; omega, hat⟩, rfl⟩
  · intro n hn hat ih0 ih1 x wx
    obtain ⟨a, b, rfl, wa, wb⟩ := WF.exists_node hat wx
    obtain ⟨w0, t0⟩ := ih0 a wa
    obtain ⟨w1, t1⟩ := ih1 b wb
    rw [hb]
    refine ⟨⟨hat, w0, w1⟩, ?_⟩
    rw [SA.toList, SA.toList, t0, t1, List.map_append]

/-- The entries of the result, read one by one. -/
theorem masked_get (hC : C.Valid) {n : Nat} (hn : 1 ≤ n) {x r : SA α} {m : SA Bool} {f : α → Bool → α}
    (wx : SA.WF C n x) (wm : SA.WF C n m) (wr : SA.WF C n r) (t : r.toList = List.zipWith f x.toList m.toList)
    {i : Nat} (hi : i < n) :
    ∃ v b, x.get C (i : Int) = some v ∧ m.get C (i : Int) = some b ∧ r.get C (i : Int) = some (f v b) := by
  have lx := WF.length hC hn wx
  have lm := WF.length hC hn wm
  have lr := WF.length hC hn wr
  refine ⟨x.toList[i], m.toList[i], get_lane hC hn wx _, get_lane hC hn wm _, ?_⟩
  rw [get_lane hC hn wr (by omega)]
  simp only [t, List.getElem_zipWith]

theorem unmasked_get (hC : C.Valid) {n : Nat} (hn : 1 ≤ n) {x r : SA α} {f : α → α}
    (wx : SA.WF C n x) (wr : SA.WF C n r) (t : r.toList = x.toList.map f) {i : Nat} (hi : i < n) :
    ∃ v, x.get C (i : Int) = some v ∧ r.get C (i : Int) = some (f v) := by
  have lx := WF.length hC hn wx
  have lr := WF.length hC hn wr
  refine ⟨x.toList[i], get_lane hC hn wx _, ?_⟩
  rw [get_lane hC hn wr (by omega)]
  simp only [t, List.getElem_map]

theorem andnot_boolLane {w : Nat} (v : BitVec w) (b : Bool) :
    natSetZeroMask v (boolLane w b) = if b then 0#w else v := by
  cases b <;> simp [natSetZeroMask, andnot, boolLane]

theorem and_boolLane {w : Nat} (v : BitVec w) (b : Bool) :
    natSetZeroInverted v (boolLane w b) = if b then v else 0#w := by
  cases b <;> simp [natSetZeroInverted, boolLane]

theorem or_boolLane {w : Nat} (v : BitVec w) (b : Bool) :
    natSetQnanMask v (boolLane w b) = if b then BitVec.allOnes w else v := by
  cases b <;> simp [natSetQnanMask, boolLane]

theorem quiet_allOnes {F : Fmt} (h : F = f32 ∨ F = f64) : IsQuietNaN F (BitVec.allOnes (F.e + F.m + 1)) := by
  rcases h with rfl | rfl
  · exact ⟨by decide, by decide⟩
  · exact ⟨by decide, by decide⟩

end Vc.Lemma
