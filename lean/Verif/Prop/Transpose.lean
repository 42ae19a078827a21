import Verif.Model.Transpose
import Verif.Prop.ExCfg

/-!
C65: `tie(r0, r1, r2, r3) = transpose(x0, x1, x2, x3)`.
-/

namespace Vc.Prop
open Vc.Model Vc.Spec Vc.Lemma

private theorem four {α : Type} (l : List α) (h : l.length = 4) : ∃ a b c d, l = [a, b, c, d] :=
  match l, h with | [a, b, c, d], _ => ⟨a, b, c, d, rfl⟩

private theorem one {α : Type} (l : List α) (h : l.length = 1) : ∃ a, l = [a] :=
  match l, h with | [a], _ => ⟨a, rfl⟩

/-- With `float` implementations of the native widths 4 and 1: `SimdArray<float, 4>` is one native vector. -/
private theorem wf4 {α : Type} {x : SA α} (h : SA.WF exCfg 4 x) : ∃ a b c d, x = .atom [a, b, c, d] := by
  match x, h with
  | .atom l, h =>
    obtain ⟨a, b, c, d, rfl⟩ := four l h.1
    exact ⟨a, b, c, d, rfl⟩
  | .node _ _, h => exact absurd h.1 (by decide)

/-- The widths of the scalar implementation. -/
def scalarCfg : Cfg := ⟨[1], 4, 127⟩

private theorem wf1 {α : Type} {x : SA α} (h : SA.WF scalarCfg 1 x) : ∃ a, x = .atom [a] := by
  match x, h with
  | .atom l, h =>
    obtain ⟨a, rfl⟩ := one l h.1
    exact ⟨a, rfl⟩
  | .node _ _, h => exact absurd h.1 (by decide)

private theorem sizes : leftSize 2 = 1 ∧ rightSize 2 = 1 ∧ leftSize 4 = 2 ∧ rightSize 4 = 2 := by
  have h2 := (leftSize_eq_rightSize_iff (n := 2) (by decide)).2 ⟨1, rfl⟩
  have h4 := (leftSize_eq_rightSize_iff (n := 4) (by decide)).2 ⟨2, rfl⟩
  have := leftSize_add_rightSize (n := 2) (by decide)
  have := leftSize_add_rightSize (n := 4) (by decide)
  omega

private theorem wf2 {α : Type} {x : SA α} (h : SA.WF scalarCfg 2 x) : ∃ a b, x = .node (.atom [a]) (.atom [b]) := by
  match x, h with
  | .atom l, h => exact absurd h.2 (by decide)
  | .node x y, h =>
    obtain ⟨a, rfl⟩ := wf1 (sizes.1 ▸ h.2.1)
    obtain ⟨b, rfl⟩ := wf1 (sizes.2.1 ▸ h.2.2)
    exact ⟨a, b, rfl⟩

private theorem wf4s {α : Type} {x : SA α} (h : SA.WF scalarCfg 4 x) : ∃ a b c d,
    x = .node (.node (.atom [a]) (.atom [b])) (.node (.atom [c]) (.atom [d])) := by
  match x, h with
  | .atom l, h => exact absurd h.2 (by decide)
  | .node x y, h =>
    obtain ⟨a, b, rfl⟩ := wf2 (sizes.2.2.1 ▸ h.2.1)
    obtain ⟨c, d, rfl⟩ := wf2 (sizes.2.2.2 ▸ h.2.2)
    exact ⟨a, b, c, d, rfl⟩

/-- Four `SimdArray<T, 4>`, each one native vector or four scalars: the results are `SimdArray<T, 4>` of the
same kind and entry `j` of result `i` is entry `i` of operand `j`. -/
theorem C65_transpose {α : Type} {C : Cfg} (hC : C = exCfg ∨ C = scalarCfg) (x : Nat → SA α)
    (h : ∀ j, j < 4 → SA.WF C 4 (x j)) :
    ∃ r, SA.transpose (x 0) (x 1) (x 2) (x 3) = some r ∧ r.length = 4 ∧
      ∀ i, i < 4 → ∃ y, r[i]? = some y ∧ SA.WF C 4 y ∧
        ∀ j, j < 4 → y.toList[j]? = (x j).toList[i]? := by
  rcases hC with rfl | rfl
  · obtain ⟨a0, b0, c0, d0, e0⟩ := wf4 (h 0 (by decide))
    obtain ⟨a1, b1, c1, d1, e1⟩ := wf4 (h 1 (by decide))
    obtain ⟨a2, b2, c2, d2, e2⟩ := wf4 (h 2 (by decide))
    obtain ⟨a3, b3, c3, d3, e3⟩ := wf4 (h 3 (by decide))
    rw [e0, e1, e2, e3]
    refine ⟨_, rfl, rfl, fun i hi => ?_⟩
    match i, hi with
    | 0, _ =>
      refine ⟨_, rfl, ⟨rfl, by decide⟩, fun j hj => ?_⟩
      match j, hj with | 0, _ => rw [e0]; rfl | 1, _ => rw [e1]; rfl | 2, _ => rw [e2]; rfl | 3, _ => rw [e3]; rfl
    | 1, _ =>
      refine ⟨_, rfl, ⟨rfl, by decide⟩, fun j hj => ?_⟩
      match j, hj with | 0, _ => rw [e0]; rfl | 1, _ => rw [e1]; rfl | 2, _ => rw [e2]; rfl | 3, _ => rw [e3]; rfl
    | 2, _ =>
      refine ⟨_, rfl, ⟨rfl, by decide⟩, fun j hj => ?_⟩
      match j, hj with | 0, _ => rw [e0]; rfl | 1, _ => rw [e1]; rfl | 2, _ => rw [e2]; rfl | 3, _ => rw [e3]; rfl
    | 3, _ =>
      refine ⟨_, rfl, ⟨rfl, by decide⟩, fun j hj => ?_⟩
      match j, hj with | 0, _ => rw [e0]; rfl | 1, _ => rw [e1]; rfl | 2, _ => rw [e2]; rfl | 3, _ => rw [e3]; rfl
  · have w1 : ∀ a : α, SA.WF scalarCfg 1 (.atom [a]) := fun a => ⟨rfl, by decide⟩
    have w4 : ∀ a b c d : α, SA.WF scalarCfg 4 (.node (.node (.atom [a]) (.atom [b])) (.node (.atom [c]) (.atom [d]))) :=
      fun a b c d => by
        have w2 : ∀ a b : α, SA.WF scalarCfg 2 (.node (.atom [a]) (.atom [b])) := fun a b =>
          ⟨by decide, by rw [sizes.1]; exact w1 a, by rw [sizes.2.1]; exact w1 b⟩
        exact ⟨by decide, by rw [sizes.2.2.1]; exact w2 a b, by rw [sizes.2.2.2]; exact w2 c d⟩
    obtain ⟨a0, b0, c0, d0, e0⟩ := wf4s (h 0 (by decide))
    obtain ⟨a1, b1, c1, d1, e1⟩ := wf4s (h 1 (by decide))
    obtain ⟨a2, b2, c2, d2, e2⟩ := wf4s (h 2 (by decide))
    obtain ⟨a3, b3, c3, d3, e3⟩ := wf4s (h 3 (by decide))
    rw [e0, e1, e2, e3]
    refine ⟨_, rfl, rfl, fun i hi => ?_⟩
    match i, hi with
    | 0, _ =>
      refine ⟨_, rfl, w4 _ _ _ _, fun j hj => ?_⟩
      match j, hj with | 0, _ => rw [e0]; rfl | 1, _ => rw [e1]; rfl | 2, _ => rw [e2]; rfl | 3, _ => rw [e3]; rfl
    | 1, _ =>
      refine ⟨_, rfl, w4 _ _ _ _, fun j hj => ?_⟩
      match j, hj with | 0, _ => rw [e0]; rfl | 1, _ => rw [e1]; rfl | 2, _ => rw [e2]; rfl | 3, _ => rw [e3]; rfl
    | 2, _ =>
      refine ⟨_, rfl, w4 _ _ _ _, fun j hj => ?_⟩
      match j, hj with | 0, _ => rw [e0]; rfl | 1, _ => rw [e1]; rfl | 2, _ => rw [e2]; rfl | 3, _ => rw [e3]; rfl
    | 3, _ =>
      refine ⟨_, rfl, w4 _ _ _ _, fun j hj => ?_⟩
      match j, hj with | 0, _ => rw [e0]; rfl | 1, _ => rw [e1]; rfl | 2, _ => rw [e2]; rfl | 3, _ => rw [e3]; rfl

/-- Transposing twice gives the operands back. -/
theorem C65_involution {α : Type} {C : Cfg} (hC : C = exCfg ∨ C = scalarCfg) (x0 x1 x2 x3 : SA α)
    (h : SA.WF C 4 x0 ∧ SA.WF C 4 x1 ∧ SA.WF C 4 x2 ∧ SA.WF C 4 x3) :
    ∃ r0 r1 r2 r3, SA.transpose x0 x1 x2 x3 = some [r0, r1, r2, r3] ∧
      SA.transpose r0 r1 r2 r3 = some [x0, x1, x2, x3] := by
  obtain ⟨h0, h1, h2, h3⟩ := h
  rcases hC with rfl | rfl
  · obtain ⟨a0, b0, c0, d0, rfl⟩ := wf4 h0
    obtain ⟨a1, b1, c1, d1, rfl⟩ := wf4 h1
    obtain ⟨a2, b2, c2, d2, rfl⟩ := wf4 h2
    obtain ⟨a3, b3, c3, d3, rfl⟩ := wf4 h3
    exact ⟨_, _, _, _, rfl, rfl⟩
  · obtain ⟨a0, b0, c0, d0, rfl⟩ := wf4s h0
    obtain ⟨a1, b1, c1, d1, rfl⟩ := wf4s h1
    obtain ⟨a2, b2, c2, d2, rfl⟩ := wf4s h2
    obtain ⟨a3, b3, c3, d3, rfl⟩ := wf4s h3
    exact ⟨_, _, _, _, rfl, rfl⟩

/-- One scalar vector. -/
theorem C65_scalar {α : Type} (x : α) : transpose11 x = x := rfl

example : SA.transpose (.atom [1, 2, 3, 4]) (.atom [5, 6, 7, 8]) (.atom [9, 10, 11, 12]) (.atom [13, 14, 15, 16]) =
    some [.atom [1, 5, 9, 13], .atom [2, 6, 10, 14], .atom [3, 7, 11, 15], .atom [4, 8, 12, 16]] := rfl

end Vc.Prop
