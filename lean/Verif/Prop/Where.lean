import Verif.Prop.ExCfg
import Verif.Lemma.Where

/-!
# C25: masked assignment
-/

namespace Vc.Prop
open Vc.Model Vc.Spec Vc.Lemma

variable {α β γ : Type _} {C : Cfg}

/-- `x(mask) = y`, `where(mask) | x = y`: lane `i` is that of `y` where the mask is set, that of
`x` elsewhere. -/
theorem C25_assign (hC : C.Valid) (n : Nat) (hn : 1 ≤ n) (x y : SA α) (m : SA Bool)
    (hx : SA.WF C n x) (hy : SA.WF C n y) (hm : SA.WF C n m) :
    ∃ r, x.assign y m = some r ∧ SA.WF C n r ∧
      ∀ i : Nat, i < n → r.get C (i : Int) =
        if m.get C (i : Int) = some true then y.get C (i : Int) else x.get C (i : Int) := by
  obtain ⟨r, e, w, t⟩ := assign_wf hC n hn x y m hx hy hm
  refine ⟨r, e, w, fun i hi => ?_⟩
  have lx := WF.length hC hn hx
  have ly := WF.length hC hn hy
  have lm := WF.length hC hn hm
  rw [get_eq hC hn w, t, get_lane hC hn hm (by omega), get_lane hC hn hx (by omega),
    get_lane hC hn hy (by omega),
    List.getElem?_eq_getElem (by rw [natAssign_length] <;> omega),
    natAssign_getElem _ _ _ _ _ (by omega) (by omega) (by omega)]
  by_cases h : m.toList[i] = true <;> simp [h]

example : ∃ (x : SA Nat) (m : SA Bool), SA.WF exCfg 7 x ∧ SA.WF exCfg 7 m := by
  obtain ⟨x, hx, _⟩ := ex7
  obtain ⟨m, hm, _⟩ := exMask7
  exact ⟨x, m, hx, hm⟩

/-- `iif(mask, a, b)` is `a` where the mask is set and `b` elsewhere. -/
theorem C25_iif (hC : C.Valid) (n : Nat) (hn : 1 ≤ n) (a b : SA α) (m : SA Bool)
    (ha : SA.WF C n a) (hb : SA.WF C n b) (hm : SA.WF C n m) :
    ∃ r, SA.iif m a b = some r ∧ SA.WF C n r ∧
      ∀ i : Nat, i < n → r.get C (i : Int) =
        if m.get C (i : Int) = some true then a.get C (i : Int) else b.get C (i : Int) :=
  C25_assign hC n hn b a m hb ha hm

example : ∃ (a b : SA Nat) (m : SA Bool) (r : SA Nat), SA.WF exCfg 7 a ∧ SA.WF exCfg 7 b ∧
    SA.WF exCfg 7 m ∧ SA.iif m a b = some r ∧ r.toList = [10, 1, 1, 13, 14, 1, 1] := by
  obtain ⟨x, hx, tx⟩ := ex7
  obtain ⟨y, hy, ty⟩ := exists_of_lanes exCfg_valid (List.replicate 7 1) (by decide)
  obtain ⟨m, hm, tm⟩ := exMask7
  obtain ⟨r, e, _, t⟩ := assign_wf exCfg_valid 7 (by decide) y x m hy hx hm
  exact ⟨x, y, m, r, hx, hy, hm, e, by rw [t, tx, ty, tm]; decide⟩

/-- `apply(f, mask)`: `f` is applied to the lanes where the mask is set. -/
theorem C25_apply (hC : C.Valid) (n : Nat) (hn : 1 ≤ n) (f : α → α) (x : SA α) (m : SA Bool)
    (hx : SA.WF C n x) (hm : SA.WF C n m) :
    ∃ r, x.applyMasked f m = some r ∧ SA.WF C n r ∧
      ∀ i : Nat, i < n → r.get C (i : Int) =
        if m.get C (i : Int) = some true then (x.get C (i : Int)).map f
        else x.get C (i : Int) := by
  obtain ⟨r, e, w, t⟩ := applyMasked_wf hC f n hn x m hx hm
  refine ⟨r, e, w, fun i hi => ?_⟩
  have lx := WF.length hC hn hx
  have lm := WF.length hC hn hm
  rw [get_eq hC hn w, t, get_lane hC hn hm (by omega), get_lane hC hn hx (by omega),
    List.getElem?_eq_getElem (by rw [natAssign_length _ _ _ (by simp) (by omega)]; omega),
    natAssign_getElem _ _ _ _ _ (by omega) (by simp only [List.length_map]; omega) (by omega)]
  by_cases h : m.toList[i] = true <;> simp [h]

/-- `x(mask) op= y`: lane `i` is `x[i] op y[i]` where the mask is set and is unchanged elsewhere,
provided that `op` is defined in all lanes, also the inactive ones. Missing: operations that are
undefined in an inactive lane, see `C25_op_inactive_violated`. -/
theorem C25_op_partial (hC : C.Valid) (n : Nat) (hn : 1 ≤ n) (f : α → β → Option α) (x : SA α)
    (y : SA β) (m : SA Bool) (hx : SA.WF C n x) (hy : SA.WF C n y) (hm : SA.WF C n m)
    (hdef : ∀ (i : Nat) (a : α) (b : β), x.get C (i : Int) = some a → y.get C (i : Int) = some b →
      (f a b).isSome = true) :
    ∃ r, x.maskedOp f y m = some r ∧ SA.WF C n r ∧
      ∀ (i : Nat) (a : α) (b : β), x.get C (i : Int) = some a → y.get C (i : Int) = some b →
        r.get C (i : Int) = if m.get C (i : Int) = some true then f a b else some a := by
  have lx := WF.length hC hn hx
  have ly := WF.length hC hn hy
  obtain ⟨t, ht⟩ := mapM_isSome (f := fun p => f p.1 p.2) (l := x.toList.zip y.toList) (by
    intro p hp
    obtain ⟨i, hi, rfl⟩ := List.getElem_of_mem hp
    simp only [List.length_zip] at hi
    rw [List.getElem_zip]
    exact hdef i _ _ (get_lane hC hn hx (by omega)) (get_lane hC hn hy (by omega)))
  obtain ⟨s, es, ws, ts⟩ := zipWithM_wf hC f n hn x y t hx hy ht
  obtain ⟨r, er, wr, hr⟩ := C25_assign hC n hn x s m hx ws hm
  refine ⟨r, by rw [SA.maskedOp, es]; exact er, wr, fun i a b ha hb => ?_⟩
  have hi : i < n := by
    rw [get_eq hC hn hx] at ha
    obtain ⟨h, _⟩ := List.getElem?_eq_some_iff.mp ha
    omega
  have ls := WF.length hC hn ws
  rw [hr i hi, ha]
  split
  · rw [get_lane hC hn hx (by omega)] at ha
    rw [get_lane hC hn hy (by omega)] at hb
    injection ha with ha; injection hb with hb
    have hl : i < (x.toList.zip y.toList).length := by simp only [List.length_zip]; omega
    have := mapM_getElem ht i hl (by rw [mapM_length ht]; exact hl)
    rw [List.getElem_zip] at this
    simp only [ha, hb] at this
    rw [this, get_lane hC hn ws (by omega)]
    simp only [ts]
  · rfl

/-- A total operation meets the hypothesis. -/
example (x : SA Nat) (y : SA Nat) : ∀ (i : Nat) (a b : Nat), x.get exCfg (i : Int) = some a →
    y.get exCfg (i : Int) = some b → ((fun a b : Nat => some (a + b)) a b).isSome = true :=
  fun _ _ _ _ _ => rfl

/-- Integer division of one lane; division by zero is undefined. -/
def divLane (a b : Nat) : Option Nat := if b = 0 then none else some (a / b)

/-- The unrestricted claim is false: `x(mask) /= y` for integers divides in all lanes, so a zero
divisor in an inactive lane is undefined behaviour although every active lane is fine. -/
theorem C25_op_inactive_violated :
    ∃ (x y : SA Nat) (m : SA Bool), SA.WF exCfg 4 x ∧ SA.WF exCfg 4 y ∧ SA.WF exCfg 4 m ∧
      (∀ (i : Nat) (a b : Nat), m.get exCfg (i : Int) = some true → x.get exCfg (i : Int) = some a →
        y.get exCfg (i : Int) = some b → (divLane a b).isSome = true) ∧
      x.maskedOp divLane y m = none := by
  have ha : exCfg.atomic 4 = true := by decide
  have wy : SA.WF exCfg 4 (.atom [2, 0, 3, 4]) := ⟨rfl, ha⟩
  have wm : SA.WF exCfg 4 (.atom [true, false, true, true]) := ⟨rfl, ha⟩
  refine ⟨.atom [10, 11, 12, 13], .atom [2, 0, 3, 4], .atom [true, false, true, true],
    ⟨rfl, ha⟩, wy, wm, ?_, rfl⟩
  intro i a b hm _ hb
  rw [get_eq exCfg_valid (by decide) wm] at hm
  rw [get_eq exCfg_valid (by decide) wy] at hb
  match i with
  | 0 => cases hb; rfl
  | 1 => cases hm
  | 2 => cases hb; rfl
  | 3 => cases hb; rfl
  | _ + 4 => simp [SA.toList] at hm

/-- `++x(mask)`, `--x(mask)`: the active lanes are incremented, the others keep their value,
provided that adding (subtracting) zero does nothing. Missing: floating-point increment, for which
`-0.0 + 0.0` is `0.0`, see `C25_increment_violated`. -/
theorem C25_increment_partial (hC : C.Valid) (n : Nat) (hn : 1 ≤ n) (f : α → α → α) (one z : α)
    (hz : ∀ v, f v z = v) (x : SA α) (m : SA Bool) (hx : SA.WF C n x) (hm : SA.WF C n m) :
    ∃ r, x.maskedInc C f one z n m = some r ∧ SA.WF C n r ∧
      ∀ i : Nat, i < n → r.get C (i : Int) =
        if m.get C (i : Int) = some true then (x.get C (i : Int)).map (f · one)
        else x.get C (i : Int) := by
  obtain ⟨wb, tb⟩ := broadcast_wf hC one n hn
  obtain ⟨o, eo, wo, to⟩ := setZeroInverted_wf hC z n hn _ m wb hm
  obtain ⟨r, er, wr, tr⟩ := zipWith_wf hC f n hn x o hx wo
  refine ⟨r, by rw [SA.maskedInc, eo]; exact er, wr, fun i hi => ?_⟩
  have lx := WF.length hC hn hx
  have lm := WF.length hC hn hm
  have lr := WF.length hC hn wr
  rw [get_lane hC hn wr (by omega), get_lane hC hn hm (by omega), get_lane hC hn hx (by omega)]
  simp only [tr, to, tb, List.getElem_zipWith, List.getElem_replicate]
  by_cases h : m.toList[i] = true <;> simp [h, hz]

example : ∀ v : BitVec 32, v + 0 = v ∧ v - 0 = v := by intro v; simp

/-- Integer-valued floating-point numbers of small magnitude: sign and magnitude. -/
structure SignMag where
  neg : Bool
  mag : Nat
deriving DecidableEq

/-- IEEE-754 addition restricted to exactly representable integers (round to nearest: an exact
zero sum of operands with different signs is `+0`). -/
def SignMag.add (a b : SignMag) : SignMag :=
  if a.neg = b.neg then ⟨a.neg, a.mag + b.mag⟩
  else if a.mag = b.mag then ⟨false, 0⟩
  else if b.mag < a.mag then ⟨a.neg, a.mag - b.mag⟩
  else ⟨b.neg, b.mag - a.mag⟩

/-- The unrestricted claim is false: a masked increment turns `-0.0` in an inactive lane into
`0.0`. -/
theorem C25_increment_violated :
    ∃ (x : SA SignMag) (m : SA Bool) (r : SA SignMag), SA.WF exCfg 4 x ∧ SA.WF exCfg 4 m ∧
      x.maskedInc exCfg SignMag.add ⟨false, 1⟩ ⟨false, 0⟩ 4 m = some r ∧
      m.get exCfg 1 = some false ∧ r.get exCfg 1 ≠ x.get exCfg 1 := by
  have ha : exCfg.atomic 4 = true := by decide
  refine ⟨.atom [⟨true, 0⟩, ⟨true, 0⟩, ⟨true, 0⟩, ⟨true, 0⟩], .atom [true, false, true, true],
    .atom [⟨false, 1⟩, ⟨false, 0⟩, ⟨false, 1⟩, ⟨false, 1⟩], ⟨rfl, ha⟩, ⟨rfl, ha⟩, ?_, rfl, by decide⟩
  rw [SA.maskedInc, SA.broadcast, if_pos ha]
  rfl

end Vc.Prop
