import Verif.Prop.ExCfg
import Verif.Lemma.SimdArrayShift2
import Verif.Lemma.SimdArraySort

/-!
# C18 to C23: SimdArray operations that move lanes

`z` is the value zero of the entry type.
-/

namespace Vc.Prop
open Vc.Model Vc.Spec Vc.Lemma

variable {α β γ : Type _} {C : Cfg}

/-! ## C18 -/

/-- `reversed()` reverses the lanes, for every size. -/
theorem C18_reversed (hC : C.Valid) (z : α) (n : Nat) (hn : 1 ≤ n) (x : SA α)
    (hx : SA.WF C n x) :
    ∃ r, x.reversed C z n = some r ∧ SA.WF C n r ∧ r.toList = x.toList.reverse := by
  obtain ⟨r, e, w, t⟩ := reversed_wf z hC n hn x hx
  exact ⟨r, e, w, t.trans (reverse_eq_tab z (WF.length hC hn hx)).symm⟩

example : ∃ x : SA Nat, SA.WF exCfg 7 x := ex7.imp fun _ h => h.1

/-! ## C19 -/

/-- `rotated(k)`: lane `i` receives lane `(i + k) mod n`, for every `int k`. -/
theorem C19_rotated (hC : C.Valid) (z : α) (n : Nat) (hn : 1 ≤ n) (k : Int) (x : SA α)
    (hx : SA.WF C n x) :
    ∃ r, x.rotated C z n k = some r ∧ SA.WF C n r ∧ r.toList = Spec.rotated z k x.toList := by
  obtain ⟨r, e, w, t⟩ := rotated_wf z hC hn k hx
  exact ⟨r, e, w, t.trans (rotated_eq_tab z k (WF.length hC hn hx)).symm⟩

example : Spec.rotated 0 (-12) [10, 11, 12, 13, 14, 15, 16] = [12, 13, 14, 15, 16, 10, 11] := by
  decide

/-! ## C20 -/

/-- `shifted(k)` for arrays whose size is a power of two, for every `k`: lane `i` receives lane
`i + k`, or zero. -/
theorem C20_shifted_pow2_partial (hC : C.Valid) (z : α) (n : Nat) (hn : IsPow2 n) (k : Int)
    (x : SA α) (hx : SA.WF C n x) :
    ∃ r, x.shifted C z n k = some r ∧ SA.WF C n r ∧ r.toList = Spec.shifted z k x.toList := by
  obtain ⟨r, e, w, t⟩ := shifted_pow2 z hC hn k hx
  exact ⟨r, e, w, t.trans (shifted_eq_tab z k (WF.length hC hn.pos hx)).symm⟩

example : ∃ x : SA Nat, SA.WF exCfg 16 x ∧ IsPow2 16 := by
  obtain ⟨x, h, _⟩ := exists_of_lanes exCfg_valid (List.range 16) (by decide)
  exact ⟨x, h, 4, rfl⟩

/-- `shifted(k)` for all sizes, for the amounts described by `ShiftOk`. Missing: shifts to the
right by less than the first half and shifts to the left by more than the second half (unless
the first half is a native vector) for sizes that are not a power of two; there the claim is
false, see below. -/
theorem C20_shifted_partial (hC : C.Valid) (z : α) (n : Nat) (hn : 1 ≤ n) (k : Int)
    (hk : ShiftOk C n k) (x : SA α) (hx : SA.WF C n x) :
    ∃ r, x.shifted C z n k = some r ∧ SA.WF C n r ∧ r.toList = Spec.shifted z k x.toList := by
  obtain ⟨r, e, w, t⟩ := shifted_general hC z hk hn x hx
  exact ⟨r, e, w, t.trans (shifted_eq_tab z k (WF.length hC hn hx)).symm⟩

theorem sizes6 : leftSize 6 = 4 ∧ rightSize 6 = 2 := by decide +kernel
theorem sizes2 : leftSize 2 = 1 ∧ rightSize 2 = 1 := by decide +kernel

/-- A shift by one to the left is covered for every size whose halves are. -/
example : ShiftOk exCfg 6 1 :=
  .low (by decide) (by rw [sizes6.1]; decide) (.inl (by rw [sizes6.2]; decide))
    (fun _ => .pow2 (by rw [sizes6.2]; exact ⟨1, rfl⟩))

/-- A six-lane `SimdArray<int, 6>` with SSE. -/
def ex6 : SA Nat := .node (.atom [10, 11, 12, 13]) (.node (.atom [14]) (.atom [15]))

theorem atomic4 : exCfg.atomic 4 = true ∧ exCfg.atomic 1 = true ∧ exCfg.atomic 6 = false ∧
    exCfg.atomic 2 = false := by decide

theorem ex2_wf : SA.WF exCfg 2 (SA.node (.atom [14]) (.atom [15])) := by
  refine ⟨atomic4.2.2.2, ?_, ?_⟩
  · rw [sizes2.1]; exact ⟨rfl, atomic4.2.1⟩
  · rw [sizes2.2]; exact ⟨rfl, atomic4.2.1⟩

theorem ex6_wf : SA.WF exCfg 6 ex6 :=
  ⟨atomic4.2.2.1, by rw [sizes6.1]; exact ⟨rfl, atomic4.1⟩, by rw [sizes6.2]; exact ex2_wf⟩

/-- The unrestricted claim is false: with SSE, shifting the six lanes `10, ..., 15` one to the
right fills lane 4 with 11 (lane 1) instead of 13 (lane 3). -/
theorem C20_shifted_violated :
    ∃ (x : SA Nat) (r : SA Nat), SA.WF exCfg 6 x ∧ x.shifted exCfg 0 6 (-1) = some r ∧
      r.toList ≠ Spec.shifted 0 (-1) x.toList := by
  obtain ⟨r, hr, ht⟩ : ∃ r, ex6.shifted exCfg 0 6 (-1) = some r ∧
      r.toList = [0, 10, 11, 12, 11, 14] := by
    obtain ⟨g, eg, wg, tg⟩ := gen_wf exCfg_valid (rightSize 6) (by rw [sizes6.2]; decide)
      (fun (i : Nat) =>
        let j := (i : Int) + (-1)
        if j ≥ 0 then (SA.node (.atom [14]) (.atom [15])).get exCfg j
        else if j ≥ -((rightSize 6 : Nat) : Int) then
          (SA.atom [10, 11, 12, 13]).get exCfg (j + ((rightSize 6 : Nat) : Int))
        else some 0)
      (fun i => if i = 0 then 11 else 14)
      (by
        rw [sizes6.2]
        intro i hi
        match i, hi with
        | 0, _ => decide
        | 1, _ =>
          have := get_eq exCfg_valid (n := 2) (by decide) ex2_wf 0
          exact this)
    refine ⟨.node (.atom [0, 10, 11, 12]) g, ?_, ?_⟩
    · unfold ex6
      rw [SA.shifted, if_neg (by simp [atomic4]), dif_pos (by decide)]
      dsimp only
      rw [if_neg (by decide), if_pos (by decide), if_pos (by rw [sizes6.1]; decide)]
      rw [SA.shifted, if_pos (by rw [sizes6.1]; exact atomic4.1)]
      rw [SA.shiftedIn, if_neg (by rw [sizes6.2]; simp [atomic4]),
        dif_pos (by rw [sizes6.2]; decide), if_neg (by rw [sizes6.1, sizes6.2]; exact fun h => absurd h.2 (by decide)),
        if_pos (by decide)]
      dsimp only at eg ⊢
      rw [eg]
      rfl
    · rw [SA.toList, tg, sizes6.2]; rfl
  exact ⟨ex6, r, ex6_wf, hr, by rw [ht]; decide⟩

/-! ## C21 -/

/-- `shifted(k, y)` for `y` of the same type and `|k| ≤ n`: the lanes `k, ..., k+n-1` of `x y`
(`k ≥ 0`) or the lanes `n+k, ...` of `y x` (`k < 0`). -/
theorem C21_shiftedIn_partial (hC : C.Valid) (z : α) (n : Nat) (hn : 1 ≤ n) (k : Int)
    (hk : -(n : Int) ≤ k ∧ k ≤ n) (x y : SA α) (hx : SA.WF C n x) (hy : SA.WF C n y) :
    ∃ r, x.shiftedIn C z n n k y = some r ∧ SA.WF C n r ∧
      r.toList = Spec.shiftedIn z k x.toList y.toList := by
  obtain ⟨r, e, w, t⟩ := shiftedIn_same z hC hn hx hy hk
  exact ⟨r, e, w, t.trans (shiftedIn_eq_tab z k (WF.length hC hn hx)).symm⟩

example : Spec.shiftedIn 0 (-2) [10, 11, 12, 13, 14] [20, 21, 22, 23, 24] = [23, 24, 10, 11, 12] ∧
    Spec.shiftedIn 0 2 [10, 11, 12, 13, 14] [20, 21, 22, 23, 24] = [12, 13, 14, 20, 21] := by decide

/-- All amounts, except `k ≤ -2n` for equal halves that consist of one-lane vectors, where the
claim is false (below), and for a single native vector (`C.atomic n`) `k > n` (C38) and, if it
has one lane, `k < -1`. -/
theorem C21_shiftedIn_all_partial (hC : C.Valid) (z : α) (n : Nat) (hn : 1 ≤ n) (k : Int)
    (hk : if C.atomic n then (-(n : Int) ≤ k ∨ n ≠ 1) ∧ k ≤ n
      else ¬ IsPow2 n ∨ -2 * (n : Int) < k ∨ bestWidth n C.ws ≠ 1) (x y : SA α)
    (hx : SA.WF C n x) (hy : SA.WF C n y) :
    ∃ r, x.shiftedIn C z n n k y = some r ∧ SA.WF C n r ∧
      r.toList = Spec.shiftedIn z k x.toList y.toList := by
  obtain ⟨r, e, w, t⟩ := (shift_ok z hC n hn).2 k x y hx hy (by
    unfold ShInAmount
    split
    · rename_i h; rwa [if_pos h] at hk
    · rename_i h
      rw [if_neg h] at hk
      split
      · rename_i h'
        exact hk.resolve_left fun hc =>
          hc ((leftSize_eq_rightSize_iff (hC.two_le hn (by simpa using h))).mp h')
      · trivial)
  exact ⟨r, e, w, t.trans (shiftedIn_eq_tab z k (WF.length hC hn hx)).symm⟩

example : exCfg.atomic 8 = false ∧ bestWidth 8 exCfg.ws ≠ 1 := by decide

/-- `y` of another length `nn`, within the lanes `y` has. -/
theorem C21_shiftedIn_other_partial (hC : C.Valid) (z : α) (n nn : Nat) (hn : 1 ≤ n)
    (hnn : 1 ≤ nn) (k : Int)
    (hk : (0 ≤ k ∧ k ≤ n ∧ k ≤ nn) ∨ (-(n : Int) ≤ k ∧ k < 0 ∧ n ≤ nn)) (x y : SA α)
    (hx : SA.WF C n x) (hy : SA.WF C nn y) :
    ∃ r, x.shiftedIn C z n nn k y = some r ∧ SA.WF C n r ∧
      r.toList = Spec.shiftedIn z k x.toList y.toList := by
  obtain ⟨r, e, w, t⟩ := shiftedIn_other z hC hn hnn hx hy (k := k) (by
    rcases hk with ⟨h1, h2, h3⟩ | h
    · exact .inl ⟨h1, h2, .inl h3⟩
    · exact .inr h)
  exact ⟨r, e, w, t.trans (shiftedIn_eq_tab z k (WF.length hC hn hx)).symm⟩

example : (0 ≤ (3 : Int) ∧ (3 : Int) ≤ (7 : Nat) ∧ (3 : Int) ≤ (4 : Nat)) := by decide

/-- The unrestricted claim is false for a shift by `-2n`: no branch handles it and the code for
positive amounts is executed, which shifts one-lane vectors by `-4`. These assert `-1 <= amount
<= 1`; with assertions disabled the result is `(11, 20)` instead of `(0, 0)`. -/
theorem C21_shiftedIn_violated :
    ∃ (x y : SA Nat), SA.WF exCfg 2 x ∧ SA.WF exCfg 2 y ∧
      (x.shiftedIn exCfg 0 2 2 (-4) y).map SA.toList ≠
        some (Spec.shiftedIn 0 (-4) x.toList y.toList) := by
  refine ⟨.node (.atom [10]) (.atom [11]), .node (.atom [20]) (.atom [21]), ?_, ?_, ?_⟩
  · refine ⟨atomic4.2.2.2, ?_, ?_⟩
    · rw [sizes2.1]; exact ⟨rfl, atomic4.2.1⟩
    · rw [sizes2.2]; exact ⟨rfl, atomic4.2.1⟩
  · refine ⟨atomic4.2.2.2, ?_, ?_⟩
    · rw [sizes2.1]; exact ⟨rfl, atomic4.2.1⟩
    · rw [sizes2.2]; exact ⟨rfl, atomic4.2.1⟩
  · rw [SA.shiftedIn, if_neg (by simp [atomic4]), dif_pos (by decide),
      if_pos (by rw [sizes2.1, sizes2.2]; decide)]
    dsimp only
    rw [sizes2.1]
    rw [if_neg (by decide), if_neg (by decide), if_neg (by decide), if_neg (by decide),
      if_neg (by decide), if_neg (by decide), if_pos (by decide)]
    rw [SA.shiftedIn, if_pos atomic4.2.1, cast_same]
    simp [natShiftedIn]

/-! ## C22 -/

/-- `interleaveLow` and `interleaveHigh` are the two halves of `x0 y0 x1 y1 ...`. -/
theorem C22_interleave (hC : C.Valid) (z : α) (n : Nat) (hn : 1 ≤ n) (x y : SA α)
    (hx : SA.WF C n x) (hy : SA.WF C n y) :
    ∃ lo hi, x.interleaveLow C z n y = some lo ∧ x.interleaveHigh C z n y = some hi ∧
      SA.WF C n lo ∧ SA.WF C n hi ∧
      lo.toList = Spec.interleaveLow z x.toList y.toList ∧
      hi.toList = Spec.interleaveHigh z x.toList y.toList := by
  obtain ⟨⟨lo, e0, w0, t0⟩, hi, e1, w1, t1⟩ := interleave_wf z hC n hn x y hx hy
  refine ⟨lo, hi, e0, e1, w0, w1, t0.trans ?_, t1.trans ?_⟩
  · unfold Spec.interleaveLow; rw [WF.length hC hn hx]
  · unfold Spec.interleaveHigh; rw [WF.length hC hn hx]

example : Spec.interleaveLow 0 [1, 2, 3] [4, 5, 6] = [1, 4, 2] ∧
    Spec.interleaveHigh 0 [1, 2, 3] [4, 5, 6] = [5, 3, 6] := by decide

/-! ## C23 -/

/-- `sorted()` returns the ascending permutation of the lanes, for every size, provided that the
entry type is linearly ordered with greatest element `top` (no NaN) and the native `sorted()`
sorts (C31). -/
theorem C23_sorted (hC : C.Valid) (z top : α) (le : α → α → Bool) (hle : LinOrd le)
    (htop : ∀ a, le a top) (natSort : List α → List α) (hs : ∀ l, IsSorted le l (natSort l))
    (n : Nat) (hn : 1 ≤ n) (x : SA α) (hx : SA.WF C n x) :
    ∃ r, x.sorted C z top natSort (fun a b => if le a b then a else b)
        (fun a b => if le a b then b else a) n = some r ∧
      SA.WF C n r ∧ IsSorted le x.toList r.toList :=
  sorted_wf hC z top hle htop natSort hs hn hx

/-- The hypotheses hold for 16-bit unsigned entries with merge sort as native sort. -/
example : ∃ (le : BitVec 16 → BitVec 16 → Bool) (natSort : List (BitVec 16) → List (BitVec 16)),
    LinOrd le ∧ (∀ a, le a 0xffff#16) ∧ ∀ l, IsSorted le l (natSort l) := by
  let le := fun a b : BitVec 16 => decide (a.toNat ≤ b.toNat)
  have h1 : LinOrd le :=
    ⟨by intro a b c; simp [le]; omega, by intro a b; simp [le]; omega, by
      intro a b h1 h2
      apply BitVec.eq_of_toNat_eq
      simp [le] at h1 h2; omega⟩
  refine ⟨le, fun l => l.mergeSort le, h1, ?_, fun l => ⟨?_, List.mergeSort_perm _ _⟩⟩
  · intro a
    have := a.isLt
    simp [le]; omega
  · exact List.pairwise_mergeSort h1.trans h1.total l

end Vc.Prop
