import Verif.Lemma.SimdArrayReduce

namespace Vc.Lemma
open Vc.Model Vc.Spec

variable {α : Type _} {C : Cfg} {le : α → α → Bool}

/-- `Vc::min` / `Vc::max` on one lane. -/
def minOf (le : α → α → Bool) (a b : α) : α := if le a b then a else b
@[inherit_doc minOf]
def maxOf (le : α → α → Bool) (a b : α) : α := if le a b then b else a

theorem perm_minmax : ∀ (a b : List α), a.length = b.length →
    (List.zipWith (minOf le) a b ++ List.zipWith (maxOf le) a b).Perm (a ++ b)
  | [], [], _ => .nil
  | x :: a, y :: b, h => by
    have ih := perm_minmax a b (by simpa using h)
    simp only [List.zipWith_cons_cons, List.cons_append]
    have h1 : (minOf le x y :: (List.zipWith (minOf le) a b ++
        maxOf le x y :: List.zipWith (maxOf le) a b)).Perm
        (minOf le x y :: maxOf le x y :: (List.zipWith (minOf le) a b ++
          List.zipWith (maxOf le) a b)) := .cons _ List.perm_middle
    have h2 : (x :: (a ++ y :: b)).Perm (x :: y :: (a ++ b)) := .cons _ List.perm_middle
    refine h1.trans (.trans ?_ h2.symm)
    unfold minOf maxOf
    split
    · exact .cons _ (.cons _ ih)
    · exact (List.Perm.swap _ _ _).trans (.cons _ (.cons _ ih))

theorem minOf_le (h : LinOrd le) (a b : α) : le (minOf le a b) a ∧ le (minOf le a b) b := by
  have := h.total a b
  have ha := h.total a a
  have hb := h.total b b
  unfold minOf
  split <;> simp_all

theorem le_maxOf (h : LinOrd le) (a b : α) : le a (maxOf le a b) ∧ le b (maxOf le a b) := by
  have := h.total a b
  have ha := h.total a a
  have hb := h.total b b
  unfold maxOf
  split <;> simp_all

/-- Bitonic split: every lane-wise minimum is below every lane-wise maximum. -/
theorem minmax_split (h : LinOrd le) (a b : List α) (hl : a.length = b.length)
    (ha : a.Pairwise (fun a b => le a b = true))
    (hb : b.reverse.Pairwise (fun a b => le a b = true)) :
    ∀ x ∈ List.zipWith (minOf le) a b, ∀ y ∈ List.zipWith (maxOf le) a b, le x y := by
  intro x hx y hy
  obtain ⟨i, hi, rfl⟩ := List.getElem_of_mem hx
  obtain ⟨j, hj, rfl⟩ := List.getElem_of_mem hy
  simp only [List.length_zipWith] at hi hj
  rw [List.getElem_zipWith, List.getElem_zipWith]
  rcases Nat.le_total i j with hij | hij
  · apply h.trans _ a[i] _ (minOf_le h _ _).1
    apply h.trans _ a[j] _ _ (le_maxOf h _ _).1
    rcases Nat.lt_or_eq_of_le hij with hlt | rfl
    · exact List.pairwise_iff_getElem.mp ha i j (by omega) (by omega) hlt
    · simpa using h.total a[i] a[i]
  · apply h.trans _ b[i] _ (minOf_le h _ _).2
    apply h.trans _ b[j] _ _ (le_maxOf h _ _).2
    rcases Nat.lt_or_eq_of_le hij with hlt | rfl
    · rw [List.pairwise_reverse] at hb
      exact List.pairwise_iff_getElem.mp hb j i (by omega) (by omega) hlt
    · simpa using h.total b[j] b[j]

theorem sorted_unique (h : LinOrd le) {l r s : List α} (hr : IsSorted le l r)
    (hs : IsSorted le l s) : r = s := by
  refine List.Perm.eq_of_pairwise (le := fun a b => le a b = true) ?_ hr.1 hs.1
    (hr.2.trans hs.2.symm)
  intro a b _ _ h1 h2
  exact h.antisymm a b h1 h2

theorem sortedPow2_wf (hC : C.Valid) (z : α) (h : LinOrd le) (natSort : List α → List α)
    (hs : ∀ l, IsSorted le l (natSort l)) (n : Nat) (hn : IsPow2 n) :
    ∀ (x : SA α), SA.WF C n x →
      ∃ r, x.sortedPow2 C z natSort (minOf le) (maxOf le) n = some r ∧ SA.WF C n r ∧
        IsSorted le x.toList r.toList := by
  revert hn
  refine Nat.strongRecOn (motive := fun n => IsPow2 n → ∀ (x : SA α), SA.WF C n x →
      ∃ r, x.sortedPow2 C z natSort (minOf le) (maxOf le) n = some r ∧ SA.WF C n r ∧
        IsSorted le x.toList r.toList) n ?_
  intro n ih hn x wx
  cases ha : C.atomic n with
  | true =>
    obtain ⟨l, rfl, hl⟩ := WF.exists_atom ha wx
    rw [SA.sortedPow2, if_pos ha]
    exact ⟨_, rfl, ⟨by rw [(hs l).2.length_eq, hl], ha⟩, hs l⟩
  | false =>
    have hn2 := hC.two_le hn.pos ha
    have hL1 := one_le_leftSize (n := n) (by omega)
    have hLp := isPow2_leftSize (n := n) (by omega)
    have he := (leftSize_eq_rightSize_iff hn2).mpr hn
    obtain ⟨a, b, rfl, wa, wb⟩ := WF.exists_node ha wx
    rw [← he] at wb
    have la := WF.length hC hL1 wa
    have lb := WF.length hC hL1 wb
    have IH := ih _ (leftSize_lt hn2) hLp
    obtain ⟨sa, esa, wsa, tsa⟩ := IH a wa
    obtain ⟨sb, esb, wsb, tsb⟩ := IH b wb
    obtain ⟨rb, erb, wrb, trb⟩ := reversed_wf z hC _ hL1 sb wsb
    rw [← reverse_eq_tab z (WF.length hC hL1 wsb)] at trb
    obtain ⟨lo, elo, wlo, tlo⟩ := zipWith_wf hC (minOf le) _ hL1 sa rb wsa wrb
    obtain ⟨hi, ehi, whi, thi⟩ := zipWith_wf hC (maxOf le) _ hL1 sa rb wsa wrb
    obtain ⟨r0, e0, w0, t0⟩ := IH lo wlo
    obtain ⟨r1, e1, w1, t1⟩ := IH hi whi
    have lsa := WF.length hC hL1 wsa
    have lrb := WF.length hC hL1 wrb
    rw [SA.sortedPow2, if_neg (by simp [ha]), dif_pos hn2, if_pos he]
    refine ⟨.node r0 r1, by simp only [esa, esb, erb, elo, ehi, e0, e1, Option.bind_eq_bind,
      Option.bind_some, Option.pure_def], ⟨ha, w0, he ▸ w1⟩, ?_⟩
    rw [SA.toList, SA.toList]
    constructor
    · rw [List.pairwise_append]
      refine ⟨t0.1, t1.1, ?_⟩
      intro u hu v hv
      have hu' := t0.2.mem_iff.mp hu
      have hv' := t1.2.mem_iff.mp hv
      rw [tlo] at hu'
      rw [thi] at hv'
      exact minmax_split h _ _ (by omega) tsa.1 (by rw [trb, List.reverse_reverse]; exact tsb.1)
        u hu' v hv'
    · refine (t0.2.append t1.2).trans ?_
      rw [tlo, thi]
      refine (perm_minmax _ _ (by omega)).trans ?_
      refine tsa.2.append ?_
      rw [trb]
      exact (List.reverse_perm _).trans tsb.2

theorem take_set_succ (l : List α) (i : Nat) (t : α) (h : i < l.length) :
    (l.set i t).take (i + 1) = l.take i ++ [t] := by
  apply List.ext_getElem (by simp; omega)
  intro j h1 h2
  rw [List.getElem_take, List.getElem_set, List.getElem_append]
  split
  · rename_i e; subst e; rw [dif_neg (by simp; omega)]; simp
  · rename_i hne
    simp only [List.length_take, List.length_set] at h1
    rw [dif_pos (by simp; omega), List.getElem_take]

theorem take_resize (z : α) {m : Nat} (l : List α) (h : l.length ≤ m) :
    (resize z m l).take l.length = l := by
  apply List.ext_getElem (by simp [resize]; omega)
  intro j h1 h2
  rw [List.getElem_take]
  unfold resize
  rw [tab_getElem, lane_eq_getElem _ _ _ h2]

theorem fillFrom_wf (hC : C.Valid) (top : α) {m : Nat} (hm : 1 ≤ m) : ∀ (cnt i : Nat) (x : SA α),
    SA.WF C m x → i + cnt ≤ m → ∃ r, x.fillFrom C top i cnt = some r ∧ SA.WF C m r ∧
      r.toList = x.toList.take i ++ List.replicate cnt top ++ x.toList.drop (i + cnt)
  | 0, i, x, wx, h => ⟨x, rfl, wx, by simp⟩
  | cnt + 1, i, x, wx, h => by
    have lx := WF.length hC hm wx
    obtain ⟨y, ey, wy, ty⟩ := set_eq hC top hm wx i (by omega)
    obtain ⟨r, er, wr, tr⟩ := fillFrom_wf hC top hm cnt (i + 1) y wy (by omega)
    refine ⟨r, by simp only [SA.fillFrom, ey, er, Option.bind_eq_bind, Option.bind_some], wr, ?_⟩
    rw [tr, ty]
    have h1 := take_set_succ x.toList i top (by omega)
    have h2 : (x.toList.set i top).drop (i + 1 + cnt) = x.toList.drop (i + (cnt + 1)) := by
      rw [List.drop_set_of_lt (by omega)]
      congr 1; omega
    rw [h1, h2, List.replicate_succ]
    simp

theorem sorted_wf (hC : C.Valid) (z top : α) (h : LinOrd le) (htop : ∀ a, le a top)
    (natSort : List α → List α) (hs : ∀ l, IsSorted le l (natSort l)) {n : Nat} (hn : 1 ≤ n)
    {x : SA α} (wx : SA.WF C n x) :
    ∃ r, x.sorted C z top natSort (minOf le) (maxOf le) n = some r ∧ SA.WF C n r ∧
      IsSorted le x.toList r.toList := by
  have lx := WF.length hC hn wx
  unfold SA.sorted
  split
  · rename_i hc
    apply sortedPow2_wf hC z h natSort hs n _ x wx
    rcases hc with ha | he
    · exact hC.isPow2 ha
    · cases ha : C.atomic n with
      | true => exact hC.isPow2 ha
      | false => exact (leftSize_eq_rightSize_iff (hC.two_le hn ha)).mp he
  · obtain ⟨hp, hge, _⟩ := nextPow2_isLeast hn
    have hp1 := hp.pos
    obtain ⟨s, es, ws, ts⟩ := cast_wf hC z hn hp1 wx
    obtain ⟨f, ef, wf, tf⟩ := fillFrom_wf hC top hp1 (nextPow2 n - n) n s ws (by omega)
    obtain ⟨t, et, wt, tt⟩ := sortedPow2_wf hC z h natSort hs _ hp f wf
    obtain ⟨r, er, wr, tr⟩ := cast_wf hC z hp1 hn wt
    refine ⟨r, by simp only [es, ef, et, er, Option.bind_eq_bind, Option.bind_some], wr, ?_⟩
    have lf := WF.length hC hp1 wf
    have hf : f.toList = x.toList ++ List.replicate (nextPow2 n - n) top := by
      rw [tf, ts]
      have h1 : (resize z (nextPow2 n) x.toList).take n = x.toList := by
        have := take_resize z (m := nextPow2 n) x.toList (by omega)
        rwa [lx] at this
      have h2 : (resize z (nextPow2 n) x.toList).drop (n + (nextPow2 n - n)) = [] := by
        rw [List.drop_eq_nil_iff, resize_length]; omega
      rw [h1, h2, List.append_nil]
    have hsl : IsSorted le x.toList (natSort x.toList) := hs _
    have hsorted : IsSorted le f.toList (natSort x.toList ++ List.replicate (nextPow2 n - n) top) := by
      constructor
      · rw [List.pairwise_append]
        refine ⟨hsl.1, ?_, ?_⟩
        · rw [List.pairwise_replicate]; exact .inr (htop _)
        · intro a _ b hb
          rw [(List.mem_replicate.mp hb).2]
          exact htop a
      · rw [hf]
        exact hsl.2.append (List.Perm.refl _)
    have heq := sorted_unique h tt hsorted
    have : r.toList = natSort x.toList := by
      rw [tr, heq]
      have hl : (natSort x.toList).length = n := by rw [hsl.2.length_eq, lx]
      unfold resize
      rw [eq_comm]
      apply eq_tab hl
      intro i hi
      rw [lane_append, if_pos (by omega), lane_eq_getElem]
    rw [this]
    exact hsl

end Vc.Lemma
