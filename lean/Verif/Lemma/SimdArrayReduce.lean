import Verif.Lemma.SimdArrayMove
import Verif.Spec.Reduce

namespace Vc.Lemma
open Vc.Model Vc.Spec

variable {α : Type _} {C : Cfg}

/-- `op` with `none` as neutral element. -/
def oop (op : α → α → α) : Option α → Option α → Option α
  | none, b => b
  | a, none => a
  | some a, some b => some (op a b)

variable {op : α → α → α} (hop : AssocComm op)
include hop

theorem oop_assoc (a b c : Option α) : oop op (oop op a b) c = oop op a (oop op b c) := by
  cases a <;> cases b <;> cases c <;> simp [oop, hop.assoc]

theorem oop_comm (a b : Option α) : oop op a b = oop op b a := by
  cases a <;> cases b <;> simp [oop, hop.comm]

omit hop in
theorem oop_none (a : Option α) : oop op a none = a := by cases a <;> rfl

omit hop in
theorem total_cons (a : α) (l : List α) : total op (a :: l) = oop op (some a) (total op l) := by
  rw [total]; cases total op l <;> rfl

theorem total_append (a b : List α) : total op (a ++ b) = oop op (total op a) (total op b) := by
  induction a with
  | nil => simp [total, oop]
  | cons x a ih => rw [List.cons_append, total_cons, ih, total_cons, oop_assoc hop]

theorem total_foldl : ∀ (l : List α) (a : α), some (l.foldl op a) = total op (a :: l)
  | [], a => rfl
  | b :: l, a => by
    rw [List.foldl_cons, total_foldl l (op a b), total_cons, total_cons, total_cons,
      ← oop_assoc hop]
    rfl

theorem natReduce_eq (l : List α) : SA.natReduce op l = total op l := by
  cases l with
  | nil => rfl
  | cons a l => exact total_foldl hop l a

theorem total_zipWith : ∀ (a b : List α), a.length = b.length →
    total op (List.zipWith op a b) = oop op (total op a) (total op b)
  | [], [], _ => rfl
  | x :: a, y :: b, h => by
    rw [List.zipWith_cons_cons, total_cons, total_zipWith a b (by simpa using h), total_cons,
      total_cons]
    have : some (op x y) = oop op (some x) (some y) := rfl
    rw [this, oop_assoc hop, oop_assoc hop, ← oop_assoc hop (some y), oop_comm hop (some y),
      oop_assoc hop]

omit hop in
theorem total_isSome : ∀ {l : List α}, l ≠ [] → ∃ r, total op l = some r
  | [], h => absurd rfl h
  | a :: l, _ => by rw [total]; cases total op l <;> exact ⟨_, rfl⟩

theorem reduce_wf (hC : C.Valid) (n : Nat) (hn : 1 ≤ n) :
    ∀ (x : SA α), SA.WF C n x → x.reduce C op n = total op x.toList := by
  refine template_induction hC (P := fun n => ∀ (x : SA α), SA.WF C n x →
    x.reduce C op n = total op x.toList) ?_ ?_ n hn
  · intro n hn ha x h
    obtain ⟨l, rfl, hl⟩ := WF.exists_atom ha h
    rw [SA.reduce, if_pos ha, natReduce_eq hop, SA.toList]
  · intro n hn2 ha ih0 ih1 x h
    have hL1 := one_le_leftSize (n := n) (by omega)
    have hR1 := one_le_rightSize hn2
    obtain ⟨a, b, rfl, wa, wb⟩ := WF.exists_node ha h
    have la := WF.length hC hL1 wa
    have lb := WF.length hC hR1 wb
    rw [SA.reduce, if_neg (by simp [ha]), dif_pos hn2, SA.toList, total_append hop]
    split
    · rename_i he
      obtain ⟨c, ec, wc, tc⟩ := zipWith_wf hC op _ hL1 a b wa (he ▸ wb)
      simp only [ec, Option.bind_eq_bind, Option.bind_some]
      rw [ih0 _ wc, tc, total_zipWith hop _ _ (by omega)]
    · rw [ih0 _ wa, ih1 _ wb]
      have ha0 : a.toList ≠ [] := by intro e; rw [e] at la; simp at la; omega
      have hb0 : b.toList ≠ [] := by intro e; rw [e] at lb; simp at lb; omega
      obtain ⟨r0, e0⟩ := total_isSome (op := op) ha0
      obtain ⟨r1, e1⟩ := total_isSome (op := op) hb0
      rw [e0, e1]; rfl

omit hop in
theorem natSelected_eq : ∀ (l : List α) (m : List Bool), SA.natSelected l m = active l m
  | [], _ => by simp [SA.natSelected, active]
  | _ :: _, [] => by simp [SA.natSelected, active]
  | a :: l, b :: m => by
    have ih := natSelected_eq l m
    unfold active at ih ⊢
    cases b <;> simp [SA.natSelected, ih]

omit hop in
theorem active_append (l l' : List α) (m m' : List Bool) (h : l.length = m.length) :
    active (l ++ l') (m ++ m') = active l m ++ active l' m' := by
  unfold active
  rw [List.zip_append h, List.filter_append, List.map_append]

omit hop in
theorem isEmpty_iff : ∀ (m : SA Bool), m.isEmpty = true ↔ ∀ b ∈ m.toList, b = false
  | .atom l => by simp [SA.isEmpty, SA.toList]
  | .node a b => by
    rw [SA.isEmpty, Bool.and_eq_true, isEmpty_iff a, isEmpty_iff b, SA.toList]
    constructor
    · rintro ⟨h1, h2⟩ x hx
      rcases List.mem_append.mp hx with h | h
      · exact h1 x h
      · exact h2 x h
    · intro h
      exact ⟨fun x hx => h x (List.mem_append_left _ hx), fun x hx => h x (List.mem_append_right _ hx)⟩

omit hop in
theorem active_eq_nil (l : List α) (m : List Bool) (h : ∀ b ∈ m, b = false) : active l m = [] := by
  unfold active
  rw [List.map_eq_nil_iff, List.filter_eq_nil_iff]
  rintro ⟨a, b⟩ hab
  have := h b (List.of_mem_zip hab).2
  simp [this]

omit hop in
theorem active_ne_nil (l : List α) (m : List Bool) (hl : l.length = m.length)
    (h : ¬ ∀ b ∈ m, b = false) : active l m ≠ [] := by
  intro e
  apply h
  intro b hb
  obtain ⟨i, hi, rfl⟩ := List.getElem_of_mem hb
  unfold active at e
  rw [List.map_eq_nil_iff, List.filter_eq_nil_iff] at e
  have := e (l[i], m[i]) (by
    rw [List.mem_iff_getElem]
    exact ⟨i, by simp; omega, by simp⟩)
  simpa using this

theorem reduceMasked_wf (hC : C.Valid) (e : α) (n : Nat) (hn : 1 ≤ n) :
    ∀ (x : SA α) (m : SA Bool), SA.WF C n x → SA.WF C n m → m.isEmpty = false →
      x.reduceMasked op e m = total op (active x.toList m.toList) := by
  refine template_induction hC (P := fun n => ∀ (x : SA α) (m : SA Bool), SA.WF C n x →
    SA.WF C n m → m.isEmpty = false →
    x.reduceMasked op e m = total op (active x.toList m.toList)) ?_ ?_ n hn
  · intro n hn ha x m h hm he
    obtain ⟨l, rfl, hl⟩ := WF.exists_atom ha h
    obtain ⟨k, rfl, hk⟩ := WF.exists_atom ha hm
    have hne : active l k ≠ [] := by
      apply active_ne_nil _ _ (by omega)
      intro h2
      have := (isEmpty_iff (.atom k)).mpr h2
      rw [this] at he; cases he
    obtain ⟨r, er⟩ := total_isSome (op := op) hne
    rw [SA.reduceMasked, SA.toList, SA.toList, er, SA.natReduceMasked, natSelected_eq,
      natReduce_eq hop, er]
    rfl
  · intro n hn2 ha ih0 ih1 x m h hm he
    have hL1 := one_le_leftSize (n := n) (by omega)
    have hR1 := one_le_rightSize hn2
    obtain ⟨a, b, rfl, wa, wb⟩ := WF.exists_node ha h
    obtain ⟨c, d, rfl, wc, wd⟩ := WF.exists_node ha hm
    have la := WF.length hC hL1 wa
    have lb := WF.length hC hR1 wb
    have lc := WF.length hC hL1 wc
    have ld := WF.length hC hR1 wd
    rw [SA.reduceMasked, SA.toList, SA.toList, active_append _ _ _ _ (by omega), total_append hop]
    rw [SA.isEmpty] at he
    by_cases h0 : c.isEmpty = true
    · rw [if_pos h0, active_eq_nil _ _ ((isEmpty_iff c).mp h0), total, ih1 _ _ wb wd (by
        simpa [h0] using he)]
      rfl
    · rw [if_neg h0]
      have h0' : c.isEmpty = false := by simpa using h0
      by_cases h1 : d.isEmpty = true
      · rw [if_pos h1, active_eq_nil b.toList _ ((isEmpty_iff d).mp h1), total,
          ih0 _ _ wa wc h0', oop_none]
      · rw [if_neg h1]
        have h1' : d.isEmpty = false := by simpa using h1
        rw [ih0 _ _ wa wc h0', ih1 _ _ wb wd h1']
        obtain ⟨r0, e0⟩ := total_isSome (op := op) (active_ne_nil a.toList c.toList (by omega)
          (fun h => h0 ((isEmpty_iff c).mpr h)))
        obtain ⟨r1, e1⟩ := total_isSome (op := op) (active_ne_nil b.toList d.toList (by omega)
          (fun h => h1 ((isEmpty_iff d).mpr h)))
        rw [e0, e1]; rfl

/-! ## partialSum -/

omit hop in
theorem natScan_go_length (acc : α) : ∀ (l : List α), (SA.natScan.go op acc l).length = l.length
  | [] => rfl
  | b :: l => by simp [SA.natScan.go, natScan_go_length (op acc b) l]

theorem natScan_go_getElem : ∀ (l : List α) (acc : α) (i : Nat)
    (h : i < (SA.natScan.go op acc l).length),
    some ((SA.natScan.go op acc l)[i]) = oop op (some acc) (total op (l.take (i + 1)))
  | b :: l, acc, 0, h => by simp [SA.natScan.go, total, oop]
  | b :: l, acc, i + 1, h => by
    simp only [SA.natScan.go, List.getElem_cons_succ]
    rw [natScan_go_getElem l (op acc b) i, List.take_succ_cons, total_cons, ← oop_assoc hop]
    rfl

theorem natScan_prefix (l : List α) : IsPrefixTotals op l (SA.natScan op l) := by
  cases l with
  | nil => exact ⟨rfl, fun i h => by simp [SA.natScan] at h⟩
  | cons a l =>
    refine ⟨by simp [SA.natScan, natScan_go_length], ?_⟩
    intro i h
    cases i with
    | zero => simp [SA.natScan, total]
    | succ i =>
      simp only [SA.natScan, List.getElem_cons_succ]
      rw [natScan_go_getElem hop, List.take_succ_cons, total_cons]

theorem partialSum_wf (hC : C.Valid) (n : Nat) (hn : 1 ≤ n) :
    ∀ (x : SA α), SA.WF C n x → ∃ r, x.partialSum C op n = some r ∧ SA.WF C n r ∧
      IsPrefixTotals op x.toList r.toList := by
  refine template_induction hC (P := fun n => ∀ (x : SA α), SA.WF C n x →
    ∃ r, x.partialSum C op n = some r ∧ SA.WF C n r ∧
      IsPrefixTotals op x.toList r.toList) ?_ ?_ n hn
  · intro n hn ha x h
    obtain ⟨l, rfl, hl⟩ := WF.exists_atom ha h
    rw [SA.partialSum, if_pos ha]
    have := natScan_prefix hop l
    exact ⟨_, rfl, ⟨by rw [this.1]; exact hl, ha⟩, this⟩
  · intro n hn2 ha ih0 ih1 x h
    have hL1 := one_le_leftSize (n := n) (by omega)
    have hR1 := one_le_rightSize hn2
    obtain ⟨a, b, rfl, wa, wb⟩ := WF.exists_node ha h
    have la := WF.length hC hL1 wa
    have lb := WF.length hC hR1 wb
    obtain ⟨p, ep, wp, tp⟩ := ih0 a wa
    have lp := WF.length hC hL1 wp
    rw [SA.partialSum, if_neg (by simp [ha]), dif_pos hn2]
    have hg0 : b.get C 0 = some (b.toList[0]'(by omega)) := by
      rw [show (0 : Int) = ((0 : Nat) : Int) from rfl, get_eq hC hR1 wb]
      exact List.getElem?_eq_getElem (by omega)
    have hg1 : p.get C ((leftSize n : Int) - 1) = some (p.toList[leftSize n - 1]'(by omega)) := by
      rw [show (leftSize n : Int) - 1 = ((leftSize n - 1 : Nat) : Int) by omega, get_eq hC hL1 wp]
      exact List.getElem?_eq_getElem (by omega)
    obtain ⟨t, et, wt, tt⟩ := set_eq hC (op (b.toList[0]'(by omega))
      (p.toList[leftSize n - 1]'(by omega))) hR1 wb 0 (by omega)
    obtain ⟨q, eq, wq, tq⟩ := ih1 t wt
    have lq := WF.length hC hR1 wq
    refine ⟨.node p q, ?_, ⟨ha, wp, wq⟩, ?_⟩
    · rw [show (0 : Int) = ((0 : Nat) : Int) from rfl] at hg0 ⊢
      simp only [ep, hg0, hg1, et, eq, Option.bind_eq_bind, Option.bind_some, Option.pure_def]
    · constructor
      · simp only [SA.toList, List.length_append]; omega
      · intro i hi
        simp only [SA.toList, List.length_append] at hi ⊢
        have hlast : total op a.toList = some (p.toList[leftSize n - 1]'(by omega)) := by
          rw [← tp.2 _ (by omega), List.take_of_length_le (by omega)]
        rw [List.getElem_append]
        split
        · rename_i hlt
          rw [List.take_append_of_le_length (by omega), tp.2 i hlt]
        · rename_i hge
          rw [← tq.2 (i - p.toList.length) (by omega), tt, List.take_append,
            List.take_of_length_le (by omega), total_append hop, hlast]
          obtain ⟨b0, bs, hb⟩ : ∃ b0 bs, b.toList = b0 :: bs := by
            cases hb : b.toList with
            | nil => rw [hb] at lb; simp at lb; omega
            | cons b0 bs => exact ⟨b0, bs, rfl⟩
          have e1 : i + 1 - a.toList.length = (i - p.toList.length) + 1 := by omega
          rw [e1]
          simp only [hb, List.set_cons_zero, List.take_succ_cons, total_cons, List.getElem_cons_zero]
          rw [← oop_assoc hop, hop.comm b0]
          rfl

end Vc.Lemma
