import Verif.Model.SimdMask
import Verif.Lemma.SimdArrayReduce
import Verif.Lemma.SimdArrayShift

namespace Vc.Lemma
open Vc.Model Vc.Spec

variable {C : Cfg}

theorem maskGet_eq (hC : C.Valid) (n : Nat) (hn : 1 ≤ n) : ∀ (m : SA Bool), SA.WF C n m →
    ∀ i, m.maskGet n i = m.toList[i]? := by
  refine template_induction hC (P := fun n => ∀ (m : SA Bool), SA.WF C n m →
    ∀ i, m.maskGet n i = m.toList[i]?) ?_ ?_ n hn
  · intro n hn ha m w i
    obtain ⟨l, rfl, hl⟩ := WF.exists_atom ha w
    rfl
  · intro n hn ha ih0 ih1 m w i
    obtain ⟨a, b, rfl, wa, wb⟩ := WF.exists_node ha w
    have la := WF.length hC (one_le_leftSize (by omega)) wa
    rw [SA.maskGet, SA.toList, List.getElem?_append, la, ih0 a wa, ih1 b wb]

theorem maskSet_eq (hC : C.Valid) (v : Bool) (n : Nat) (hn : 1 ≤ n) : ∀ (m : SA Bool), SA.WF C n m →
    ∀ i, i < n → ∃ r, m.maskSet n i v = some r ∧ SA.WF C n r ∧ r.toList = m.toList.set i v := by
  refine template_induction hC (P := fun n => ∀ (m : SA Bool), SA.WF C n m →
    ∀ i, i < n → ∃ r, m.maskSet n i v = some r ∧ SA.WF C n r ∧ r.toList = m.toList.set i v) ?_ ?_ n hn
  · intro n hn ha m w i hi
    obtain ⟨l, rfl, hl⟩ := WF.exists_atom ha w
    exact ⟨.atom (l.set i v), by rw [SA.maskSet, if_pos (by omega)], ⟨by rw [List.length_set]; exact hl, ha⟩, rfl⟩
  · intro n hn ha ih0 ih1 m w i hi
    obtain ⟨a, b, rfl, wa, wb⟩ := WF.exists_node ha w
    have hsum := leftSize_add_rightSize hn
    have la := WF.length hC (one_le_leftSize (by omega)) wa
    rw [SA.maskSet]
    by_cases h : i < leftSize n
    · rw [if_pos h]
      obtain ⟨r, e, w', t⟩ := ih0 a wa i h
      refine ⟨.node r b, by rw [e]; rfl, ⟨ha, w', wb⟩, ?_⟩
      rw [SA.toList, SA.toList, t, List.set_append, if_pos (by omega)]
    · rw [if_neg h]
      obtain ⟨r, e, w', t⟩ := ih1 b wb (i - leftSize n) (by omega)
      refine ⟨.node a r, by rw [e]; rfl, ⟨ha, wa, w'⟩, ?_⟩
      rw [SA.toList, SA.toList, t, List.set_append, if_neg (by omega), la]

theorem isFull_iff : ∀ m : SA Bool, m.isFull = true ↔ ∀ b ∈ m.toList, b = true
  | .atom l => by simp [SA.isFull, SA.toList]
  | .node a b => by
    rw [SA.isFull, Bool.and_eq_true, isFull_iff a, isFull_iff b, SA.toList]
    simp only [List.mem_append]
    constructor
    · rintro ⟨h, h'⟩ b (hb | hb)
      · exact h _ hb
      · exact h' _ hb
    · intro h
      exact ⟨fun b hb => h b (.inl hb), fun b hb => h b (.inr hb)⟩

theorem isNotEmpty_iff : ∀ m : SA Bool, m.isNotEmpty = true ↔ true ∈ m.toList
  | .atom l => by simp [SA.isNotEmpty, SA.toList]
  | .node a b => by
    rw [SA.isNotEmpty, Bool.or_eq_true, isNotEmpty_iff a, isNotEmpty_iff b, SA.toList,
      List.mem_append]

theorem isMix_iff (m : SA Bool) : m.isMix = true ↔ true ∈ m.toList ∧ false ∈ m.toList := by
  have h1 : (¬ ∀ b ∈ m.toList, b = true) ↔ false ∈ m.toList := by simp
  have h2 : (¬ ∀ b ∈ m.toList, b = false) ↔ true ∈ m.toList := by simp
  cases m with
  | atom l =>
    simp only [SA.isMix, SA.toList, Bool.and_eq_true, Bool.not_eq_true']
    simp [and_comm]
  | node a b =>
    rw [SA.isMix, Bool.and_eq_true, Bool.not_eq_true', Bool.not_eq_true', ← Bool.not_eq_true,
      ← Bool.not_eq_true, isFull_iff, isEmpty_iff, h1, h2, and_comm]

theorem maskEq_wf (hC : C.Valid) (n : Nat) (hn : 1 ≤ n) : ∀ (x y : SA Bool), SA.WF C n x →
    SA.WF C n y → x.maskEq y = some (x.toList == y.toList) ∧
      x.maskNe y = some (x.toList != y.toList) := by
  refine template_induction hC (P := fun n => ∀ (x y : SA Bool), SA.WF C n x →
    SA.WF C n y → x.maskEq y = some (x.toList == y.toList) ∧
      x.maskNe y = some (x.toList != y.toList)) ?_ ?_ n hn
  · intro n hn ha x y wx wy
    obtain ⟨l, rfl, hl⟩ := WF.exists_atom ha wx
    obtain ⟨m, rfl, hm⟩ := WF.exists_atom ha wy
    exact ⟨rfl, rfl⟩
  · intro n hn ha ih0 ih1 x y wx wy
    obtain ⟨a, b, rfl, wa, wb⟩ := WF.exists_node ha wx
    obtain ⟨c, d, rfl, wc, wd⟩ := WF.exists_node ha wy
    have la := WF.length hC (one_le_leftSize (by omega)) wa
    have lc := WF.length hC (one_le_leftSize (by omega)) wc
    obtain ⟨e0, n0⟩ := ih0 a c wa wc
    obtain ⟨e1, n1⟩ := ih1 b d wb wd
    have h : ((a.toList ++ b.toList) == (c.toList ++ d.toList)) =
        ((a.toList == c.toList) && (b.toList == d.toList)) := by
      rw [Bool.eq_iff_iff]
      simp only [beq_iff_eq, Bool.and_eq_true]
      exact ⟨fun h => List.append_inj h (by omega), fun h => by rw [h.1, h.2]⟩
    constructor
    · rw [SA.maskEq, e0, e1, SA.toList, SA.toList, h]; rfl
    · rw [SA.maskNe, n0, n1, SA.toList, SA.toList]
      show some (_ || _) = some _
      unfold bne
      rw [h, Bool.not_and]

theorem maskCount_eq : ∀ m : SA Bool, m.maskCount = m.toList.count true
  | .atom _ => rfl
  | .node a b => by rw [SA.maskCount, SA.toList, List.count_append, maskCount_eq a, maskCount_eq b]

theorem natFirstOne_append_of_empty : ∀ (l m : List Bool), (∀ b ∈ l, b = false) →
    natFirstOne (l ++ m) = (natFirstOne m).map (· + l.length)
  | [], m, _ => by simp
  | b :: l, m, h => by
    have hb := h b (by simp)
    subst hb
    rw [List.cons_append, natFirstOne, natFirstOne_append_of_empty l m
      (fun b hb => h b (List.mem_cons_of_mem _ hb)), Option.map_map]
    congr 1

theorem natFirstOne_append_of_mem : ∀ (l m : List Bool), true ∈ l →
    natFirstOne (l ++ m) = natFirstOne l
  | true :: l, m, _ => rfl
  | false :: l, m, h => by
    rw [List.cons_append, natFirstOne, natFirstOne, natFirstOne_append_of_mem l m (by simpa using h)]

theorem firstOne_wf (hC : C.Valid) (n : Nat) (hn : 1 ≤ n) : ∀ (m : SA Bool), SA.WF C n m →
    m.firstOne n = natFirstOne m.toList := by
  refine template_induction hC (P := fun n => ∀ (m : SA Bool), SA.WF C n m →
    m.firstOne n = natFirstOne m.toList) ?_ ?_ n hn
  · intro n hn ha m w
    obtain ⟨l, rfl, hl⟩ := WF.exists_atom ha w
    rfl
  · intro n hn ha ih0 ih1 m w
    obtain ⟨a, b, rfl, wa, wb⟩ := WF.exists_node ha w
    have la := WF.length hC (one_le_leftSize (by omega)) wa
    rw [SA.firstOne, SA.toList, ih0 a wa, ih1 b wb]
    split
    · rename_i h
      rw [natFirstOne_append_of_empty _ _ ((isEmpty_iff a).mp h), la]
    · rename_i h
      rw [natFirstOne_append_of_mem]
      rw [isEmpty_iff] at h
      simpa using h

theorem natFirstOne_spec : ∀ (l : List Bool), true ∈ l → ∃ i, natFirstOne l = some i ∧
    l[i]? = some true ∧ ∀ j, j < i → l[j]? = some false
  | true :: l, _ => ⟨0, rfl, rfl, by intro j h; omega⟩
  | false :: l, h => by
    obtain ⟨i, e, h1, h2⟩ := natFirstOne_spec l (by simpa using h)
    refine ⟨i + 1, by rw [natFirstOne, e]; rfl, by simpa using h1, ?_⟩
    intro j hj
    cases j with
    | zero => rfl
    | succ j => simpa using h2 j (by omega)

theorem natToInt_getLsbD : ∀ (l : List Bool) (i : Nat), i < 32 →
    (natToInt l).getLsbD i = l[i]?.getD false
  | [], i, _ => by simp [natToInt]
  | b :: l, i, hi => by
    rw [natToInt, BitVec.getLsbD_or, BitVec.getLsbD_shiftLeft]
    cases i with
    | zero => cases b <;> simp
    | succ i =>
      rw [Nat.add_sub_cancel, natToInt_getLsbD l i (by omega)]
      cases b <;> simp [hi]

theorem natToInt_of_ge (l : List Bool) (i : Nat) (hi : l.length ≤ i) :
    (natToInt l).getLsbD i = false := by
  by_cases h : i < 32
  · rw [natToInt_getLsbD l i h, List.getElem?_eq_none hi]; rfl
  · exact BitVec.getLsbD_of_ge _ _ (by omega)

theorem toInt_wf (hC : C.Valid) (n : Nat) (hn : 1 ≤ n) : n ≤ 32 → ∀ (m : SA Bool), SA.WF C n m →
    m.toInt n = some (natToInt m.toList) := by
  refine template_induction hC (P := fun n => n ≤ 32 → ∀ (m : SA Bool), SA.WF C n m →
    m.toInt n = some (natToInt m.toList)) ?_ ?_ n hn
  · intro n hn ha h m w
    obtain ⟨l, rfl, hl⟩ := WF.exists_atom ha w
    rfl
  · intro n hn ha ih0 ih1 h m w
    obtain ⟨a, b, rfl, wa, wb⟩ := WF.exists_node ha w
    have hlt := leftSize_lt hn
    have hrt := rightSize_lt hn
    have la := WF.length hC (one_le_leftSize (by omega)) wa
    rw [SA.toInt, ih0 (by omega) a wa, ih1 (by omega) b wb]
    show (if 32 ≤ leftSize n then none else some _) = _
    rw [if_neg (by omega)]
    congr 1
    apply BitVec.eq_of_getLsbD_eq
    intro i hi
    rw [BitVec.getLsbD_or, BitVec.getLsbD_shiftLeft, natToInt_getLsbD _ _ hi,
      natToInt_getLsbD _ _ hi, SA.toList, List.getElem?_append, la,
      natToInt_getLsbD _ _ (by omega)]
    by_cases hc : i < leftSize n
    · rw [if_pos hc]; simp [hc]
    · rw [if_neg hc, List.getElem?_eq_none (l := a.toList) (by omega)]
      simp [hc, hi]

theorem toInt_none (hC : C.Valid) (n : Nat) (hn : 32 < n) (hw : ∀ w ∈ C.ws, w ≤ 32) (m : SA Bool)
    (w : SA.WF C n m) : m.toInt n = none := by
  cases ha : C.atomic n with
  | true =>
    exfalso
    have hm := bestWidth_mem (n := n) hC.ne_nil
    unfold Cfg.atomic at ha
    simp only [decide_eq_true_eq] at ha
    rw [ha] at hm
    have := hw n hm
    omega
  | false =>
    obtain ⟨a, b, rfl, wa, wb⟩ := WF.exists_node ha w
    have : 32 ≤ leftSize n := le_leftSize (by omega) ⟨5, rfl⟩ hn
    rw [SA.toInt]
    cases a.toInt (leftSize n) with
    | none => rfl
    | some x =>
      cases b.toInt (rightSize n) with
      | none => rfl
      | some y =>
        show (if 32 ≤ leftSize n then none else some _) = none
        rw [if_pos this]

theorem maskShifted_wf (hC : C.Valid) (n : Nat) (hn : 1 ≤ n) (hN : n ≤ 2 ^ 31) (k : Int)
    (hk : -2 ^ 31 ≤ k ∧ k < 2 ^ 31) (m : SA Bool) (w : SA.WF C n m) :
    ∃ r, m.maskShifted C n k = some r ∧ SA.WF C n r ∧
      r.toList = tab n fun i => lane false m.toList (i + k) := by
  have lm := WF.length hC hn w
  cases ha : C.atomic n with
  | true =>
    obtain ⟨l, rfl, hl⟩ := WF.exists_atom ha w
    refine ⟨_, rfl, ⟨by rw [natShifted_length]; exact hl, ha⟩, ?_⟩
    rw [SA.toList, natShifted_eq, shifted]
    simp only [SA.toList]
    rw [hl]
  | false =>
    obtain ⟨a, b, rfl, wa, wb⟩ := WF.exists_node ha w
    rw [SA.maskShifted]
    by_cases h0 : k = 0
    · rw [if_pos h0]
      refine ⟨_, rfl, w, ?_⟩
      subst h0
      refine (eq_tab_lane false lm).trans ?_
      simp
    · rw [if_neg h0]
      apply gen_tab hC n hn
      intro i hi
      dsimp only
      have h31 : (2 : Int) ^ 31 = 2147483648 := by decide
      rw [h31] at hk
      have hN' : n ≤ 2147483648 := hN
      by_cases hneg : (i : Int) + k < 0
      · have hj : (((i : Int) + k) % 4294967296).toNat = ((i : Int) + k + 4294967296).toNat := by omega
        rw [hj, if_neg (by omega), lane_of_lt _ _ _ hneg]
      · have hj : (((i : Int) + k) % 4294967296).toNat = ((i : Int) + k).toNat := by omega
        obtain ⟨j, hj'⟩ := Int.eq_ofNat_of_zero_le (by omega : 0 ≤ (i : Int) + k)
        rw [hj, hj', Int.toNat_natCast]
        split
        · rw [maskGet_eq hC n hn _ w, List.getElem?_eq_getElem (by omega),
            lane_eq_getElem _ _ j (by omega)]
        · rw [lane_of_ge _ _ _ (by omega)]

end Vc.Lemma
