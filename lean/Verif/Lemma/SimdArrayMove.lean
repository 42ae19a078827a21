import Verif.Lemma.SimdArrayShift

namespace Vc.Lemma
open Vc.Model Vc.Spec

variable {α : Type _} {C : Cfg} (z : α)

theorem lane_cast {C : Cfg} (hC : C.Valid) {N n : Nat} (hN : 1 ≤ N) (hn : 1 ≤ n) {x : SA α}
    (h : SA.WF C N x) : ∃ r, x.cast C z N n = some r ∧ SA.WF C n r ∧
      r.toList = tab n fun i => lane z x.toList i := cast_wf hC z hN hn h

/-! ## rotated -/

theorem rot_amount {k n : Int} (hn : 0 < n) :
    (Int.tmod k n = 0 → k % n = 0) ∧
    (if Int.tmod k n < 0 then Int.tmod k n + n else Int.tmod k n) = k % n := by
  have h1 := Int.tmod_add_mul_tdiv k n
  have h2 : k % n = (Int.tmod k n) % n := by
    conv => lhs; rw [← h1]
    rw [Int.add_mul_emod_self_left]
  have h3 : -n < Int.tmod k n := by
    have h5 := Int.tmod_lt_of_pos (-k) hn
    rw [Int.neg_tmod] at h5
    omega
  have h4 := Int.tmod_lt_of_pos k hn
  refine ⟨fun h => by rw [h2, h]; exact Int.zero_emod _, ?_⟩
  split
  · rw [h2, ← Int.add_emod_right, Int.emod_eq_of_lt (by omega) (by omega)]
  · rw [h2, Int.emod_eq_of_lt (by omega) (by omega)]

theorem rot_index {k n i : Int} (h0 : 0 ≤ i) (h1 : i < n) :
    (i + k) % n = if i + k % n < n then i + k % n else i + k % n - n := by
  have hn : 0 < n := by omega
  have h2 := Int.emod_nonneg k (by omega : n ≠ 0)
  have h3 := Int.emod_lt_of_pos k hn
  rw [Int.add_emod, Int.emod_eq_of_lt h0 h1]
  split
  · rw [Int.emod_eq_of_lt (by omega) (by omega)]
  · rw [← Int.sub_emod_right, Int.emod_eq_of_lt (by omega) (by omega)]

/-- Lane `i` of a rotation by `m` with `0 ≤ m < n`. -/
def rotAt (n : Nat) (m : Int) (X : List α) (i : Int) : α :=
  if i + m < n then lane z X (i + m) else lane z X (i + m - n)

theorem rotated_eq_tab {n : Nat} (k : Int) {X : List α} (h : X.length = n) :
    Spec.rotated z k X = tab n (rotAt z n (k % n) X) := by
  subst h
  unfold Spec.rotated
  apply tab_congr
  intro i h0 h1
  rw [rot_index h0 h1]
  unfold rotAt
  split <;> rfl

theorem natRotated_eq {n : Nat} (k : Int) {X : List α} (h : X.length = n) (hn : 1 ≤ n) :
    natRotated k X = tab n (rotAt z n (k % n) X) := by
  have h2 := Int.emod_nonneg k (by omega : (n : Int) ≠ 0)
  have h3 := Int.emod_lt_of_pos k (by omega : 0 < (n : Int))
  unfold natRotated
  rw [h]
  generalize k % (n : Int) = m at h2 h3
  obtain ⟨r, rfl⟩ := Int.eq_ofNat_of_zero_le h2
  apply eq_tab (by simp; omega)
  intro i hi
  simp only [List.length_append, List.length_drop, List.length_take] at hi
  dsimp only
  rw [← lane_eq_getElem z, lane_append]
  simp only [List.length_drop]
  unfold rotAt
  split
  · rw [lane_drop _ _ _ _ (by omega)]
    lane_fin
  · rename_i h4
    have h5 : (i : Int) - (X.length - (r : Int).toNat : Nat) = ((i + r - n : Nat) : Int) := by
      simp; omega
    rw [h5, lane_eq_getElem _ _ _ (by simp; omega), List.getElem_take, ← lane_eq_getElem z,
      if_neg (by simp at h4; omega)]
    congr 1; omega

theorem rotated_wf (hC : C.Valid) {n : Nat} (hn : 1 ≤ n) (k : Int) {x : SA α}
    (h : SA.WF C n x) : ∃ r, x.rotated C z n k = some r ∧ SA.WF C n r ∧
      r.toList = tab n (rotAt z n (k % n) x.toList) := by
  have lx := WF.length hC hn h
  cases ha : C.atomic n with
  | true =>
    obtain ⟨l, rfl, hl⟩ := WF.exists_atom ha h
    unfold SA.rotated
    dsimp only
    rw [if_pos ha]
    have := natRotated_eq z k hl hn
    exact ⟨_, rfl, ⟨by rw [this]; simp, ha⟩, this⟩
  | false =>
    have hn2 := hC.two_le hn ha
    have hsum := leftSize_add_rightSize hn2
    have hle := rightSize_le_leftSize n
    have hL1 := one_le_leftSize (n := n) hn
    have hR1 := one_le_rightSize hn2
    have hLp := isPow2_leftSize (n := n) hn
    obtain ⟨a, b, rfl, wa, wb⟩ := WF.exists_node ha h
    have la := WF.length hC hL1 wa
    have lb := WF.length hC hR1 wb
    obtain ⟨hz, hm⟩ := rot_amount (k := k) (n := n) (by omega)
    have h2 := Int.emod_nonneg k (by omega : (n : Int) ≠ 0)
    have h3 := Int.emod_lt_of_pos k (by omega : 0 < (n : Int))
    unfold SA.rotated
    dsimp only
    rw [if_neg (by simp [ha])]
    by_cases h0 : Int.tmod k n = 0
    · rw [if_pos h0]
      refine ⟨_, rfl, h, ?_⟩
      refine (eq_tab_lane z lx).trans ?_
      apply tab_congr
      intro i _ _
      unfold rotAt
      rw [hz h0, if_pos (by omega), Int.add_zero]
    · rw [if_neg h0]
      have hpos : 0 < k % (n : Int) := by
        rcases Int.lt_or_eq_of_le h2 with h4 | h4
        · exact h4
        · exfalso
          apply h0
          apply Int.tmod_eq_zero_of_dvd
          exact Int.dvd_of_emod_eq_zero h4.symm
      obtain ⟨d0, e0, w0, t0⟩ := lane_cast z hC hL1 hR1 wa
      obtain ⟨d1, e1, w1, t1⟩ := lane_cast z hC hR1 hL1 wb
      rw [hm]
      generalize k % (n : Int) = m at *
      simp only [e0, e1, Option.bind_eq_bind, Option.bind_some]
      by_cases c1 : m = leftSize n ∧ leftSize n = rightSize n
      · rw [if_pos c1]
        refine ⟨_, rfl, ⟨ha, w1, w0⟩, ?_⟩
        rw [SA.toList, t0, t1]
        refine tab_split hsum _ _ _ ?_ ?_ <;> intro i h0 h1 <;>
          simp only [SA.toList, lane_append, la, rotAt] <;> lane_fin
      rw [if_neg c1]
      by_cases c2 : m < rightSize n
      · rw [if_pos c2]
        obtain ⟨r0, e0, w0, u0⟩ := shiftedIn_same z hC hL1 wa w1 (k := m) (by omega)
        obtain ⟨r1, e1, w1, u1⟩ := shiftedIn_same z hC hR1 wb ‹SA.WF C (rightSize n) d0›
          (k := m) (by omega)
        refine ⟨.node r0 r1, by simp [e0, e1], ⟨ha, w0, w1⟩, ?_⟩
        rw [SA.toList, u0, u1]
        refine tab_split hsum _ _ _ ?_ ?_ <;> intro i h0 h1 <;>
          simp only [SA.toList, lane_append, la, rotAt, t0, t1, shInAt, lane_tab] <;> lane_fin
      rw [if_neg c2]
      by_cases c3 : m = rightSize n
      · rw [if_pos c3]
        obtain ⟨r0, e0, w0', u0⟩ := shiftedIn_same z hC hL1 wa w1 (k := m) (by omega)
        refine ⟨.node r0 d0, by simp [e0], ⟨ha, w0', w0⟩, ?_⟩
        rw [SA.toList, u0, t0]
        refine tab_split hsum _ _ _ ?_ ?_ <;> intro i h0 h1 <;>
          simp only [SA.toList, lane_append, la, rotAt, t1, shInAt, lane_tab] <;> lane_fin
      rw [if_neg c3]
      obtain ⟨s0, es0, ws0, ts0⟩ := shifted_pow2 z hC hLp ((rightSize n : Int) - leftSize n) w1
      obtain ⟨s1, es1, ws1, ts1⟩ := shifted_pow2 z hC hLp ((leftSize n : Int) - rightSize n) wa
      by_cases c4 : (n : Int) - m < rightSize n
      · rw [if_pos c4]
        obtain ⟨r0, e0, w0, u0⟩ := shiftedIn_same z hC hL1 wa ws0 (k := m - n) (by omega)
        obtain ⟨r1, e1, w1, u1⟩ := shiftedIn_other z hC hR1 hL1 wb ws1 (k := m - n)
          (.inr (by omega))
        refine ⟨.node r0 r1, by simp [es0, es1, e0, e1], ⟨ha, w0, w1⟩, ?_⟩
        rw [SA.toList, u0, u1]
        refine tab_split hsum _ _ _ ?_ ?_ <;> intro i h0 h1 <;>
          simp only [SA.toList, lane_append, la, rotAt, t1, ts0, ts1, shInAt, lane_tab] <;>
          lane_fin
      rw [if_neg c4]
      by_cases c5 : (n : Int) - m = rightSize n
      · rw [if_pos c5]
        obtain ⟨r0, e0, w0, u0⟩ := shiftedIn_same z hC hL1 wa ws0 (k := -(rightSize n : Int))
          (by omega)
        obtain ⟨r1, e1, w1, u1⟩ := lane_cast z hC hL1 hR1 ws1
        refine ⟨.node r0 r1, by simp [es0, es1, e0, e1], ⟨ha, w0, w1⟩, ?_⟩
        rw [SA.toList, u0, u1]
        refine tab_split hsum _ _ _ ?_ ?_ <;> intro i h0 h1 <;>
          simp only [SA.toList, lane_append, la, rotAt, t1, ts0, ts1, shInAt, lane_tab] <;>
          lane_fin
      rw [if_neg c5]
      have c6 : m ≤ leftSize n := by omega
      rw [if_pos c6]
      obtain ⟨t, et, wt, tt⟩ := shiftedIn_same z hC hL1 wa w1 (k := (rightSize n : Int)) (by omega)
      obtain ⟨q, eq, wq, tq⟩ := shifted_pow2 z hC hLp (m - rightSize n) wa
      obtain ⟨r0, e0, w0, u0⟩ := shiftedIn_same z hC hL1 wt wa (k := m - rightSize n) (by omega)
      obtain ⟨r1, e1, w1, u1⟩ := lane_cast z hC hL1 hR1 wq
      refine ⟨.node r0 r1, by simp [et, eq, e0, e1], ⟨ha, w0, w1⟩, ?_⟩
      rw [SA.toList, u0, u1]
      refine tab_split hsum _ _ _ ?_ ?_ <;> intro i h0 h1 <;>
        simp only [SA.toList, lane_append, la, rotAt, tt, t1, tq, shInAt, lane_tab] <;>
        lane_fin

/-! ## reversed -/

theorem reverse_eq_tab {n : Nat} {X : List α} (h : X.length = n) :
    X.reverse = tab n fun i => lane z X (n - 1 - i) := by
  subst h
  apply eq_tab (by simp)
  intro i hi
  simp only [List.length_reverse] at hi
  rw [List.getElem_reverse, ← lane_eq_getElem z]
  congr 1; omega

theorem reversed_wf (hC : C.Valid) (n : Nat) (hn : 1 ≤ n) :
    ∀ (x : SA α), SA.WF C n x → ∃ r, x.reversed C z n = some r ∧ SA.WF C n r ∧
      r.toList = tab n fun i => lane z x.toList (n - 1 - i) := by
  refine template_induction hC (P := fun n => ∀ (x : SA α), SA.WF C n x →
      ∃ r, x.reversed C z n = some r ∧ SA.WF C n r ∧
        r.toList = tab n fun i => lane z x.toList (n - 1 - i)) ?_ ?_ n hn
  · intro n hn ha x h
    obtain ⟨l, rfl, hl⟩ := WF.exists_atom ha h
    rw [SA.reversed, if_pos ha]
    exact ⟨_, rfl, ⟨by simpa using hl, ha⟩, reverse_eq_tab z hl⟩
  · intro n hn2 ha ih0 ih1 x h
    have hsum := leftSize_add_rightSize hn2
    have hle := rightSize_le_leftSize n
    have hL1 := one_le_leftSize (n := n) (by omega)
    have hR1 := one_le_rightSize hn2
    have hLp := isPow2_leftSize (n := n) (by omega)
    obtain ⟨a, b, rfl, wa, wb⟩ := WF.exists_node ha h
    have la := WF.length hC hL1 wa
    have lb := WF.length hC hR1 wb
    rw [SA.reversed, if_neg (by simp [ha]), dif_pos hn2]
    split
    · rename_i he
      obtain ⟨c1, e1, w1, t1⟩ := lane_cast z hC hR1 hL1 wb
      obtain ⟨c0, e0, w0, t0⟩ := lane_cast z hC hL1 hR1 wa
      obtain ⟨r0, f0, v0, u0⟩ := ih0 _ w1
      obtain ⟨r1, f1, v1, u1⟩ := ih1 _ w0
      refine ⟨.node r0 r1, by simp [e1, e0, f0, f1], ⟨ha, v0, v1⟩, ?_⟩
      rw [SA.toList, u0, u1]
      refine tab_split hsum _ _ _ ?_ ?_ <;> intro i h0 h1 <;>
        simp only [SA.toList, lane_append, la, t0, t1, lane_tab] <;> lane_fin
    · rename_i he
      obtain ⟨s, es, ws, ts⟩ := shiftedIn_other z hC hL1 hR1 wa wb (k := (rightSize n : Int))
        (.inl (by omega))
      obtain ⟨r0, f0, v0, u0⟩ := ih0 _ ws
      obtain ⟨r, f, v, u⟩ := ih0 _ wa
      obtain ⟨t, et, wt, tt⟩ := shifted_pow2 z hC hLp ((leftSize n : Int) - rightSize n) v
      obtain ⟨r1, f1, v1, u1⟩ := lane_cast z hC hL1 hR1 wt
      refine ⟨.node r0 r1, by simp [es, f0, f, et, f1], ⟨ha, v0, v1⟩, ?_⟩
      rw [SA.toList, u0, u1]
      refine tab_split hsum _ _ _ ?_ ?_ <;> intro i h0 h1 <;>
        simp only [SA.toList, lane_append, la, ts, u, tt, lane_tab, shInAt] <;> lane_fin

/-! ## interleaveLow, interleaveHigh -/

theorem natInterleaved_length : ∀ (x y : List α), x.length = y.length →
    (natInterleaved x y).length = 2 * x.length
  | [], [], _ => rfl
  | _ :: as, _ :: bs, h => by
    simp [natInterleaved, natInterleaved_length as bs (by simpa using h)]; omega

theorem natInterleaved_getElem : ∀ (x y : List α), x.length = y.length → ∀ (i : Nat)
    (h : i < (natInterleaved x y).length), (natInterleaved x y)[i] = interleavedAt z x y (i : Int)
  | [], [], _, i, h => by simp [natInterleaved] at h
  | a :: as, b :: bs, hl, 0, h => by
    simp [natInterleaved, interleavedAt, lane]
  | a :: as, b :: bs, hl, 1, h => by
    simp [natInterleaved, interleavedAt, lane]
  | a :: as, b :: bs, hl, i + 2, h => by
    simp only [natInterleaved, List.getElem_cons_succ]
    rw [natInterleaved_getElem as bs (by simpa using hl) i]
    unfold interleavedAt
    have e1 : ((i + 2 : Nat) : Int) % 2 = (i : Int) % 2 := by omega
    have e2 : ((i + 2 : Nat) : Int) / 2 = (i : Int) / 2 + 1 := by omega
    rw [e1, e2]
    have hc : ∀ (c : α) (cs : List α) (j : Int), 0 ≤ j → lane z (c :: cs) (j + 1) = lane z cs j := by
      intro c cs j hj
      rw [← List.singleton_append, lane_append, if_neg (by simp; omega)]
      congr 1; simp
    rw [hc _ _ _ (by omega), hc _ _ _ (by omega)]

/-- `interleavedAt` with the parity test on both sides of a concatenation. -/
theorem interleavedAt_append (A B C' D : List α) (h : A.length = C'.length) (j : Int) :
    interleavedAt z (A ++ B) (C' ++ D) j =
      if j < 2 * A.length then interleavedAt z A C' j
      else interleavedAt z B D (j - 2 * A.length) := by
  unfold interleavedAt
  have e1 : (j - 2 * (A.length : Int)) % 2 = j % 2 := by omega
  have e2 : (j - 2 * (A.length : Int)) / 2 = j / 2 - A.length := by omega
  rw [e1, e2, lane_append, lane_append, ← h]
  by_cases hj : j < 2 * A.length
  · have hj2 : j / 2 < A.length := by omega
    simp only [if_pos hj, if_pos hj2]
  · have hj2 : ¬ j / 2 < A.length := by omega
    simp only [if_neg hj, if_neg hj2]

theorem interleavedAt_of_ge (X Y : List α) (j : Int) (h1 : 2 * (X.length : Int) ≤ j)
    (h2 : 2 * (Y.length : Int) ≤ j) : interleavedAt z X Y j = z := by
  unfold interleavedAt
  rw [lane_of_ge _ _ _ (by omega), lane_of_ge _ _ _ (by omega), ite_self]

def InterleaveOk (C : Cfg) (n : Nat) : Prop := ∀ (x y : SA α), SA.WF C n x → SA.WF C n y →
  (∃ r, x.interleaveLow C z n y = some r ∧ SA.WF C n r ∧
    r.toList = tab n fun i => interleavedAt z x.toList y.toList i) ∧
  (∃ r, x.interleaveHigh C z n y = some r ∧ SA.WF C n r ∧
    r.toList = tab n fun i => interleavedAt z x.toList y.toList (i + n))

theorem interleave_wf (hC : C.Valid) (n : Nat) (hn : 1 ≤ n) : InterleaveOk z C n := by
  refine template_induction hC (P := InterleaveOk z C) ?_ ?_ n hn
  · intro n hn ha x y wx wy
    obtain ⟨l, rfl, hl⟩ := WF.exists_atom ha wx
    obtain ⟨m, rfl, hm⟩ := WF.exists_atom ha wy
    have hlen := natInterleaved_length l m (by omega)
    have e1 : natInterleaveLow l m = tab n fun i => interleavedAt z l m i := by
      unfold natInterleaveLow
      apply eq_tab (by simp [hlen]; omega)
      intro i hi
      rw [List.getElem_take, natInterleaved_getElem z l m (by omega)]
    have e2 : natInterleaveHigh l m = tab n fun i => interleavedAt z l m (i + n) := by
      unfold natInterleaveHigh
      apply eq_tab (by simp [hlen]; omega)
      intro i hi
      rw [List.getElem_drop, natInterleaved_getElem z l m (by omega)]
      congr 1; omega
    rw [SA.interleaveLow, SA.interleaveHigh, if_pos ha, if_pos ha]
    exact ⟨⟨_, rfl, ⟨by rw [e1]; simp, ha⟩, e1⟩, ⟨_, rfl, ⟨by rw [e2]; simp, ha⟩, e2⟩⟩
  · intro n hn2 ha ih0 ih1 x y wx wy
    have hsum := leftSize_add_rightSize hn2
    have hle := rightSize_le_leftSize n
    have hL1 := one_le_leftSize (n := n) (by omega)
    have hR1 := one_le_rightSize hn2
    obtain ⟨a, b, rfl, wa, wb⟩ := WF.exists_node ha wx
    obtain ⟨c, d, rfl, wc, wd⟩ := WF.exists_node ha wy
    have la := WF.length hC hL1 wa
    have lb := WF.length hC hR1 wb
    have lc := WF.length hC hL1 wc
    have ld := WF.length hC hR1 wd
    obtain ⟨⟨l0, el0, wl0, tl0⟩, ⟨h0, eh0, wh0, th0⟩⟩ := ih0 a c wa wc
    obtain ⟨⟨l1, el1, wl1, tl1⟩, ⟨h1, eh1, wh1, th1⟩⟩ := ih1 b d wb wd
    constructor
    · rw [SA.interleaveLow, if_neg (by simp [ha]), dif_pos hn2]
      obtain ⟨r1, f1, v1, u1⟩ := lane_cast z hC hL1 hR1 wh0
      refine ⟨.node l0 r1, by simp [el0, eh0, f1], ⟨ha, wl0, v1⟩, ?_⟩
      rw [SA.toList, tl0, u1]
      refine tab_split hsum _ _ _ ?_ ?_
      · intro i h0 h1
        rw [SA.toList, SA.toList, interleavedAt_append _ _ _ _ _ (by omega), if_pos (by omega)]
      · intro i h0 h1
        rw [SA.toList, SA.toList, interleavedAt_append _ _ _ _ _ (by omega), if_pos (by omega),
          th0, lane_tab, if_pos (by omega)]
        congr 1; omega
    · rw [SA.interleaveHigh, if_neg (by simp [ha]), dif_pos hn2]
      split
      · rename_i he
        refine ⟨.node l1 h1, by simp [el1, eh1], ⟨ha, he ▸ wl1, wh1⟩, ?_⟩
        rw [SA.toList, tl1, th1]
        refine tab_split (n0 := rightSize n) (by omega) _ _ _ ?_ ?_
        · intro i h0 h1
          rw [SA.toList, SA.toList, interleavedAt_append _ _ _ _ _ (by omega), if_neg (by omega)]
          congr 1; omega
        · intro i h0 h1
          rw [SA.toList, SA.toList, interleavedAt_append _ _ _ _ _ (by omega), if_neg (by omega)]
          congr 1; omega
      · rename_i he
        obtain ⟨c1, f1, v1, u1⟩ := lane_cast z hC hR1 hL1 wl1
        obtain ⟨r0, f0, v0, u0⟩ := shiftedIn_same z hC hL1 wh0 v1 (k := (rightSize n : Int))
          (by omega)
        refine ⟨.node r0 h1, by simp [eh0, el1, f1, f0, eh1], ⟨ha, v0, wh1⟩, ?_⟩
        rw [SA.toList, u0, th1]
        refine tab_split hsum _ _ _ ?_ ?_
        · intro i h0 h1
          rw [SA.toList, SA.toList, interleavedAt_append _ _ _ _ _ (by omega)]
          simp only [shInAt, th0, tl1, u1, lane_tab]
          by_cases hc : i + rightSize n < leftSize n
          · rw [if_pos (by omega), if_pos (by omega), if_pos (by omega)]
            congr 1; omega
          · rw [if_neg (by omega), if_pos (by omega), if_pos (by omega), if_pos (by omega),
              if_neg (by omega)]
            congr 1; omega
        · intro i h0 h1
          rw [SA.toList, SA.toList, interleavedAt_append _ _ _ _ _ (by omega), if_neg (by omega)]
          congr 1; omega

end Vc.Lemma
