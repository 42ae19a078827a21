import Verif.Model.SimdArrayOps
import Verif.Lemma.SimdCast

namespace Vc.Lemma
open Vc.Model Vc.Spec

variable {α : Type _}

/-- Closes goals between `lane`s of the same lists under index arithmetic. -/
macro "lane_fin" : tactic => `(tactic|
  (repeat' split) <;> first
    | rfl
    | (exfalso; omega)
    | (congr 1; omega)
    | (rw [lane_of_ge _ _ _ (by omega)]; done)
    | (rw [lane_of_lt _ _ _ (by omega)]; done)
    | (rw [lane_of_ge _ _ _ (by omega), lane_of_ge _ _ _ (by omega)])
    | (rw [lane_of_ge _ _ _ (by omega), lane_of_lt _ _ _ (by omega)])
    | (rw [lane_of_lt _ _ _ (by omega), lane_of_ge _ _ _ (by omega)])
    | (rw [lane_of_lt _ _ _ (by omega), lane_of_lt _ _ _ (by omega)]))

theorem tab_split {n n0 n1 : Nat} (h : n0 + n1 = n) (F G H : Int → α)
    (h0 : ∀ i : Int, 0 ≤ i → i < n0 → F i = H i)
    (h1 : ∀ i : Int, 0 ≤ i → i < n1 → G i = H (n0 + i)) :
    tab n0 F ++ tab n1 G = tab n H := by
  subst h
  rw [tab_append, tab_congr h0, tab_congr h1]

theorem eq_tab_lane (z : α) {l : List α} {n : Nat} (h : l.length = n) :
    l = tab n fun i => lane z l i := (tab_lane' z l n h).symm

/-- Lane `i` of `shifted(k, y)` for arrays of `n` lanes. -/
def shInAt (z : α) (n : Nat) (k : Int) (X Y : List α) (i : Int) : α :=
  if 0 ≤ i + k ∧ i + k < n then lane z X (i + k)
  else if 0 ≤ k then lane z Y (i + k - n) else lane z Y (i + k + n)

theorem shiftedIn_eq_tab (z : α) {n : Nat} (k : Int) {X Y : List α} (h : X.length = n) :
    Spec.shiftedIn z k X Y = tab n (shInAt z n k X Y) := by
  subst h; rfl

theorem shifted_eq_tab (z : α) {n : Nat} (k : Int) {X : List α} (h : X.length = n) :
    Spec.shifted z k X = tab n fun i => lane z X (i + k) := by
  subst h; rfl

theorem natShiftedIn_eq (z : α) {n : Nat} {k : Int} {l y : List α} (hl : l.length = n)
    (hy : y.length = n) (hk : (-(n : Int) ≤ k ∨ n ≠ 1) ∧ k ≤ n) :
    natShiftedIn z k l y = some (tab n (shInAt z n k l y)) := by
  unfold natShiftedIn
  rw [if_neg (by omega)]
  split
  · rw [if_neg (by omega), natShifted_eq, shifted_eq_tab z _ hy]
    congr 1
    apply tab_congr
    intro i h0 h1
    unfold shInAt
    lane_fin
  split
  · congr 1
    apply eq_tab (by simp; omega)
    intro i hi
    simp only [List.length_take, List.length_drop, List.length_append] at hi
    rw [List.getElem_take, List.getElem_drop, ← lane_eq_getElem z, lane_append]
    unfold shInAt
    lane_fin
  · congr 1
    apply eq_tab (by simp; omega)
    intro i hi
    simp only [List.length_take, List.length_drop, List.length_append] at hi
    rw [List.getElem_take, List.getElem_drop, ← lane_eq_getElem z, lane_append]
    unfold shInAt
    lane_fin

section
variable (C : Cfg) (z : α)

def ShOk (n : Nat) : Prop := ∀ (k : Int) (x : SA α), SA.WF C n x →
  ∃ r, x.shifted C z n k = some r ∧ SA.WF C n r ∧
    r.toList = tab n fun i => lane z x.toList (i + k)

/-- Amounts for which `shifted(k, y)` of equal types is correct. -/
def ShInAmount (n : Nat) (k : Int) : Prop :=
  if C.atomic n then (-(n : Int) ≤ k ∨ n ≠ 1) ∧ k ≤ n
  else if leftSize n = rightSize n then -2 * (n : Int) < k ∨ bestWidth n C.ws ≠ 1 else True

def ShInOk (n : Nat) : Prop := ∀ (k : Int) (x y : SA α), SA.WF C n x → SA.WF C n y →
  ShInAmount C n k →
  ∃ r, x.shiftedIn C z n n k y = some r ∧ SA.WF C n r ∧
    r.toList = tab n (shInAt z n k x.toList y.toList)

variable {C}

theorem cast_same {N : Nat} (x : SA α) : x.cast C z N N = some x := by
  unfold SA.cast; rw [if_pos rfl]

theorem sh_atomic {n : Nat} (ha : C.atomic n = true) : ShOk C z n := by
  intro k x h
  obtain ⟨l, rfl, hl⟩ := WF.exists_atom ha h
  rw [SA.shifted, if_pos ha]
  exact ⟨_, rfl, ⟨by simpa using hl, ha⟩, by rw [SA.toList, natShifted_eq, shifted_eq_tab z k hl, SA.toList]⟩

theorem shIn_inner {n : Nat} {k : Int} (h1 : -(n : Int) < k) (h2 : k < n) :
    ShInAmount C n k := by
  unfold ShInAmount
  split
  · omega
  · split
    · omega
    · trivial

theorem shIn_inner' {n : Nat} {k : Int} (hn : 1 ≤ n) (h1 : -(n : Int) ≤ k) (h2 : k ≤ n) :
    ShInAmount C n k := by
  unfold ShInAmount
  split
  · omega
  · split
    · omega
    · trivial

theorem sh_pow2_step (hC : C.Valid) {n : Nat} (hn : 2 ≤ n) (ha : C.atomic n = false)
    (he : leftSize n = rightSize n) (ihS : ShOk C z (leftSize n))
    (ihI : ShInOk C z (leftSize n)) : ShOk C z n := by
  intro k x h
  have hsum := leftSize_add_rightSize hn
  have hL1 := one_le_leftSize (n := n) (by omega)
  obtain ⟨a, b, rfl, wa, wb⟩ := WF.exists_node ha h
  rw [SA.shifted, if_neg (by simp [ha]), dif_pos hn]
  rw [← he] at wb hsum
  have la := WF.length hC hL1 wa
  have lb := WF.length hC hL1 wb
  obtain ⟨wz, tz⟩ := broadcast_wf hC z _ hL1
  simp only [← he, cast_same, Option.bind_eq_bind, Option.bind_some, Option.pure_def]
  rw [← tab_const] at tz
  by_cases hk0 : k = 0
  · subst hk0
    rw [if_pos rfl]
    refine ⟨_, rfl, h, ?_⟩
    simp only [Int.add_zero]
    exact eq_tab_lane z (WF.length hC (by omega) h)
  rw [if_neg hk0]
  split
  · split
    · obtain ⟨r0, e0, w0, t0⟩ := ihS k a wa
      obtain ⟨r1, e1, w1, t1⟩ := ihI k b a wb wa (shIn_inner (by omega) (by omega))
      refine ⟨.node r0 r1, by simp only [e0, e1, Option.bind_some], ⟨ha, w0, he ▸ w1⟩, ?_⟩
      rw [SA.toList, t0, t1]
      refine tab_split hsum _ _ _ ?_ ?_ <;> intro i h0 h1 <;>
        simp only [SA.toList, lane_append, la, shInAt] <;> lane_fin
    · split
      · refine ⟨_, rfl, ⟨ha, wz, he ▸ wa⟩, ?_⟩
        rw [SA.toList, tz, eq_tab_lane z la]
        refine tab_split hsum _ _ _ ?_ ?_ <;> intro i h0 h1 <;>
          simp only [SA.toList, lane_append, la] <;> lane_fin
      · obtain ⟨r0, e0, w0, t0⟩ := ihS (k + leftSize n) a wa
        refine ⟨.node _ r0, by simp only [e0, Option.bind_some], ⟨ha, wz, he ▸ w0⟩, ?_⟩
        rw [SA.toList, tz, t0]
        refine tab_split hsum _ _ _ ?_ ?_ <;> intro i h0 h1 <;>
          simp only [SA.toList, lane_append, la] <;> lane_fin
  · split
    · obtain ⟨wz, tz⟩ := broadcast_wf hC z n (by omega)
      refine ⟨_, rfl, wz, ?_⟩
      rw [tz, ← tab_const]
      apply tab_congr
      intro i h0 h1
      simp only [SA.toList, lane_append, la] <;> lane_fin
    · split
      · obtain ⟨r0, e0, w0, t0⟩ := ihS (k - leftSize n) b wb
        refine ⟨.node r0 (SA.broadcast C z (leftSize n)), by simp only [e0, Option.bind_some],
          ⟨ha, w0, by rw [← he]; exact wz⟩, ?_⟩
        rw [SA.toList, tz, t0]
        refine tab_split hsum _ _ _ ?_ ?_ <;> intro i h0 h1 <;>
          simp only [SA.toList, lane_append, la] <;> lane_fin
      · obtain ⟨r0, e0, w0, t0⟩ := ihI k a b wa wb (shIn_inner (by omega) (by omega))
        obtain ⟨r1, e1, w1, t1⟩ := ihS k b wb
        refine ⟨.node r0 r1, by simp only [e0, e1, Option.bind_some], ⟨ha, w0, he ▸ w1⟩, ?_⟩
        rw [SA.toList, t0, t1]
        refine tab_split hsum _ _ _ ?_ ?_ <;> intro i h0 h1 <;>
          simp only [SA.toList, lane_append, la, shInAt] <;> lane_fin

/-- The lambda of the non-bisectable `shifted(k, y)`. -/
theorem shIn_lambda (hC : C.Valid) {n nn : Nat} (hn : 2 ≤ n) (hnn : 1 ≤ nn)
    (ha : C.atomic n = false) (hb : ¬ (leftSize n = rightSize n ∧ n = nn)) {k : Int} {x y : SA α}
    (wx : SA.WF C n x) (wy : SA.WF C nn y)
    (hk : nn = n ∨ (0 ≤ k ∧ k ≤ n ∧ k ≤ nn) ∨ (k < 0 ∧ n ≤ nn)) :
    ∃ r, x.shiftedIn C z n nn k y = some r ∧ SA.WF C n r ∧
      r.toList = tab n (shInAt z n k x.toList y.toList) := by
  have lx := WF.length hC (by omega) wx
  have ly := WF.length hC hnn wy
  have hget : ∀ {m : Nat} {u : SA α}, 1 ≤ m → SA.WF C m u → ∀ j : Int, 0 ≤ j → j < m →
      u.get C j = some (lane z u.toList j) := by
    intro m u hm wu j h0 h1
    obtain ⟨i, rfl⟩ := Int.eq_ofNat_of_zero_le h0
    have lu := WF.length hC hm wu
    rw [get_eq hC hm wu, lane_eq_getElem z _ i (by omega), List.getElem?_eq_getElem (by omega)]
  obtain ⟨a, b, rfl, wa, wb⟩ := WF.exists_node ha wx
  rw [SA.shiftedIn.eq_def]
  dsimp only
  rw [if_neg (by simp [ha]), dif_pos hn, if_neg hb]
  split
  · apply gen_tab hC n (by omega)
    intro i hi
    unfold shInAt
    by_cases h1 : (i : Int) + k ≥ 0
    · rw [if_pos h1, hget (by omega) wx _ (by omega) (by omega), if_pos (by omega)]
    · rw [if_neg h1, if_neg (c := _ ∧ _) (by omega), if_neg (c := 0 ≤ k) (by omega)]
      split
      · rw [hget hnn wy _ (by omega) (by omega)]
      · rw [lane_of_lt _ _ _ (by omega)]
  · apply gen_tab hC n (by omega)
    intro i hi
    unfold shInAt
    by_cases h1 : (i : Int) + k < n
    · rw [if_pos h1, hget (by omega) wx _ (by omega) (by omega), if_pos (by omega)]
    · rw [if_neg h1, if_neg (c := _ ∧ _) (by omega), if_pos (c := 0 ≤ k) (by omega)]
      split
      · rw [hget hnn wy _ (by omega) (by omega)]
      · rw [lane_of_ge _ _ _ (by omega)]

theorem shIn_atomic (hC : C.Valid) {n nn : Nat} (hn : 1 ≤ n) (hnn : 1 ≤ nn)
    (ha : C.atomic n = true) {k : Int} {x y : SA α}
    (wx : SA.WF C n x) (wy : SA.WF C nn y) (hk : (-(n : Int) ≤ k ∨ n ≠ 1) ∧ k ≤ n) :
    ∃ r, x.shiftedIn C z n nn k y = some r ∧ SA.WF C n r ∧
      r.toList = tab n (shInAt z n k x.toList (resize z n y.toList)) := by
  obtain ⟨l, rfl, hl⟩ := WF.exists_atom ha wx
  obtain ⟨c, ec, wc, tc⟩ := cast_wf hC z hnn hn wy
  obtain ⟨m, rfl, hm⟩ := WF.exists_atom ha wc
  rw [SA.shiftedIn, if_pos ha]
  refine ⟨.atom (tab n (shInAt z n k l m)), ?_, ⟨by simp, ha⟩, ?_⟩
  · simp [ec, natShiftedIn_eq z hl hm hk]
  · rw [SA.toList, ← tc, SA.toList, SA.toList]

theorem bestWidth_half_aux {n : Nat} (hn : 2 ≤ n) : ∀ {ws : List Nat}, (∀ w ∈ ws, IsPow2 w) →
    bestWidth n ws ≠ n → bestWidth (leftSize n) ws = bestWidth n ws
  | [], _, _ => rfl
  | [w], _, _ => rfl
  | w :: w' :: ws, hp, h => by
    have hlt := leftSize_lt hn
    unfold bestWidth at h ⊢
    by_cases c : n < w
    · rw [if_pos c] at h
      rw [if_pos c, if_pos (by omega)]
      exact bestWidth_half_aux hn (fun v hv => hp v (List.mem_cons_of_mem _ hv)) h
    · rw [if_neg c] at h
      have := le_leftSize hn (hp w (by simp)) (by omega)
      rw [if_neg c, if_neg (by omega)]

theorem bestWidth_half (hC : C.Valid) {n : Nat} (hn : 2 ≤ n) (ha : C.atomic n = false) :
    bestWidth (leftSize n) C.ws = bestWidth n C.ws :=
  bestWidth_half_aux hn hC.widths (of_decide_eq_false ha)

theorem shIn_pow2_step (hC : C.Valid) {n : Nat} (hn : 2 ≤ n) (ha : C.atomic n = false)
    (he : leftSize n = rightSize n) (hS : ShOk C z n)
    (ihI : ShInOk C z (leftSize n)) : ShInOk C z n := by
  intro k x y wx wy hk
  unfold ShInAmount at hk
  rw [if_neg (by simp [ha]), if_pos he] at hk
  have hbw : bestWidth n C.ws ≠ 1 → k < leftSize n → ShInAmount C (leftSize n) k := by
    intro h hk
    rw [← bestWidth_half hC hn ha] at h
    unfold ShInAmount
    split
    · rename_i ha'
      have := of_decide_eq_true ha'
      omega
    · split
      · exact .inr h
      · trivial
  have hsum := leftSize_add_rightSize hn
  have hL1 := one_le_leftSize (n := n) (by omega)
  have lx := WF.length hC (by omega) wx
  have ly := WF.length hC (by omega) wy
  obtain ⟨a, b, rfl, wa, wb⟩ := WF.exists_node ha wx
  obtain ⟨c, d, rfl, wc, wd⟩ := WF.exists_node ha wy
  rw [SA.shiftedIn, if_neg (by simp [ha]), dif_pos hn, if_pos ⟨he, rfl⟩]
  rw [← he] at wb wd hsum
  have la := WF.length hC hL1 wa
  have lb := WF.length hC hL1 wb
  have lc := WF.length hC hL1 wc
  have ld := WF.length hC hL1 wd
  dsimp only
  by_cases c0 : k < 0 ∧ k > -(leftSize n : Int)
  · rw [if_pos c0]
    obtain ⟨r0, e0, w0, t0⟩ := ihI k a d wa wd (shIn_inner (by omega) (by omega))
    obtain ⟨r1, e1, w1, t1⟩ := ihI k b a wb wa (shIn_inner (by omega) (by omega))
    refine ⟨.node r0 r1, by simp [e0, e1], ⟨ha, w0, he ▸ w1⟩, ?_⟩
    rw [SA.toList, t0, t1]
    refine tab_split hsum _ _ _ ?_ ?_ <;> intro i h0 h1 <;>
      simp only [SA.toList, lane_append, la, lc, shInAt] <;> lane_fin
  rw [if_neg c0]
  by_cases c1 : k < 0 ∧ k = -(leftSize n : Int)
  · rw [if_pos c1]
    refine ⟨_, rfl, ⟨ha, wd, he ▸ wa⟩, ?_⟩
    rw [SA.toList, eq_tab_lane z ld, eq_tab_lane z la]
    refine tab_split hsum _ _ _ ?_ ?_ <;> intro i h0 h1 <;>
      simp only [SA.toList, lane_append, la, lc, shInAt] <;> lane_fin
  rw [if_neg c1]
  by_cases c2 : k < 0 ∧ k > -(n : Int)
  · rw [if_pos c2]
    obtain ⟨r0, e0, w0, t0⟩ := ihI (k + leftSize n) d c wd wc (shIn_inner (by omega) (by omega))
    obtain ⟨r1, e1, w1, t1⟩ := ihI (k + leftSize n) a d wa wd (shIn_inner (by omega) (by omega))
    refine ⟨.node r0 r1, by simp [e0, e1], ⟨ha, w0, he ▸ w1⟩, ?_⟩
    rw [SA.toList, t0, t1]
    refine tab_split hsum _ _ _ ?_ ?_ <;> intro i h0 h1 <;>
      simp only [SA.toList, lane_append, la, lc, shInAt] <;> lane_fin
  rw [if_neg c2]
  by_cases c3 : k < 0 ∧ k = -(n : Int)
  · rw [if_pos c3]
    refine ⟨_, rfl, wy, ?_⟩
    refine (eq_tab_lane z ly).trans ?_
    apply tab_congr
    intro i h0 h1
    simp only [shInAt]; lane_fin
  rw [if_neg c3]
  by_cases c4 : k < 0 ∧ k > -2 * (n : Int)
  · rw [if_pos c4]
    obtain ⟨r, e, w, t⟩ := hS (k + n) (.node c d) wy
    refine ⟨r, e, w, ?_⟩
    rw [t]
    apply tab_congr
    intro i h0 h1
    simp only [shInAt]; lane_fin
  rw [if_neg c4]
  by_cases c5 : k = 0
  · rw [if_pos c5]
    refine ⟨_, rfl, wx, ?_⟩
    refine (eq_tab_lane z lx).trans ?_
    apply tab_congr
    intro i h0 h1
    simp only [shInAt]; lane_fin
  rw [if_neg c5]
  by_cases c6 : k < (leftSize n : Int)
  · rw [if_pos c6]
    have hA : ShInAmount C (leftSize n) k := by
      rcases hk with h | h
      · exact shIn_inner (by omega) (by omega)
      · exact hbw h (by omega)
    obtain ⟨r0, e0, w0, t0⟩ := ihI k a b wa wb hA
    obtain ⟨r1, e1, w1, t1⟩ := ihI k b c wb wc hA
    refine ⟨.node r0 r1, by simp [e0, e1], ⟨ha, w0, he ▸ w1⟩, ?_⟩
    rw [SA.toList, t0, t1]
    refine tab_split hsum _ _ _ ?_ ?_ <;> intro i h0 h1 <;>
      simp only [SA.toList, lane_append, la, lc, shInAt] <;> lane_fin
  rw [if_neg c6]
  by_cases c7 : k = (leftSize n : Int)
  · rw [if_pos c7]
    refine ⟨_, rfl, ⟨ha, wb, he ▸ wc⟩, ?_⟩
    rw [SA.toList, eq_tab_lane z lb, eq_tab_lane z lc]
    refine tab_split hsum _ _ _ ?_ ?_ <;> intro i h0 h1 <;>
      simp only [SA.toList, lane_append, la, lc, shInAt] <;> lane_fin
  rw [if_neg c7]
  by_cases c8 : k < (n : Int)
  · rw [if_pos c8]
    obtain ⟨r0, e0, w0, t0⟩ := ihI (k - leftSize n) b c wb wc (shIn_inner (by omega) (by omega))
    obtain ⟨r1, e1, w1, t1⟩ := ihI (k - leftSize n) c d wc wd (shIn_inner (by omega) (by omega))
    refine ⟨.node r0 r1, by simp [e0, e1], ⟨ha, w0, he ▸ w1⟩, ?_⟩
    rw [SA.toList, t0, t1]
    refine tab_split hsum _ _ _ ?_ ?_ <;> intro i h0 h1 <;>
      simp only [SA.toList, lane_append, la, lc, shInAt] <;> lane_fin
  rw [if_neg c8]
  by_cases c9 : k = (n : Int)
  · rw [if_pos c9]
    refine ⟨_, rfl, wy, ?_⟩
    refine (eq_tab_lane z ly).trans ?_
    apply tab_congr
    intro i h0 h1
    simp only [shInAt]; lane_fin
  rw [if_neg c9]
  by_cases c10 : k < 2 * (n : Int)
  · rw [if_pos c10]
    obtain ⟨r, e, w, t⟩ := hS (k - n) (.node c d) wy
    refine ⟨r, e, w, ?_⟩
    rw [t]
    apply tab_congr
    intro i h0 h1
    simp only [shInAt]; lane_fin
  rw [if_neg c10]
  · obtain ⟨wz, tz⟩ := broadcast_wf hC z n (by omega)
    refine ⟨_, rfl, wz, ?_⟩
    rw [tz, ← tab_const]
    apply tab_congr
    intro i h0 h1
    simp only [shInAt]; lane_fin

/-- `shifted(k, y)` for operands of the same type, and `shifted(k)` for powers of two. -/
theorem shift_ok (hC : C.Valid) (n : Nat) (hn : 1 ≤ n) :
    (IsPow2 n → ShOk C z n) ∧ ShInOk C z n := by
  induction n using Nat.strongRecOn with
  | ind n ih =>
    cases ha : C.atomic n with
    | true =>
      refine ⟨fun _ => sh_atomic z ha, ?_⟩
      intro k x y wx wy hk
      unfold ShInAmount at hk
      rw [if_pos ha] at hk
      obtain ⟨r, e, w, t⟩ := shIn_atomic z hC hn hn ha wx wy hk
      refine ⟨r, e, w, ?_⟩
      rw [t]
      have := resize_self z y.toList
      rw [WF.length hC hn wy] at this
      rw [this]
    | false =>
      have hn2 := hC.two_le hn ha
      have ihL := ih _ (leftSize_lt hn2) (one_le_leftSize hn)
      have hS : IsPow2 n → ShOk C z n := fun hp => sh_pow2_step z hC hn2 ha
        ((leftSize_eq_rightSize_iff hn2).mpr hp) (ihL.1 (isPow2_leftSize hn)) ihL.2
      refine ⟨hS, ?_⟩
      by_cases he : leftSize n = rightSize n
      · exact shIn_pow2_step z hC hn2 ha he (hS ((leftSize_eq_rightSize_iff hn2).mp he)) ihL.2
      · intro k x y wx wy _
        exact shIn_lambda z hC hn2 hn ha (by simp [he]) wx wy (.inl rfl)

theorem shifted_pow2 (hC : C.Valid) {n : Nat} (hp : IsPow2 n) (k : Int) {x : SA α}
    (wx : SA.WF C n x) : ∃ r, x.shifted C z n k = some r ∧ SA.WF C n r ∧
      r.toList = tab n fun i => lane z x.toList (i + k) :=
  (shift_ok z hC n hp.pos).1 hp k x wx

theorem shiftedIn_same (hC : C.Valid) {n : Nat} (hn : 1 ≤ n) {k : Int} {x y : SA α}
    (wx : SA.WF C n x) (wy : SA.WF C n y) (hk : -(n : Int) ≤ k ∧ k ≤ n) :
    ∃ r, x.shiftedIn C z n n k y = some r ∧ SA.WF C n r ∧
      r.toList = tab n (shInAt z n k x.toList y.toList) :=
  (shift_ok z hC n hn).2 k x y wx wy (shIn_inner' hn hk.1 hk.2)

/-- `shifted(k, y)` for `y` of another length, within the lanes that `y` has. -/
theorem shiftedIn_other (hC : C.Valid) {n nn : Nat} (hn : 1 ≤ n) (hnn : 1 ≤ nn) {k : Int}
    {x y : SA α} (wx : SA.WF C n x) (wy : SA.WF C nn y)
    (hk : (0 ≤ k ∧ k ≤ n ∧ (k ≤ nn ∨ C.atomic n = true)) ∨ (-(n : Int) ≤ k ∧ k < 0 ∧ n ≤ nn)) :
    ∃ r, x.shiftedIn C z n nn k y = some r ∧ SA.WF C n r ∧
      r.toList = tab n (shInAt z n k x.toList y.toList) := by
  by_cases hs : nn = n
  · subst hs; exact shiftedIn_same z hC hn wx wy (by omega)
  · cases ha : C.atomic n with
    | true =>
      obtain ⟨r, e, w, t⟩ := shIn_atomic z hC hn hnn ha wx wy (k := k) (by omega)
      refine ⟨r, e, w, ?_⟩
      rw [t]
      apply tab_congr
      intro i h0 h1
      simp only [shInAt, lane_resize]
      lane_fin
    | false =>
      refine shIn_lambda z hC (hC.two_le hn ha) hnn ha (by omega) wx wy ?_
      simp only [ha] at hk
      rcases hk with ⟨h1, h2, h3⟩ | ⟨h1, h2, h3⟩
      · exact .inr (.inl ⟨h1, h2, by simpa using h3⟩)
      · exact .inr (.inr ⟨h2, h3⟩)

end
end Vc.Lemma
