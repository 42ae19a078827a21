import Verif.Model.SortNet
import Verif.Spec.Reduce
import Verif.Lemma.SseShuffle

/-!
The 0-1 principle: what a network of minima and maxima does to integers follows from what it does to
truth values, and that is computed for all inputs at once with truth tables (one bit per input).
-/

namespace Vc.Lemma

open Vc.Model

/-- The content of a lane as an expression in the inputs. -/
inductive Wire where
  | inp (i : Nat)
  | mn (a b : Wire)
  | mx (a b : Wire)

/-- The value for integers. -/
def evI (v : Nat → Int) : Wire → Int
  | .inp i => v i
  | .mn a b => min (evI v a) (evI v b)
  | .mx a b => max (evI v a) (evI v b)

/-- The value for truth values. -/
def evB (v : Nat → Bool) : Wire → Bool
  | .inp i => v i
  | .mn a b => evB v a && evB v b
  | .mx a b => evB v a || evB v b

/-- The truth table, with the tables of the inputs. -/
def evT (t : Nat → Nat) : Wire → Nat
  | .inp i => t i
  | .mn a b => Nat.land (evT t a) (evT t b)
  | .mx a b => Nat.lor (evT t a) (evT t b)

/-- All inputs are below `m`. -/
def bnd (m : Nat) : Wire → Bool
  | .inp i => decide (i < m)
  | .mn a b => bnd m a && bnd m b
  | .mx a b => bnd m a && bnd m b

theorem evB_thr (v : Nat → Int) (t : Int) (e : Wire) :
    decide (t ≤ evI v e) = evB (fun i => decide (t ≤ v i)) e := by
  induction e with
  | inp i => rfl
  | mn a b ha hb =>
    simp only [evI, evB, ← ha, ← hb, ← Bool.decide_and]
    exact decide_eq_decide.mpr (by omega)
  | mx a b ha hb =>
    simp only [evI, evB, ← ha, ← hb, ← Bool.decide_or]
    exact decide_eq_decide.mpr (by omega)

theorem evB_congr {m : Nat} {u v : Nat → Bool} (h : ∀ i, i < m → u i = v i) {e : Wire}
    (he : bnd m e = true) : evB u e = evB v e := by
  induction e with
  | inp i => exact h i (of_decide_eq_true he)
  | mn a b ha hb =>
    simp only [bnd, Bool.and_eq_true] at he
    simp only [evB, ha he.1, hb he.2]
  | mx a b ha hb =>
    simp only [bnd, Bool.and_eq_true] at he
    simp only [evB, ha he.1, hb he.2]

theorem testBit_evT (t : Nat → Nat) (n : Nat) (e : Wire) :
    (evT t e).testBit n = evB (fun i => (t i).testBit n) e := by
  induction e with
  | inp i => rfl
  | mn a b ha hb => simp only [evT, evB, ← ha, ← hb]; exact Nat.testBit_and _ _ _
  | mx a b ha hb => simp only [evT, evB, ← ha, ← hb]; exact Nat.testBit_or _ _ _

/-- The table of variable `k` among `m`: bit `n` is bit `k` of `n`. -/
def tbl : Nat → Nat → Nat
  | 0, _ => 0
  | m + 1, k =>
    if k = m then Nat.shiftLeft (2 ^ 2 ^ m - 1) (2 ^ m)
    else Nat.lor (tbl m k) (Nat.shiftLeft (tbl m k) (2 ^ m))

theorem testBit_tbl (m k n : Nat) : (tbl m k).testBit n = (decide (n < 2 ^ m) && n.testBit k) := by
  induction m generalizing n with
  | zero =>
    simp only [tbl, Nat.zero_testBit]
    by_cases h : n < 2 ^ 0
    · have : n = 0 := by omega
      subst this; simp
    · simp [h]
  | succ m ih =>
    have hp : 2 ^ (m + 1) = 2 ^ m + 2 ^ m := by rw [Nat.pow_succ]; omega
    have hsl : ∀ a b : Nat, Nat.shiftLeft a b = a <<< b := fun _ _ => rfl
    have hor : ∀ a b : Nat, Nat.lor a b = a ||| b := fun _ _ => rfl
    simp only [tbl]
    by_cases hk : k = m
    · subst hk
      rw [if_pos rfl, hsl, Nat.testBit_shiftLeft, Nat.testBit_two_pow_sub_one]
      by_cases h1 : n < 2 ^ k
      · rw [Nat.testBit_lt_two_pow h1]; simp; omega
      · by_cases h2 : n < 2 ^ (k + 1)
        · obtain ⟨r, rfl⟩ : ∃ r, n = 2 ^ k + r := ⟨n - 2 ^ k, by omega⟩
          have hr : r < 2 ^ k := by omega
          rw [Nat.testBit_two_pow_add_eq, Nat.testBit_lt_two_pow hr]
          simp; omega
        · simp [h2]; omega
    · rw [if_neg hk, hor, hsl, Nat.testBit_or, Nat.testBit_shiftLeft, ih, ih]
      by_cases h1 : n < 2 ^ m
      · have h1' : ¬ 2 ^ m ≤ n := by omega
        have h2 : n < 2 ^ (m + 1) := by omega
        simp [h1, h1', h2]
      · by_cases h2 : n < 2 ^ (m + 1)
        · obtain ⟨r, rfl⟩ : ∃ r, n = 2 ^ m + r := ⟨n - 2 ^ m, by omega⟩
          have hr : r < 2 ^ m := by omega
          have : (2 ^ m + r).testBit k = r.testBit k := by
            rcases Nat.lt_or_gt_of_ne hk with h | h
            · exact Nat.testBit_two_pow_add_gt h r
            · have a : r < 2 ^ k := Nat.lt_trans hr (Nat.pow_lt_pow_right (by decide) h)
              have b : 2 ^ m + r < 2 ^ k := Nat.lt_of_lt_of_le h2 (Nat.pow_le_pow_right (by decide) h)
              rw [Nat.testBit_lt_two_pow a, Nat.testBit_lt_two_pow b]
          rw [this]
          simp [hr, h2]
        · have h3 : ¬ n - 2 ^ m < 2 ^ m := by omega
          simp [h1, h2, h3]

/-- The tables of "at least `j` of the variables `vars`", for `j = 0, 1, ...`. -/
def atLeast (m : Nat) : List Nat → List Nat
  | [] => [2 ^ 2 ^ m - 1]
  | x :: xs =>
    List.zipWith (fun a b => Nat.lor a (Nat.land (tbl m x) b)) (atLeast m xs ++ [0]) (0 :: atLeast m xs)

theorem length_atLeast (m : Nat) (vars : List Nat) : (atLeast m vars).length = vars.length + 1 := by
  induction vars with
  | nil => rfl
  | cons x xs ih => simp [atLeast, ih]

theorem testBit_atLeast (m : Nat) (vars : List Nat) {n : Nat} (hn : n < 2 ^ m) {j : Nat}
    (hj : j ≤ vars.length) :
    ((atLeast m vars).getD j 0).testBit n = decide (j ≤ vars.countP fun k => n.testBit k) := by
  induction vars generalizing j with
  | nil =>
    have : j = 0 := by simpa using hj
    subst this
    simp [atLeast, Nat.testBit_two_pow_sub_one, hn]
  | cons x xs ih =>
    have hl := length_atLeast m xs
    have hland : ∀ a b : Nat, Nat.land a b = a &&& b := fun _ _ => rfl
    have hor : ∀ a b : Nat, Nat.lor a b = a ||| b := fun _ _ => rfl
    have hjl : j ≤ xs.length + 1 := by simpa using hj
    have e : (atLeast m (x :: xs)).getD j 0 =
        (if j ≤ xs.length then (atLeast m xs).getD j 0 else 0) |||
          (tbl m x &&& if j = 0 then 0 else (atLeast m xs).getD (j - 1) 0) := by
      simp only [atLeast]
      rw [List.getD_eq_getElem?_getD, List.getElem?_zipWith]
      have a : (atLeast m xs ++ [0])[j]? =
          some (if j ≤ xs.length then (atLeast m xs).getD j 0 else 0) := by
        by_cases h : j ≤ xs.length
        · rw [if_pos h, List.getElem?_append_left (by omega), List.getD_eq_getElem?_getD,
            List.getElem?_eq_getElem (by omega)]; rfl
        · have : j = (atLeast m xs).length := by omega
          rw [if_neg h, this, List.getElem?_append_right (by omega)]; simp
      have b : (0 :: atLeast m xs)[j]? =
          some (if j = 0 then 0 else (atLeast m xs).getD (j - 1) 0) := by
        by_cases h : j = 0
        · subst h; rfl
        · obtain ⟨i, rfl⟩ := Nat.exists_eq_succ_of_ne_zero h
          rw [if_neg h, List.getElem?_cons_succ, List.getD_eq_getElem?_getD, Nat.succ_sub_one,
            List.getElem?_eq_getElem (by omega)]; rfl
      rw [a, b]; rfl
    rw [e, Nat.testBit_or, Nat.testBit_and, testBit_tbl, List.countP_cons]
    have hc := List.countP_le_length (p := fun k => n.testBit k) (l := xs)
    have A : (if j ≤ xs.length then (atLeast m xs).getD j 0 else 0).testBit n =
        decide (j ≤ xs.countP fun k => n.testBit k) := by
      by_cases h : j ≤ xs.length
      · rw [if_pos h, ih h]
      · rw [if_neg h, Nat.zero_testBit, decide_eq_false (by omega)]
    have B : (if j = 0 then 0 else (atLeast m xs).getD (j - 1) 0).testBit n =
        decide (j ≠ 0 ∧ j - 1 ≤ xs.countP fun k => n.testBit k) := by
      by_cases h : j = 0
      · rw [if_pos h, Nat.zero_testBit, decide_eq_false (by omega)]
      · rw [if_neg h, ih (by omega)]; exact decide_eq_decide.mpr (by omega)
    rw [A, B, decide_eq_true hn, Bool.true_and]
    cases hb : n.testBit x
    · simp
    · simp only [Bool.true_and, if_true, ← Bool.decide_or]
      exact decide_eq_decide.mpr (by omega)

/-- Lane `i` is at least `t` exactly if at least `n - i` of the `n` inputs `vars` are, checked with truth
tables for `m` variables. -/
def check (m : Nat) (vars : List Nat) (E : Nat → Wire) : Bool :=
  let row := atLeast m vars
  (List.range vars.length).all fun i =>
    bnd m (E i) && Nat.beq (evT (tbl m) (E i)) (row.getD (vars.length - i) 0)

theorem check_thr {m : Nat} {vars : List Nat} {E : Nat → Wire} (hc : check m vars E = true)
    (hv : ∀ k ∈ vars, k < m) (v : Nat → Int) (t : Int) {i : Nat} (hi : i < vars.length) :
    (t ≤ evI v (E i)) ↔ vars.length - i ≤ vars.countP fun k => decide (t ≤ v k) := by
  unfold check at hc
  have := List.all_eq_true.mp hc i (List.mem_range.mpr hi)
  rw [Bool.and_eq_true] at this
  obtain ⟨hb, ht⟩ := this
  have ht := Nat.eq_of_beq_eq_true ht
  let b : Nat → Bool := fun k => decide (t ≤ v k)
  have hn : natOfBits b m < 2 ^ m := natOfBits_lt b m
  have hbit : ∀ k, k < m → b k = (natOfBits b m).testBit k := fun k hk => by
    rw [testBit_natOfBits, decide_eq_true hk, Bool.true_and]
  have h1 := evB_thr v t (E i)
  rw [evB_congr hbit hb] at h1
  have h2 := testBit_evT (tbl m) (natOfBits b m) (E i)
  rw [ht, testBit_atLeast m vars hn (by omega)] at h2
  have h3 : (fun k => (tbl m k).testBit (natOfBits b m)) = fun k => (natOfBits b m).testBit k := by
    funext k; rw [testBit_tbl, decide_eq_true hn, Bool.true_and]
  rw [h3, ← h1] at h2
  have h4 : (vars.countP fun k => (natOfBits b m).testBit k) = vars.countP b :=
    List.countP_congr fun k hk => by rw [hbit k (hv k hk)]
  rw [h4] at h2
  have := decide_eq_decide.mp h2
  exact this.symm

/-- Lists of integers with the same numbers of entries above each threshold. -/
theorem perm_of_thr {l r : List Int}
    (h : ∀ t : Int, l.countP (fun a => decide (t ≤ a)) = r.countP fun a => decide (t ≤ a)) : l.Perm r := by
  rw [List.perm_iff_count]
  have key : ∀ (l : List Int) (a : Int), l.countP (fun b => decide (a ≤ b)) =
      l.count a + l.countP fun b => decide (a + 1 ≤ b) := by
    intro l a
    induction l with
    | nil => rfl
    | cons x xs ih =>
      rw [List.countP_cons, List.countP_cons, List.count_cons, ih]
      rcases Int.lt_trichotomy x a with h1 | h1 | h1
      · rw [if_neg (by simp; omega), if_neg (by simp; omega), if_neg (by simp; omega)]; omega
      · rw [if_pos (by simp; omega), if_pos (by simp; omega), if_neg (by simp; omega)]; omega
      · rw [if_pos (by simp; omega), if_neg (by simp; omega), if_pos (by simp; omega)]; omega
  intro a
  have h0 := h a
  have h1 := h (a + 1)
  have k1 := key l a
  have k2 := key r a
  omega

theorem countP_range (n c : Nat) (h : c ≤ n) :
    ((List.range n).countP fun i => decide (n - i ≤ c)) = c := by
  induction n generalizing c with
  | zero => simp at h; subst h; rfl
  | succ n ih =>
    rw [List.range_succ, List.countP_append]
    by_cases hc : c = 0
    · subst hc
      rw [List.countP_eq_zero.mpr (by intro a ha; have := List.mem_range.mp ha; simp; omega)]
      simp
    · have : ((List.range n).countP fun i => decide (n + 1 - i ≤ c)) =
          (List.range n).countP fun i => decide (n - i ≤ c - 1) :=
        List.countP_congr fun i hi => by have := List.mem_range.mp hi; simp; omega
      rw [this, ih (c - 1) (by omega), List.countP_singleton, if_pos (by simp; omega)]
      omega

/-- The 0-1 principle. -/
theorem net_sorts {m : Nat} {vars : List Nat} {E : Nat → Wire} (hc : check m vars E = true)
    (hv : ∀ k ∈ vars, k < m) (v : Nat → Int) :
    Spec.IsSorted (fun a b : Int => decide (a ≤ b)) (vars.map v)
      ((List.range vars.length).map fun i => evI v (E i)) := by
  have thr := fun (t : Int) {i : Nat} (hi : i < vars.length) => check_thr hc hv v t hi
  refine ⟨?_, ?_⟩
  · rw [List.pairwise_map]
    refine List.Pairwise.imp_of_mem ?_ List.pairwise_lt_range
    intro i j hi hj hij
    have hi := List.mem_range.mp hi
    have hj := List.mem_range.mp hj
    have := (thr (evI v (E i)) hi).mp (Int.le_refl _)
    exact decide_eq_true ((thr (evI v (E i)) hj).mpr (by omega))
  · apply perm_of_thr
    intro t
    rw [List.countP_map, List.countP_map]
    have hle := List.countP_le_length (p := fun k => decide (t ≤ v k)) (l := vars)
    have := countP_range vars.length (vars.countP fun k => decide (t ≤ v k)) hle
    refine Eq.trans (List.countP_congr fun i hi => ?_) this
    have := thr t (List.mem_range.mp hi)
    simpa using this

end Vc.Lemma
