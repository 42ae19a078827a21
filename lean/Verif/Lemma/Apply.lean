import Verif.Model.Apply
import Verif.Spec.Apply
import Verif.Lemma.Reg
import Mathlib.Tactic.Tauto

/-! Lemmas about the loops of `Model/Apply.lean`. -/

namespace Vc.Lemma

open Vc.Model Vc.Spec

variable {n : Nat} {σ : Type}

theorem unrolledLoop_eq (f : Nat → σ → σ) (b e : Nat) (s : σ) :
    unrolledLoop f b e s = (List.range' b (e - b)).foldl (fun s i => f i s) s := by
  induction h : e - b generalizing b s with
  | zero => rw [unrolledLoop, if_neg (by omega)]; rfl
  | succ k ih =>
    rw [unrolledLoop, if_pos (by omega), ih _ _ (by omega)]
    rfl

theorem lane_fits {w i : Nat} (h : i < n / w) : w * (i + 1) ≤ n := by
  rw [Nat.mul_comm]
  exact (Nat.le_div_iff_mul_le (Nat.pos_of_ne_zero (by rintro rfl; simp at h))).1 h

theorem lane_setLane {w : Nat} (x : BitVec n) (i : Nat) (v : BitVec w) {j : Nat} (h : j < n / w) :
    lane w (setLane w x i v) j = if j = i then v else lane w x j := by
  unfold setLane
  rw [lane_ofLanes _ (lane_fits h)]

/-- One step of a loop that replaces lanes. -/
def laneStep (w : Nat) (g : Nat → BitVec w → σ → BitVec w × σ) (sel : Nat → Bool)
    (rd : BitVec n → Nat → BitVec w) (p : BitVec n × σ) (i : Nat) : BitVec n × σ :=
  if sel i then (setLane w p.1 i (g i (rd p.1 i) p.2).1, (g i (rd p.1 i) p.2).2) else p

theorem laneLoop (w : Nat) (g : Nat → BitVec w → σ → BitVec w × σ) (sel : Nat → Bool)
    (rd : BitVec n → Nat → BitVec w) (x : BitVec n)
    (hrd : ∀ r v b i, b < i → i < n / w → rd (setLane w r b v) i = rd r i)
    (k b : Nat) (hk : b + k = n / w) (r : BitVec n) (s : σ)
    (h1 : ∀ i, b ≤ i → i < n / w → rd r i = lane w x i)
    (h2 : ∀ i, b ≤ i → i < n / w → sel i = false → lane w r i = lane w x i) :
    ((List.range' b k).map (lane w ((List.range' b k).foldl (laneStep w g sel rd) (r, s)).1),
      ((List.range' b k).foldl (laneStep w g sel rd) (r, s)).2) =
      replaceEach g sel b ((List.range' b k).map (lane w x)) s ∧
    ∀ i, i < b → lane w ((List.range' b k).foldl (laneStep w g sel rd) (r, s)).1 i = lane w r i := by
  induction k generalizing b r s with
  | zero => exact ⟨rfl, fun _ _ => rfl⟩
  | succ k ih =>
    have hb : b < n / w := by omega
    rw [List.range'_succ, List.foldl_cons, List.map_cons, List.map_cons, replaceEach]
    cases hs : sel b with
    | false =>
      have e : laneStep w g sel rd (r, s) b = (r, s) := by simp [laneStep, hs]
      obtain ⟨i1, i2⟩ := ih (b + 1) (by omega) r s (fun i hi => h1 i (by omega))
        (fun i hi => h2 i (by omega))
      rw [e]
      refine ⟨?_, fun i hi => i2 i (by omega)⟩
      rw [i2 b (by omega), h2 b (by omega) hb hs, ← i1]
      rfl
    | true =>
      have e : laneStep w g sel rd (r, s) b =
          (setLane w r b (g b (lane w x b) s).1, (g b (lane w x b) s).2) := by
        simp [laneStep, hs, h1 b (by omega) hb]
      obtain ⟨i1, i2⟩ := ih (b + 1) (by omega) (setLane w r b (g b (lane w x b) s).1)
        (g b (lane w x b) s).2
        (fun i hi hn => by rw [hrd _ _ _ _ (by omega) hn]; exact h1 i (by omega) hn)
        (fun i hi hn hf => by
          rw [lane_setLane _ _ _ hn, if_neg (by omega)]; exact h2 i (by omega) hn hf)
      rw [e]
      refine ⟨?_, fun i hi => ?_⟩
      · rw [i2 b (by omega), lane_setLane _ _ _ hb, if_pos rfl, if_pos rfl, ← i1]
      · rw [i2 i (by omega), lane_setLane _ _ _ (by omega), if_neg (by omega)]

theorem entries_eq (w : Nat) (x : BitVec n) :
    entries w x = (List.range' 0 (n / w)).map (lane w x) := by
  rw [entries, List.range_eq_range']; rfl

/-- The whole loop. -/
theorem laneLoop_entries (w : Nat) (g : Nat → BitVec w → σ → BitVec w × σ) (sel : Nat → Bool)
    (rd : BitVec n → Nat → BitVec w) (x r : BitVec n) (s : σ)
    (hrd : ∀ r v b i, b < i → i < n / w → rd (setLane w r b v) i = rd r i)
    (h1 : ∀ i, i < n / w → rd r i = lane w x i)
    (h2 : ∀ i, i < n / w → sel i = false → lane w r i = lane w x i) :
    (entries w ((List.range (n / w)).foldl (laneStep w g sel rd) (r, s)).1,
      ((List.range (n / w)).foldl (laneStep w g sel rd) (r, s)).2) =
      replaceEach g sel 0 (entries w x) s := by
  rw [entries_eq, entries_eq, List.range_eq_range']
  exact (laneLoop w g sel rd x hrd (n / w) 0 (by omega) r s (fun i _ => h1 i)
    (fun i _ => h2 i)).1

/-- A loop over the selected lanes is a loop over all lanes that skips the others. -/
theorem foldlM_filter {S : Type} (N : Nat) (sel : Nat → Bool) (step : S → Nat → S) (s : S) :
    ((List.range N).filter sel).foldlM
      (fun s i => if i < N then some (step s i) else none) s =
    some ((List.range N).foldl (fun s i => if sel i then step s i else s) s) := by
  rw [← List.foldl_filter]
  have : ∀ l : List Nat, (∀ i ∈ l, i < N) → ∀ s : S,
      l.foldlM (fun s i => if i < N then some (step s i) else none) s =
        some (l.foldl step s) := by
    intro l
    induction l with
    | nil => intro _ s; rfl
    | cons i l ih =>
      intro h s
      rw [List.foldlM_cons, if_pos (h i (by simp))]
      exact ih (fun j hj => h j (by simp [hj])) _
  exact this _ (fun i hi => List.mem_range.1 (List.mem_filter.1 hi).1) s

/-- The values `callWithValuesSorted` passes on after `value`: the entries, each only if it is
unequal to the one passed last. -/
def changes {V : Type} (ne : V → V → Bool) : V → List V → List V
  | _, [] => []
  | value, v :: l => if ne v value then v :: changes ne v l else changes ne value l

theorem sortedLoop_eq (w : Nat) (ne : BitVec w → BitVec w → Bool) (f : BitVec w → σ → σ)
    (x : BitVec n) (i : Nat) (value : BitVec w) (s : σ) :
    sortedLoop w ne f x i value s =
      callEach f (changes ne value ((List.range' i (n / w - i)).map (lane w x))) s := by
  induction h : n / w - i generalizing i value s with
  | zero => rw [sortedLoop, if_neg (by omega)]; rfl
  | succ k ih =>
    rw [sortedLoop, if_pos (by omega), List.range'_succ, List.map_cons, changes]
    split
    · rw [ih _ _ _ (by omega)]; rfl
    · exact ih _ _ _ (by omega)

theorem changes_same {V K : Type} [LinearOrder K] (v : V → K) (ne : V → V → Bool) (l : List V) :
    ∀ a, (∀ x ∈ a :: l, ∀ y ∈ a :: l, ne x y = decide (v x ≠ v y)) →
    ∀ z, (z = v a ∨ z ∈ (changes ne a l).map v) ↔ (z = v a ∨ z ∈ l.map v) := by
  induction l with
  | nil => intro a _ z; rfl
  | cons b l ih =>
    intro a h z
    rw [changes, h b (by simp) a (by simp)]
    by_cases hb : v b = v a
    · simp only [hb, ne_eq, not_true_eq_false, decide_false, Bool.false_eq_true, if_false]
      rw [ih a (fun x hx y hy => h x (by simp at hx ⊢; tauto) y (by simp at hy ⊢; tauto)) z]
      simp only [List.map_cons, List.mem_cons, hb]
      tauto
    · simp only [ne_eq, hb, not_false_eq_true, decide_true, if_true]
      have := ih b (fun x hx y hy => h x (by simp at hx ⊢; tauto) y (by simp at hy ⊢; tauto)) z
      simp only [List.map_cons, List.mem_cons]
      rw [this]

theorem changes_sorted {V K : Type} [LinearOrder K] (v : V → K) (ne : V → V → Bool) (l : List V) :
    ∀ a, (∀ x ∈ a :: l, ∀ y ∈ a :: l, ne x y = decide (v x ≠ v y)) →
    ((((a :: changes ne a l).map v).Pairwise (· ≤ ·)) ↔ ((a :: l).map v).Pairwise (· ≤ ·)) := by
  induction l with
  | nil => intro a _; rfl
  | cons b l ih =>
    intro a h
    have hm := changes_same v ne l b
      (fun x hx y hy => h x (by simp at hx ⊢; tauto) y (by simp at hy ⊢; tauto))
    have ib := ih b (fun x hx y hy => h x (by simp at hx ⊢; tauto) y (by simp at hy ⊢; tauto))
    have ia := ih a (fun x hx y hy => h x (by simp at hx ⊢; tauto) y (by simp at hy ⊢; tauto))
    rw [changes, h b (by simp) a (by simp)]
    by_cases hb : v b = v a
    · simp only [hb, ne_eq, not_true_eq_false, decide_false, Bool.false_eq_true, if_false]
      rw [ia]
      simp only [List.map_cons, List.pairwise_cons, List.mem_cons, hb]
      constructor
      · rintro ⟨p, q⟩
        exact ⟨fun z hz => hz.elim (fun e => e ▸ le_refl _) (p z), p, q⟩
      · rintro ⟨p, q, r⟩
        exact ⟨q, r⟩
    · simp only [ne_eq, hb, not_false_eq_true, decide_true, if_true]
      rw [List.map_cons, List.pairwise_cons, ib, List.map_cons (l := b :: l), List.pairwise_cons]
      refine and_congr ?_ Iff.rfl
      constructor <;> intro p z hz <;> apply p
      · rw [List.map_cons, List.mem_cons] at hz ⊢; exact (hm z).2 hz
      · rw [List.map_cons, List.mem_cons] at hz ⊢; exact (hm z).1 hz

theorem changes_strict {V K : Type} [LinearOrder K] (v : V → K) (ne : V → V → Bool) (l : List V) :
    ∀ a, (∀ x ∈ a :: l, ∀ y ∈ a :: l, ne x y = decide (v x ≠ v y)) →
    ((a :: l).map v).Pairwise (· ≤ ·) → ((a :: changes ne a l).map v).Pairwise (· < ·) := by
  induction l with
  | nil => intro a _ _; simp [changes]
  | cons b l ih =>
    intro a h hs
    have hsub : ∀ c, c = a ∨ c = b → (∀ x ∈ c :: l, ∀ y ∈ c :: l, ne x y = decide (v x ≠ v y)) :=
      fun c hc x hx y hy => h x (by rcases hc with rfl | rfl <;> simp at hx ⊢ <;> tauto) y
        (by rcases hc with rfl | rfl <;> simp at hy ⊢ <;> tauto)
    rw [changes, h b (by simp) a (by simp)]
    simp only [List.map_cons, List.pairwise_cons, List.mem_cons] at hs
    obtain ⟨p, q, r⟩ := hs
    by_cases hb : v b = v a
    · simp only [hb, ne_eq, not_true_eq_false, decide_false, Bool.false_eq_true, if_false]
      exact ih a (hsub a (.inl rfl)) (List.pairwise_cons.2 ⟨fun z hz => hb ▸ q z hz, r⟩)
    · simp only [ne_eq, hb, not_false_eq_true, decide_true, if_true]
      have s := ih b (hsub b (.inr rfl)) (List.pairwise_cons.2 ⟨q, r⟩)
      rw [List.map_cons, List.pairwise_cons]
      refine ⟨fun z hz => ?_, s⟩
      have hab : v a < v b := lt_of_le_of_ne (p _ (.inl rfl)) (Ne.symm hb)
      rw [List.map_cons, List.mem_cons, changes_same v ne l b (hsub b (.inr rfl))] at hz
      rcases hz with rfl | hz
      · exact hab
      · exact lt_of_lt_of_le hab (q z hz)

end Vc.Lemma
