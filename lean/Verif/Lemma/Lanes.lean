import Verif.Spec.Lanes

namespace Vc.Lemma
open Vc.Spec

variable {α β : Type _}

@[simp] theorem tab_length (n : Nat) (f : Int → α) : (tab n f).length = n := by simp [tab]

@[simp] theorem tab_getElem (n : Nat) (f : Int → α) (i : Nat) (h : i < (tab n f).length) :
    (tab n f)[i] = f (i : Int) := by simp [tab]

theorem tab_congr {n : Nat} {f g : Int → α} (h : ∀ i : Int, 0 ≤ i → i < n → f i = g i) :
    tab n f = tab n g := by
  apply List.ext_getElem (by simp)
  intro i h1 h2
  simp only [tab_getElem]
  simp only [tab_length] at h1
  exact h i (by omega) (by omega)

theorem eq_tab {l : List α} {n : Nat} {f : Int → α} (hl : l.length = n)
    (h : ∀ i (hi : i < l.length), l[i] = f (i : Int)) : l = tab n f := by
  apply List.ext_getElem (by simp [hl])
  intro i h1 h2
  simp only [tab_getElem]
  exact h i h1

theorem tab_append (m n : Nat) (f : Int → α) :
    tab (m + n) f = tab m f ++ tab n (fun i => f (m + i)) := by
  symm
  apply eq_tab (by simp)
  intro i hi
  rw [List.getElem_append]
  split
  · simp
  · rename_i h
    simp only [tab_getElem, tab_length]
    simp only [tab_length] at h
    congr 1; omega

@[simp] theorem tab_map (n : Nat) (f : Int → α) (g : α → β) :
    (tab n f).map g = tab n (fun i => g (f i)) := by simp [tab]

theorem lane_eq_getElem (z : α) (l : List α) (i : Nat) (h : i < l.length) :
    lane z l i = l[i] := by
  unfold lane
  rw [if_pos (by omega)]
  simp [List.getD, h]

theorem lane_of_lt (z : α) (l : List α) (j : Int) (h : j < 0) : lane z l j = z := by
  unfold lane; rw [if_neg (by omega)]

theorem lane_of_ge (z : α) (l : List α) (j : Int) (h : (l.length : Int) ≤ j) : lane z l j = z := by
  unfold lane
  split
  · have : l.length ≤ j.toNat := by omega
    simp [List.getD, this]
  · rfl

theorem lane_append (z : α) (a b : List α) (j : Int) :
    lane z (a ++ b) j = if j < a.length then lane z a j else lane z b (j - a.length) := by
  unfold lane
  by_cases h0 : 0 ≤ j
  · by_cases h : j < a.length
    · have : j.toNat < a.length := by omega
      simp only [h0, h, if_true, List.getD, List.getElem?_append_left this]
    · have : a.length ≤ j.toNat := by omega
      have h2 : 0 ≤ j - a.length := by omega
      have e : (j - a.length).toNat = j.toNat - a.length := by omega
      simp only [h0, h, h2, if_true, if_false, List.getD, List.getElem?_append_right this, e]
  · have h : j < a.length := by omega
    simp [h0, h]

theorem lane_tab (z : α) (n : Nat) (f : Int → α) (j : Int) :
    lane z (tab n f) j = if 0 ≤ j ∧ j < n then f j else z := by
  by_cases h : 0 ≤ j ∧ j < n
  · rw [if_pos h]
    obtain ⟨h1, h2⟩ := h
    obtain ⟨i, rfl⟩ := Int.eq_ofNat_of_zero_le h1
    rw [lane_eq_getElem z _ i (by simp; omega)]
    simp
  · rw [if_neg h]
    by_cases h0 : 0 ≤ j
    · exact lane_of_ge z _ j (by simp; omega)
    · exact lane_of_lt z _ j (by omega)

theorem tab_lane (z : α) (l : List α) : tab l.length (lane z l) = l := by
  symm
  apply eq_tab rfl
  intro i hi
  rw [lane_eq_getElem]

theorem tab_lane' (z : α) (l : List α) (n : Nat) (h : l.length = n) : tab n (lane z l) = l := by
  subst h; exact tab_lane z l

theorem lane_replicate (z : α) (n : Nat) (j : Int) : lane z (List.replicate n z) j = z := by
  unfold lane
  split
  · simp only [List.getD, List.getElem?_replicate]
    split <;> rfl
  · rfl

theorem tab_const (n : Nat) (z : α) : tab n (fun _ => z) = List.replicate n z := by
  symm; apply eq_tab <;> simp

theorem lane_map (z : α) (f : α → β) (l : List α) (j : Int) :
    lane (f z) (l.map f) j = f (lane z l j) := by
  unfold lane
  split
  · simp only [List.getD, List.getElem?_map, Option.getD_map]
  · rfl

theorem resize_self (z : α) (l : List α) : resize z l.length l = l := tab_lane z l

theorem lane_resize (z : α) (n : Nat) (l : List α) (j : Int) :
    lane z (resize z n l) j = if j < n then lane z l j else z := by
  unfold resize
  rw [lane_tab]
  by_cases h : 0 ≤ j
  · simp [h]
  · have := lane_of_lt z l j (by omega)
    simp [h, this]

@[simp] theorem resize_length (z : α) (n : Nat) (l : List α) : (resize z n l).length = n := by
  simp [resize]

theorem shifted_length (z : α) (k : Int) (l : List α) : (shifted z k l).length = l.length := by
  simp [shifted]

theorem shiftedIn_length (z : α) (k : Int) (l y : List α) :
    (shiftedIn z k l y).length = l.length := by simp [shiftedIn]

theorem shifted_zero (z : α) (l : List α) : shifted z 0 l = l := by
  unfold shifted
  simp only [Int.add_zero]
  exact tab_lane z l

theorem lane_shifted (z : α) (k : Int) (l : List α) (j : Int) :
    lane z (shifted z k l) j = if 0 ≤ j ∧ j < l.length then lane z l (j + k) else z := by
  unfold shifted; rw [lane_tab]

theorem lane_shiftedIn (z : α) (k : Int) (l y : List α) (j : Int) :
    lane z (shiftedIn z k l y) j = if 0 ≤ j ∧ j < l.length then
      (if 0 ≤ j + k ∧ j + k < l.length then lane z l (j + k)
       else if 0 ≤ k then lane z y (j + k - l.length)
       else lane z y (j + k + l.length)) else z := by
  unfold shiftedIn; rw [lane_tab]

end Vc.Lemma
