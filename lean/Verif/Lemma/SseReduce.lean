import Verif.Model.SseReduce
import Verif.Lemma.SseMask
import Verif.Lemma.SseShuffle
import Verif.Lemma.SseInt2
import Verif.Spec.Reduce

namespace Vc.Lemma

open Vc.Model Vc.Spec

/-- `op` works lane by lane as `g`. -/
def LaneOp (w : Nat) (op : M128 → M128 → M128) (g : BitVec w → BitVec w → BitVec w) : Prop :=
  ∀ a b i, w * (i + 1) ≤ 128 → lane w (op a b) i = g (lane w a i) (lane w b i)

theorem hReduce32_eq {op : M128 → M128 → M128} {g : BitVec 32 → BitVec 32 → BitVec 32}
    (h : LaneOp 32 op g) (a : M128) :
    hReduce32 op a = g (g (lane 32 a 0) (lane 32 a 2)) (g (lane 32 a 1) (lane 32 a 3)) := by
  unfold hReduce32
  simp only
  rw [h _ _ 0 (by decide), lane_shufflelo_swap, h _ _ 0 (by decide), h _ _ 1 (by decide),
    lane_shuffleEpi32 _ _ (by decide), lane_shuffleEpi32 _ _ (by decide)]
  rfl

theorem hReduce16_eq {op : M128 → M128 → M128} {g : BitVec 16 → BitVec 16 → BitVec 16}
    (h : LaneOp 16 op g) (a : M128) :
    hReduce16 op a =
      g (g (g (lane 16 a 0) (lane 16 a 4)) (g (lane 16 a 2) (lane 16 a 6)))
        (g (g (lane 16 a 1) (lane 16 a 5)) (g (lane 16 a 3) (lane 16 a 7))) := by
  unfold hReduce16
  simp only
  have s1 : ∀ (x : M128), lane 16 (shuffleloEpi16 x (mmShuffle 1 1 1 1)) 0 = lane 16 x 1 :=
    fun x => lane_shufflelo x _ (by decide)
  have s2 : ∀ (x : M128), lane 16 (shuffleloEpi16 x (mmShuffle 1 0 3 2)) 0 = lane 16 x 2 :=
    fun x => lane_shufflelo x _ (by decide)
  have s3 : ∀ (x : M128), lane 16 (shuffleloEpi16 x (mmShuffle 1 0 3 2)) 1 = lane 16 x 3 :=
    fun x => lane_shufflelo x _ (by decide)
  have s4 : ∀ (x : M128) (i : Nat), i < 4 →
      lane 16 (shuffleEpi32 x (mmShuffle 1 0 3 2)) i = lane 16 x (4 + i) := by
    intro x i hi
    rw [lane_shuffleEpi32_half _ _ (by omega)]
    match i, hi with | 0, _ => rfl | 1, _ => rfl | 2, _ => rfl | 3, _ => rfl
  rw [h _ _ 0 (by decide), s1, h _ _ 0 (by decide), h _ _ 1 (by decide), s2, s3,
    h _ _ 0 (by decide), h _ _ 1 (by decide), h _ _ 2 (by decide), h _ _ 3 (by decide),
    s4 _ _ (by decide), s4 _ _ (by decide), s4 _ _ (by decide), s4 _ _ (by decide)]

/-- The numbers `f 0, ..., f (n-1)` combined in the order of `hReduce`. -/
def tree4 (g : α → α → α) (x : Nat → α) : α := g (g (x 0) (x 2)) (g (x 1) (x 3))
def tree8 (g : α → α → α) (x : Nat → α) : α :=
  g (g (g (x 0) (x 4)) (g (x 2) (x 6))) (g (g (x 1) (x 5)) (g (x 3) (x 7)))

theorem tree4_map {g : α → α → α} {g' : β → β → β} {f : α → β} (h : ∀ a b, f (g a b) = g' (f a) (f b))
    (x : Nat → α) : f (tree4 g x) = tree4 g' (fun i => f (x i)) := by
  simp only [tree4, h]

theorem tree8_map {g : α → α → α} {g' : β → β → β} {f : α → β} (h : ∀ a b, f (g a b) = g' (f a) (f b))
    (x : Nat → α) : f (tree8 g x) = tree8 g' (fun i => f (x i)) := by
  simp only [tree8, h]

theorem hReduce_32 {op : M128 → M128 → M128} {g : BitVec 32 → BitVec 32 → BitVec 32}
    (h : LaneOp 32 op g) (a : M128) : hReduce 32 op a = tree4 g (lane 32 a) := by
  unfold hReduce
  rw [if_pos rfl, BitVec.setWidth_eq, hReduce32_eq h]; rfl

theorem hReduce_16 {op : M128 → M128 → M128} {g : BitVec 16 → BitVec 16 → BitVec 16}
    (h : LaneOp 16 op g) (a : M128) : hReduce 16 op a = tree8 g (lane 16 a) := by
  unfold hReduce
  rw [if_neg (by decide), BitVec.setWidth_eq, hReduce16_eq h]; rfl

theorem tree_min (n : Nat) (t : (Nat → Int) → Int) (x : Nat → Int)
    (h : (n = 4 ∧ t = tree4 min) ∨ (n = 8 ∧ t = tree8 min)) :
    (∃ i, i < n ∧ t x = x i) ∧ ∀ i, i < n → t x ≤ x i := by
  have key : ∀ a b c : Int, min a b = c → (c = a ∨ c = b) ∧ c ≤ a ∧ c ≤ b := by
    intro a b c; omega
  rcases h with ⟨rfl, rfl⟩ | ⟨rfl, rfl⟩
  · unfold tree4
    have h1 := key (x 0) (x 2) _ rfl
    have h2 := key (x 1) (x 3) _ rfl
    have h3 := key (min (x 0) (x 2)) (min (x 1) (x 3)) _ rfl
    refine ⟨?_, fun i hi => ?_⟩
    · have : (∃ i, i = 0 ∨ i = 1 ∨ i = 2 ∨ i = 3) := ⟨0, .inl rfl⟩
      rcases h3.1 with e | e
      · rcases h1.1 with e' | e'
        · exact ⟨0, by decide, by omega⟩
        · exact ⟨2, by decide, by omega⟩
      · rcases h2.1 with e' | e'
        · exact ⟨1, by decide, by omega⟩
        · exact ⟨3, by decide, by omega⟩
    · match i, hi with
      | 0, _ => omega
      | 1, _ => omega
      | 2, _ => omega
      | 3, _ => omega
  · unfold tree8
    have a1 := key (x 0) (x 4) _ rfl
    have a2 := key (x 2) (x 6) _ rfl
    have a3 := key (x 1) (x 5) _ rfl
    have a4 := key (x 3) (x 7) _ rfl
    generalize min (x 0) (x 4) = p at *
    generalize min (x 2) (x 6) = q at *
    generalize min (x 1) (x 5) = r at *
    generalize min (x 3) (x 7) = s at *
    have b1 := key p q _ rfl
    have b2 := key r s _ rfl
    generalize min p q = u at *
    generalize min r s = v at *
    have c := key u v _ rfl
    generalize min u v = z at *
    refine ⟨?_, fun i hi => ?_⟩
    · rcases (show z = x 0 ∨ z = x 1 ∨ z = x 2 ∨ z = x 3 ∨ z = x 4 ∨ z = x 5 ∨ z = x 6 ∨ z = x 7 by
        omega) with e | e | e | e | e | e | e | e
      · exact ⟨0, by decide, e⟩
      · exact ⟨1, by decide, e⟩
      · exact ⟨2, by decide, e⟩
      · exact ⟨3, by decide, e⟩
      · exact ⟨4, by decide, e⟩
      · exact ⟨5, by decide, e⟩
      · exact ⟨6, by decide, e⟩
      · exact ⟨7, by decide, e⟩
    · match i, hi with
      | 0, _ => omega
      | 1, _ => omega
      | 2, _ => omega
      | 3, _ => omega
      | 4, _ => omega
      | 5, _ => omega
      | 6, _ => omega
      | 7, _ => omega

theorem max_eq_neg_min (a b : Int) : max a b = -min (-a) (-b) := by omega

theorem tree_max (n : Nat) (t : (Nat → Int) → Int) (x : Nat → Int)
    (h : (n = 4 ∧ t = tree4 max) ∨ (n = 8 ∧ t = tree8 max)) :
    (∃ i, i < n ∧ t x = x i) ∧ ∀ i, i < n → x i ≤ t x := by
  rcases h with ⟨rfl, rfl⟩ | ⟨rfl, rfl⟩
  · have e : tree4 max x = -tree4 min (fun i => -x i) := by
      unfold tree4; simp only [max_eq_neg_min, Int.neg_neg]
    obtain ⟨⟨i, hi, h1⟩, h2⟩ := tree_min 4 _ (fun i => -x i) (.inl ⟨rfl, rfl⟩)
    exact ⟨⟨i, hi, by omega⟩, fun i hi => by have := h2 i hi; omega⟩
  · have e : tree8 max x = -tree8 min (fun i => -x i) := by
      unfold tree8; simp only [max_eq_neg_min, Int.neg_neg]
    obtain ⟨⟨i, hi, h1⟩, h2⟩ := tree_min 8 _ (fun i => -x i) (.inr ⟨rfl, rfl⟩)
    exact ⟨⟨i, hi, by omega⟩, fun i hi => by have := h2 i hi; omega⟩

/-- Restricting a minimum to the lanes that are active. -/
theorem masked_min {n : Nat} {b : Nat → Bool} {x t : Nat → Int} {top r : Int}
    (ht : ∀ i, i < n → t i = if b i then x i else top)
    (hr : (∃ i, i < n ∧ r = t i) ∧ ∀ i, i < n → r ≤ t i)
    (hb : (∀ i, i < n → b i = true) ∨ ∃ i, i < n ∧ b i = true ∧ x i ≤ top) (hn : 0 < n) :
    (∃ i, i < n ∧ b i = true ∧ r = x i) ∧ ∀ i, i < n → b i = true → r ≤ x i := by
  have hle : ∀ i, i < n → b i = true → r ≤ x i := fun i hi hbi => by
    have := hr.2 i hi; rw [ht i hi, if_pos hbi] at this; exact this
  refine ⟨?_, hle⟩
  obtain ⟨⟨i, hi, e⟩, h2⟩ := hr
  have _ := hn
  by_cases hbi : b i = true
  · exact ⟨i, hi, hbi, by rw [e, ht i hi, if_pos hbi]⟩
  · rcases hb with h | ⟨j, hj, hbj, hj2⟩
    · exact absurd (h i hi) hbi
    · refine ⟨j, hj, hbj, ?_⟩
      rw [ht i hi, if_neg hbi] at e
      have := hle j hj hbj
      omega

theorem masked_max {n : Nat} {b : Nat → Bool} {x t : Nat → Int} {bot r : Int}
    (ht : ∀ i, i < n → t i = if b i then x i else bot)
    (hr : (∃ i, i < n ∧ r = t i) ∧ ∀ i, i < n → t i ≤ r)
    (hb : (∀ i, i < n → b i = true) ∨ ∃ i, i < n ∧ b i = true ∧ bot ≤ x i) (hn : 0 < n) :
    (∃ i, i < n ∧ b i = true ∧ r = x i) ∧ ∀ i, i < n → b i = true → x i ≤ r := by
  obtain ⟨⟨i, hi, hbi, e⟩, h2⟩ := masked_min (n := n) (b := b) (x := fun i => -x i) (t := fun i => -t i)
    (top := -bot) (r := -r) (fun i hi => by
      have := ht i hi
      by_cases h : b i = true
      · rw [if_pos h] at this ⊢; rw [this]
      · rw [if_neg h] at this ⊢; rw [this])
    ⟨by obtain ⟨i, hi, e⟩ := hr.1; exact ⟨i, hi, by rw [e]⟩, fun i hi => by have := hr.2 i hi; omega⟩
    (by rcases hb with h | ⟨j, hj, hbj, h⟩
        · exact .inl h
        · exact .inr ⟨j, hj, hbj, by omega⟩) hn
  exact ⟨⟨i, hi, hbi, by omega⟩, fun j hj hbj => by have := h2 j hj hbj; omega⟩

theorem active_cons (a : α) (b : Bool) (l : List α) (m : List Bool) :
    active (a :: l) (b :: m) = if b then a :: active l m else active l m := by
  cases b <;> simp [active]

theorem active_foldr {op : β → β → β} {e : β} (he : ∀ a, op e a = a) (l : List β) (m : List Bool)
    (h : l.length = m.length) :
    (active l m).foldr op e = ((l.zip m).map fun p => if p.2 then p.1 else e).foldr op e := by
  induction l generalizing m with
  | nil => cases m <;> simp [active] at *
  | cons a l ih =>
    cases m with
    | nil => simp at h
    | cons b m =>
      rw [active_cons]
      have := ih m (by simpa using h)
      cases b
      · simp only [Bool.false_eq_true, if_false, List.zip_cons_cons, List.map_cons, List.foldr_cons]
        rw [he, this]
      · simp only [if_true, List.zip_cons_cons, List.map_cons, List.foldr_cons]
        rw [this]

theorem ofInt_val_red {w : Nat} (sgn : Bool) (a : BitVec w) : BitVec.ofInt w (val sgn a) = a := by
  unfold val
  cases sgn
  · simp
  · simp

theorem lane_vAssign (I : Isa) {w v c i : Nat} (hw : w = v * c) (hv : 0 < v)
    (h : w * (i + 1) ≤ 128) (x y m : M128) {b : Nat → Bool} (hm : IsMask w m b) :
    lane w (vAssign I v x y m) i = if b i then lane w y i else lane w x i :=
  lane_blendv I hw hv h x y m (hm.lane_eq h)

end Vc.Lemma
