import Verif.Model.VcArray
import Verif.Spec.VcArray
import Verif.Prop.Span

/-!
# C94: Vc::array behaves like std::array
-/

namespace Vc.Prop
open Vc.Model Vc.Spec

/-- Storage of an array of `size` entries. -/
def ArrOk {α : Type} (size : Nat) (s : List α) : Prop := s.length = max size 1

/-- The entries. -/
def arrView {α : Type} (size : Nat) (s : List α) : List α := s.take size

private theorem arrView_length {α : Type} {size : Nat} {s : List α} (h : ArrOk size s) :
    (arrView size s).length = size := by
  unfold ArrOk at h; unfold arrView
  rw [List.length_take]; omega

private theorem arrElem_view {α : Type} {size : Nat} {s : List α} (h : ArrOk size s) {n : Nat} (hn : n < size) (x : α) :
    arrElem s n = .ok x ↔ EntryIs (arrView size s) n x := by
  have hl : n < s.length := by unfold ArrOk at h; omega
  unfold arrElem EntryIs arrView
  rw [List.getElem?_eq_getElem hl]
  simp only [List.getElem_take, List.length_take]
  constructor
  · intro e; injection e with e; exact ⟨by omega, e⟩
  · rintro ⟨_, e⟩; rw [e]

/-- Access: `a[n]`, `a.at(n)`, `std::get<n>(a)` are entry `n` if there is one; otherwise `at` throws, `get` does not
compile; `front` and `back` are the first and last entry. -/
theorem C94_access {α : Type} {size : Nat} {s : List α} (h : ArrOk size s) (n : Nat) :
    (n < size → ∃ x, EntryIs (arrView size s) n x ∧ arrGet s n = .ok x ∧ arrAt size s n = .ok x ∧
      arrGetT size s n = .ok x) ∧
    (size ≤ n → arrAt size s n = .outOfRange ∧ arrGetT size s n = .illFormed) ∧
    (0 < size → ∃ x y, EntryIs (arrView size s) 0 x ∧ arrFront s = .ok x ∧
      EntryIs (arrView size s) (size - 1) y ∧ arrBack size s = .ok y) := by
  have hv := arrView_length h
  have ex : ∀ n, n < size → ∃ x, EntryIs (arrView size s) n x ∧ arrElem s n = .ok x := by
    intro n hn
    have : EntryIs (arrView size s) n (arrView size s)[n] := ⟨by omega, rfl⟩
    exact ⟨_, this, (arrElem_view h hn _).mpr this⟩
  refine ⟨fun hn => ?_, fun hn => ?_, fun hs => ?_⟩
  · obtain ⟨x, h1, h2⟩ := ex n hn
    refine ⟨x, h1, h2, ?_, ?_⟩
    · unfold arrAt; rw [if_neg (by omega)]; exact h2
    · unfold arrGetT; rw [if_pos hn]; exact h2
  · unfold arrAt arrGetT
    exact ⟨if_pos hn, if_neg (by omega)⟩
  · obtain ⟨x, h1, h2⟩ := ex 0 hs
    obtain ⟨y, h3, h4⟩ := ex (size - 1) (by omega)
    refine ⟨x, y, h1, h2, h3, ?_⟩
    unfold arrBack; rw [if_pos hs]; exact h4

/-- What a statement does to the entries. -/
def StmtSpec {α : Type} (l : List α) : ArrStmt α → List α → Prop
  | .fill u, r => Filled l u r
  | .set n u, r => Replaced l n u r
  | .setAt n u, r => Replaced l n u r

private theorem arrSet_view {α : Type} {size : Nat} {s : List α} (h : ArrOk size s) {n : Nat} (hn : n < size) (u : α) :
    ArrOk size (s.set n u) ∧ Replaced (arrView size s) n u (arrView size (s.set n u)) := by
  have h1 : ArrOk size (s.set n u) := by unfold ArrOk at h ⊢; rw [List.length_set]; exact h
  refine ⟨h1, by rw [arrView_length h, arrView_length h1], ?_, ?_⟩
  · refine ⟨by rw [arrView_length h1]; exact hn, ?_⟩
    simp [arrView]
  · rintro i hi x ⟨hl, hx⟩
    refine ⟨by rw [arrView_length h1]; rw [arrView_length h] at hl; exact hl, ?_⟩
    rw [← hx]
    simp only [arrView, List.getElem_take]
    rw [List.getElem_set_ne (by omega)]

/-- A statement changes the entries it names and no other; `at` out of range throws and changes nothing (there is no
new state); writes with `[]` in range are always defined. -/
theorem C94_modify {α : Type} {size : Nat} {s : List α} (h : ArrOk size s) (st : ArrStmt α) :
    (∀ n u, st = .setAt n u → size ≤ n → arrStep size s st = .outOfRange) ∧
    ((∀ n u, st = .set n u ∨ st = .setAt n u → n < size) →
      ∃ r, arrStep size s st = .ok r ∧ ArrOk size r ∧ StmtSpec (arrView size s) st (arrView size r)) := by
  have hl : s.length = max size 1 := h
  refine ⟨?_, fun hr => ?_⟩
  · rintro n u rfl hn
    unfold arrStep; exact if_pos hn
  · cases st with
    | fill u =>
      have h1 : ArrOk size (List.replicate size u ++ s.drop size) := by
        unfold ArrOk; rw [List.length_append, List.length_replicate, List.length_drop]; omega
      refine ⟨_, rfl, h1, by rw [arrView_length h, arrView_length h1], ?_⟩
      rintro i x ⟨hi, hx⟩
      rw [arrView_length h1] at hi
      rw [← hx]
      simp only [arrView, List.getElem_take]
      rw [List.getElem_append_left (by rw [List.length_replicate]; exact hi), List.getElem_replicate]
    | set n u =>
      have hn := hr n u (.inl rfl)
      obtain ⟨h1, h2⟩ := arrSet_view h hn u
      exact ⟨_, if_pos (by omega), h1, h2⟩
    | setAt n u =>
      have hn := hr n u (.inr rfl)
      obtain ⟨h1, h2⟩ := arrSet_view h hn u
      refine ⟨s.set n u, ?_, h1, h2⟩
      simp only [arrStep]
      rw [if_neg (by omega), if_pos (by omega)]

/-- The entries after a sequence of statements. -/
def RunSpec {α : Type} : List α → List (ArrStmt α) → List α → Prop
  | l, [], r => r = l
  | l, st :: sts, r => ∃ m, StmtSpec l st m ∧ RunSpec m sts r

/-- Any sequence of statements in range. -/
theorem C94_program {α : Type} {size : Nat} {s : List α} (h : ArrOk size s) (sts : List (ArrStmt α))
    (hr : ∀ st ∈ sts, ∀ n u, st = .set n u ∨ st = .setAt n u → n < size) :
    ∃ r, arrRun size s sts = .ok r ∧ ArrOk size r ∧ RunSpec (arrView size s) sts (arrView size r) := by
  induction sts generalizing s with
  | nil => exact ⟨s, rfl, h, rfl⟩
  | cons st sts ih =>
    obtain ⟨m, e, hm, hs⟩ := (C94_modify h st).2 (hr st (List.mem_cons_self ..))
    obtain ⟨r, er, h1, h2⟩ := ih hm fun st' h' => hr st' (List.mem_cons_of_mem _ h')
    refine ⟨r, ?_, h1, _, hs, h2⟩
    unfold arrRun
    rw [e]; exact er

example : ArrOk 3 [1, 2, 3] ∧ arrRun 3 [1, 2, 3] [.fill 7, .setAt 1 5, .set 2 6] = .ok [7, 5, 6] ∧
    ArrOk 0 [9] ∧ arrView 0 [9] = [] ∧ arrRun 0 [9] [.fill 7] = .ok [9] ∧ arrStep 0 [9] (.setAt 0 1) = .outOfRange := by
  unfold ArrOk; decide

/-- Iteration visits the entries in order or in reverse order. -/
theorem C94_iterate {α : Type} {size : Nat} {s : List α} (h : ArrOk size s) :
    arrForward size s = some (arrView size s) ∧ arrBackward size s = some (arrView size s).reverse := by
  have hv : SpanValid s.length ⟨0, (size : Int), true⟩ := by
    unfold ArrOk at h
    exact ⟨by simp, by simp, by simp; omega⟩
  have e : spanView s ⟨0, (size : Int), true⟩ = arrView size s := by
    unfold spanView arrView; simp
  obtain ⟨h1, h2⟩ := C85_iterate (mem := s) hv
  rw [e] at h1 h2
  unfold Span.forward at h1
  unfold Span.backward at h2
  refine ⟨by simpa [arrForward] using h1, ?_⟩
  simpa [arrBackward] using h2

/-- Comparisons: entry by entry, and the lexicographic order. -/
theorem C94_compare {α : Type} (eq lt : α → α → Bool) (size : Nat) (x y : List α) :
    (arrEq eq size x y = true ↔ AllEqual eq (arrView size x) (arrView size y)) ∧
    (arrNe eq size x y = true ↔ ¬ AllEqual eq (arrView size x) (arrView size y)) ∧
    (arrLt lt size x y = true ↔ LexLess lt (arrView size x) (arrView size y)) ∧
    (arrGt lt size x y = true ↔ LexLess lt (arrView size y) (arrView size x)) ∧
    (arrLe lt size x y = true ↔ ¬ LexLess lt (arrView size y) (arrView size x)) ∧
    (arrGe lt size x y = true ↔ ¬ LexLess lt (arrView size x) (arrView size y)) := by
  have he : arrEq eq size x y = true ↔ AllEqual eq (arrView size x) (arrView size y) := stdEqual_iff ..
  have hl : ∀ a b : List α, arrLt lt size a b = true ↔ LexLess lt (arrView size a) (arrView size b) := fun a b =>
    (C85_compare (fun _ _ => true) lt (fun _ _ => rfl) _ _).2.2.1
  refine ⟨he, ?_, hl x y, hl y x, ?_, ?_⟩
  · unfold arrNe; rw [← he]; simp
  · unfold arrLe; rw [← hl y x]; simp
  · unfold arrGe; rw [← hl x y]; simp

example : arrLt (fun a b : Nat => decide (a < b)) 3 [1, 2, 3] [1, 3, 0] = true ∧
    arrEq (fun a b : Nat => a == b) 0 [1] [2] = true := by decide

/-- `std::swap` exchanges two arrays. -/
theorem C94_swap_partial {α : Type} (x y : List α) : arrStdSwap x y = .ok (y, x) := rfl

/-- The member function `swap` does not compile. -/
theorem C94_swap_violated {α : Type} (x y : List α) : arrSwap x y = .illFormed ∧ ∀ r, arrSwap x y ≠ .ok r :=
  ⟨rfl, fun _ h => by cases h⟩

end Vc.Prop
