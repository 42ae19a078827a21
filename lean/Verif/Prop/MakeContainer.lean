import Verif.Model.MakeContainer
import Verif.Spec.MakeContainer

/-!
C71: `makeContainer`.
-/

namespace Vc.Prop

open Vc.Model Vc.Spec

private theorem loop_spec {α : Type} {S : Nat} {l : List α} {d : List α} :
    ∀ (k : Nat) (done : List (List α)), (∀ v ∈ done, v.length = S) → done.length * S + k * S ≤ l.length →
      done.flatten = l.take (done.length * S) →
      ∃ done', mcLoop S l k done.length (done.length * S) (done ++ List.replicate (k + 1) d) =
          some (done'.length, done'.length * S, done' ++ [d]) ∧
        done'.length = done.length + k ∧ (∀ v ∈ done', v.length = S) ∧ done'.flatten = l.take (done'.length * S)
  | 0, done, h1, _, h3 => ⟨done, rfl, rfl, h1, h3⟩
  | k + 1, done, h1, h2, h3 => by
    have hs : done.length * S + S ≤ l.length := by rw [Nat.succ_mul] at h2; omega
    let r := (l.drop (done.length * S)).take S
    have hr : r.length = S := by simp only [r, List.length_take, List.length_drop]; omega
    have hv : (done ++ List.replicate (k + 1 + 1) d).set done.length r = (done ++ [r]) ++ List.replicate (k + 1) d := by
      rw [List.replicate_succ, List.set_append_right _ _ (Nat.le_refl _), Nat.sub_self, List.set_cons_zero,
        List.append_assoc]
      rfl
    have hl : (done ++ [r]).length = done.length + 1 := by simp
    have hm : (done ++ [r]).length * S = done.length * S + S := by rw [hl, Nat.succ_mul]
    obtain ⟨done', e1, e2, e3, e4⟩ := loop_spec (S := S) (l := l) (d := d) k (done ++ [r])
      (by
        intro v hv
        rcases List.mem_append.1 hv with h | h
        · exact h1 v h
        · rw [List.mem_singleton.1 h]; exact hr)
      (by rw [hm]; rw [Nat.succ_mul] at h2; omega)
      (by
        rw [List.flatten_append, h3, hm]
        show l.take _ ++ (r ++ []) = _
        rw [List.append_nil, List.take_add])
    refine ⟨done', ?_, by omega, e3, e4⟩
    rw [mcLoop, if_pos ⟨by simp, hs⟩]
    show mcLoop S l k (done.length + 1) (done.length * S + S) ((done ++ List.replicate (k + 1 + 1) d).set done.length r) = _
    rw [hv, ← hl, ← hm]
    exact e1

private theorem tail_spec {α : Type} {S : Nat} (done : List (List α)) :
    ∀ (rest pre suf : List α), pre.length + rest.length ≤ S → rest.length ≤ suf.length →
      mcTail S rest done.length pre.length (done ++ [pre ++ suf]) =
        some (done ++ [pre ++ rest ++ suf.drop rest.length])
  | [], pre, suf, _, _ => by simp [mcTail]
  | x :: xs, pre, [], _, h => by simp at h
  | x :: xs, pre, y :: suf, h1, h2 => by
    simp only [List.length_cons] at h1 h2
    rw [mcTail, dif_pos ⟨by simp, by omega⟩]
    have e : (done ++ [pre ++ y :: suf]).set done.length
        (((done ++ [pre ++ y :: suf])[done.length]'(by simp)).set pre.length x) = done ++ [(pre ++ [x]) ++ suf] := by
      rw [List.getElem_append_right (Nat.le_refl _), List.set_append_right _ _ (Nat.le_refl _)]
      simp [List.set_append_right]
    rw [e]
    have := tail_spec (S := S) done xs (pre ++ [x]) suf (by rw [List.length_append, List.length_singleton]; omega)
      (by omega)
    rw [List.length_append, List.length_singleton] at this
    rw [this]
    simp

private theorem fill_spec {α : Type} {S : Nat} (hS : 0 < S) {l : List α} (hl : l ≠ []) (hn : l.length + S ≤ 2 ^ 64)
    {d : List α} (hd : d.length = S) {zero : α} (hz : d = List.replicate S zero) :
    ∃ c, mcFill S (mcSize S l.length) l (List.replicate (mcSize S l.length) d) = some c ∧ Contains S zero l c := by
  have hpos : 0 < l.length := List.length_pos_iff.2 hl
  have hsz : mcSize S l.length = (l.length - 1) / S + 1 := by
    unfold mcSize wrap64
    rw [Nat.mod_eq_of_lt (by omega), show l.length + (S - 1) = l.length - 1 + S by omega, Nat.add_div_right _ hS]
  have hlt : (l.length - 1) / S < 2 ^ 64 := Nat.lt_of_le_of_lt (Nat.div_le_self _ _) (by omega)
  generalize hq : (l.length - 1) / S = q at *
  have hq1 : q * S ≤ l.length - 1 := hq ▸ Nat.div_mul_le_self _ _
  have hq2 : l.length - 1 < q * S + S := by
    have := Nat.lt_div_mul_add (a := l.length - 1) hS
    rw [hq] at this; exact this
  have hw : wrap64 (q + 1 + (2 ^ 64 - 1)) = q := by unfold wrap64; omega
  obtain ⟨done, e1, e2, e3, e4⟩ := loop_spec (S := S) (l := l) (d := d) q [] (by simp) (by simp; omega) (by simp)
  simp only [List.length_nil, Nat.zero_mul, List.nil_append, Nat.zero_add] at e1 e2
  have ht := tail_spec (S := S) done (l.drop (done.length * S)) [] d
    (by simp [e2]; omega) (by simp [e2]; omega)
  simp only [List.nil_append, List.length_nil] at ht
  refine ⟨done ++ [l.drop (done.length * S) ++ d.drop (l.drop (done.length * S)).length], ?_, ?_⟩
  · unfold mcFill
    rw [hsz, hw, e1]
    exact ht
  · have hlen : (l.drop (done.length * S)).length = l.length - q * S := by rw [List.length_drop, e2]
    refine ⟨?_, ?_, ?_⟩
    · intro v hv
      rcases List.mem_append.1 hv with h | h
      · exact e3 v h
      · rw [List.mem_singleton.1 h, List.length_append, hlen, List.length_drop, hd]
        omega
    · intro k hk
      rw [List.length_append, List.length_singleton, e2]
      rcases Nat.lt_or_ge q k with h | h
      · exact h
      · exact absurd (Nat.mul_le_mul_right S h) (by omega)
    · refine ⟨S - (l.length - q * S), ?_⟩
      rw [List.flatten_append, e4, hlen]
      rw [List.flatten_singleton, ← List.append_assoc, List.take_append_drop]
      refine congrArg (l ++ ·) ?_
      rw [hz, List.drop_replicate]

/-- C71 (partial): for a list with at least one number, containers such as std::vector get the smallest number of
vectors that holds the list, with the numbers of the list in order and zeros behind them.
Missing: the empty list, see `C71_empty_violated`. -/
theorem C71_vector_partial {α : Type} (S : Nat) (hS : 0 < S) (zero : α) (l : List α) (hl : l ≠ [])
    (hn : l.length + S ≤ 2 ^ 64) : ∃ c, makeVector S zero l = some c ∧ Contains S zero l c :=
  fill_spec hS hl hn List.length_replicate rfl

/-- C71 (partial): the same for containers such as std::array if their size is the length of the list (and not
zero). -/
theorem C71_array_partial {α : Type} (S N : Nat) (hS : 0 < S) (zero : α) (l : List α) (hN : N = l.length)
    (hl : l ≠ []) (hn : l.length + S ≤ 2 ^ 64) : ∃ c, makeArray S N zero l = some c ∧ Contains S zero l c := by
  subst hN; exact fill_spec hS hl hn List.length_replicate rfl

/-- The result for five numbers and vectors of four entries, as in the documentation. -/
example : makeVector 4 (0 : Int) [1, 2, 3, 4, 5] = some [[1, 2, 3, 4], [5, 0, 0, 0]] := by rfl
example : makeArray 4 8 (0 : Int) [1, 2, 3, 4, 5, 6, 7, 8] = some [[1, 2, 3, 4], [5, 6, 7, 8]] := by rfl
example : makeArray 1 2 (0 : Int) [1, 2] = some [[1], [2]] := by rfl

/-- C71 violated: an empty list is no exception in the documentation ("of arbitrary size"), but `size - 1` wraps
around and the loop reads behind the list and writes behind the container, for every vector type. -/
theorem C71_empty_violated {α : Type} (S : Nat) (hS : 0 < S) (zero : α) :
    makeVector S zero [] = none ∧ makeArray S 0 zero ([] : List α) = none := by
  have hsz : mcSize S 0 = 0 := by
    unfold mcSize wrap64
    rcases Nat.lt_or_ge (0 + (S - 1)) (2 ^ 64) with h | h
    · rw [Nat.mod_eq_of_lt h]; exact Nat.div_eq_of_lt (by omega)
    · exact Nat.div_eq_of_lt (Nat.lt_of_lt_of_le (Nat.mod_lt _ (by omega)) (by omega))
  have hw : wrap64 (0 + (2 ^ 64 - 1)) = (2 ^ 64 - 2) + 1 := by unfold wrap64; omega
  constructor
  · show mcFill S (mcSize S 0) [] (List.replicate (mcSize S 0) _) = none
    rw [hsz]; unfold mcFill; rw [hw]; rw [mcLoop, if_neg (by simp)]; rfl
  · show mcFill S (mcSize S 0) [] (List.replicate (mcSize S 0) _) = none
    rw [hsz]; unfold mcFill; rw [hw]; rw [mcLoop, if_neg (by simp)]; rfl

end Vc.Prop
