import Verif.Lemma.SimdArray

/-!
Concrete environments and arrays for the examples next to the property theorems.
-/

namespace Vc.Prop
open Vc.Model Vc.Spec Vc.Lemma

/-- `float`/`int` with SSE: native widths 4 and 1, entries of 4 bytes, alignment cap 128. -/
def exCfg : Cfg := ⟨[4, 1], 4, 127⟩

theorem exCfg_valid : exCfg.Valid where
  widths := by
    intro w hw
    simp only [exCfg, List.mem_cons, List.not_mem_nil, or_false] at hw
    rcases hw with rfl | rfl
    · exact ⟨2, rfl⟩
    · exact ⟨0, rfl⟩
  last := rfl
  sz := ⟨2, rfl⟩
  amask := ⟨7, rfl⟩

/-- `short` with AVX2: native widths 16, 8 and 1, entries of 2 bytes, alignment cap 256. -/
def exCfg' : Cfg := ⟨[16, 8, 1], 2, 255⟩

theorem exCfg'_valid : exCfg'.Valid where
  widths := by
    intro w hw
    simp only [exCfg', List.mem_cons, List.not_mem_nil, or_false] at hw
    rcases hw with rfl | rfl | rfl
    · exact ⟨4, rfl⟩
    · exact ⟨3, rfl⟩
    · exact ⟨0, rfl⟩
  last := rfl
  sz := ⟨1, rfl⟩
  amask := ⟨8, rfl⟩

/-- Every list of `n ≥ 1` lanes is the contents of some `SimdArray<T, n>`. -/
theorem exists_of_lanes {α : Type _} {C : Cfg} (hC : C.Valid) (l : List α) (h : 1 ≤ l.length) :
    ∃ x, SA.WF C l.length x ∧ x.toList = l := by
  obtain ⟨x, _, w, t⟩ := load_wf hC l l.length h 0 (by omega)
  exact ⟨x, w, by simpa using t⟩

theorem ex7 : ∃ x : SA Nat, SA.WF exCfg 7 x ∧ x.toList = [10, 11, 12, 13, 14, 15, 16] :=
  exists_of_lanes exCfg_valid [10, 11, 12, 13, 14, 15, 16] (by decide)

theorem exMask7 : ∃ x : SA Bool, SA.WF exCfg 7 x ∧
    x.toList = [true, false, false, true, true, false, false] :=
  exists_of_lanes exCfg_valid [true, false, false, true, true, false, false] (by decide)

end Vc.Prop
