import Verif.Prop.ExCfg
import Verif.Lemma.Gather

/-!
# C24: SimdArray gather and scatter

`C` is the environment of the value type, `C'` that of the index type. `p` is the address of
`mem[0]` within the accessible memory, so lane `i` of a gather reads the entry at `p + index[i]`.
The index argument is either a `SimdArray<IT, n>` with the same number of lanes or a pointer to
at least `n` integers.
-/

namespace Vc.Prop
open Vc.Model Vc.Spec Vc.Lemma

variable {α : Type} {C C' : Cfg}

/-- The index value of lane `i`. -/
def IdxIs (C' : Cfg) (n : Nat) (idx : Idx) (ix : Nat → Int) : Prop :=
  (∃ x, idx = .tree x ∧ SA.WF C' n x ∧ ∀ i, i < n → x.toList[i]? = some (ix i)) ∨
  (∃ l, idx = .ptr l 0 ∧ ∀ i, i < n → l[i]? = some (ix i))

theorem idxIs_valid (hC' : C'.Valid) {n : Nat} (hn : 1 ≤ n) {idx : Idx} {ix : Nat → Int}
    (h : IdxIs C' n idx ix) :
    IdxValid C' n idx ∧ ∀ i, i < n → idx.at? C' i = some (ix i) := by
  rcases h with ⟨x, rfl, w, t⟩ | ⟨l, rfl, t⟩
  · exact ⟨w, fun i hi => by simp only [Idx.at?]; rw [get_eq hC' hn w]; exact t i hi⟩
  · refine ⟨?_, fun i hi => by simp only [Idx.at?, Nat.zero_add]; exact t i hi⟩
    have := t (n - 1) (by omega)
    have := (List.getElem?_eq_some_iff.mp this).1
    show 0 + n ≤ l.length
    omega

/-- Lane `i` of a gather is `mem[index[i]]`. -/
theorem C24_gather_partial (hC : C.Valid) (hC' : C'.Valid) (n : Nat) (hn : 1 ≤ n) (mem : List α) (p : Int)
    (idx : Idx) (ix : Nat → Int) (hi : IdxIs C' n idx ix)
    (hr : ∀ i, i < n → 0 ≤ p + ix i ∧ p + ix i < mem.length) :
    ∃ x, SA.gather C C' mem p n idx = some x ∧ SA.WF C n x ∧
      ∀ i : Nat, i < n → x.get C (i : Int) = entry mem (p + ix i) := by
  obtain ⟨v, t⟩ := idxIs_valid hC' hn hi
  have hg : ∀ i, i < n → SA.gatherAt C' mem p idx i = entry mem (p + ix i) := fun i hi => by
    simp only [SA.gatherAt, t i hi]; rfl
  have hne : ∀ i, i < n → ∃ v, entry mem (p + ix i) = some v := fun i hi => by
    have := hr i hi
    refine ⟨mem[(p + ix i).toNat]'(by omega), ?_⟩
    unfold entry
    rw [if_pos this.1, List.getElem?_eq_getElem]
  obtain ⟨d, hd⟩ := hne 0 (by omega)
  obtain ⟨x, e, w, tl⟩ := gen_wf hC n hn (SA.gatherAt C' mem p idx)
    (fun i => (entry mem (p + ix i)).getD d) (fun i hi => by
      rw [hg i hi]; obtain ⟨v, hv⟩ := hne i hi; rw [hv]; rfl)
  refine ⟨x, by rw [gather_eq_gen hC hC' mem p n hn idx v]; exact e, w, fun i hi => ?_⟩
  rw [get_eq hC hn w, tl]
  obtain ⟨v, hv⟩ := hne i hi
  simp [List.getElem?_map, List.getElem?_range hi, hv]

/-- A gather with one index outside of the memory is undefined: every lane is read. -/
theorem C24_gather_reads (hC : C.Valid) (hC' : C'.Valid) (n : Nat) (hn : 1 ≤ n) (mem : List α)
    (p : Int) (idx : Idx) (ix : Nat → Int) (hi : IdxIs C' n idx ix)
    (hr : ∃ i, i < n ∧ ¬ (0 ≤ p + ix i ∧ p + ix i < mem.length)) :
    SA.gather C C' mem p n idx = none := by
  obtain ⟨v, t⟩ := idxIs_valid hC' hn hi
  rw [gather_eq_gen hC hC' mem p n hn idx v]
  obtain ⟨i, hi, h⟩ := hr
  refine gen_none hC n hn _ ⟨i, hi, ?_⟩
  simp only [SA.gatherAt, t i hi]
  show entry mem (p + ix i) = none
  unfold entry
  by_cases h0 : 0 ≤ p + ix i
  · rw [if_pos h0, List.getElem?_eq_none (by omega)]
  · rw [if_neg h0]

/-- Masked gather: active lanes are `mem[index[i]]`, the others keep their value; only the
indexes of active lanes have to be valid. -/
theorem C24_gather_masked_partial (hC : C.Valid) (hC' : C'.Valid) (n : Nat) (hn : 1 ≤ n) (mem : List α)
    (p : Int) (idx : Idx) (ix : Nat → Int) (hi : IdxIs C' n idx ix) (x : SA α) (m : SA Bool)
    (hx : SA.WF C n x) (hm : SA.WF C n m)
    (hr : ∀ i : Nat, i < n → m.get C (i : Int) = some true → 0 ≤ p + ix i ∧ p + ix i < mem.length) :
    ∃ r, SA.gatherMasked C' mem p n idx x m = some r ∧ SA.WF C n r ∧
      ∀ i : Nat, i < n →
        (m.get C (i : Int) = some true → r.get C (i : Int) = entry mem (p + ix i)) ∧
        (m.get C (i : Int) = some false → r.get C (i : Int) = x.get C (i : Int)) := by
  obtain ⟨v, t⟩ := idxIs_valid hC' hn hi
  have hg : ∀ i, i < n → SA.gatherAt C' mem p idx i = entry mem (p + ix i) := fun i hi => by
    simp only [SA.gatherAt, t i hi]; rfl
  obtain ⟨r, e, w, h⟩ := gatherMasked_some hC hC' mem p n hn idx x m v hx hm (fun i hi ha => by
    rw [hg i hi]
    have := hr i hi (by rw [get_eq hC hn hm]; exact ha)
    unfold entry
    rw [if_pos this.1, List.getElem?_eq_getElem (by omega)]; rfl)
  refine ⟨r, e, w, fun i hi => ?_⟩
  rw [get_eq hC hn w, get_eq hC hn hm, get_eq hC hn hx, ← hg i hi]
  exact ⟨(h i hi).1, fun hf => (h i hi).2 (by rw [hf]; decide)⟩

/-- A masked gather is undefined if the index of an active lane is outside of the memory. -/
theorem C24_gather_masked_reads (hC : C.Valid) (hC' : C'.Valid) (n : Nat) (hn : 1 ≤ n)
    (mem : List α) (p : Int) (idx : Idx) (ix : Nat → Int) (hi : IdxIs C' n idx ix) (x : SA α)
    (m : SA Bool) (hx : SA.WF C n x) (hm : SA.WF C n m)
    (hr : ∃ i : Nat, i < n ∧ m.get C (i : Int) = some true ∧
      ¬ (0 ≤ p + ix i ∧ p + ix i < mem.length)) :
    SA.gatherMasked C' mem p n idx x m = none := by
  obtain ⟨v, t⟩ := idxIs_valid hC' hn hi
  obtain ⟨i, hi, ha, h⟩ := hr
  refine gatherMasked_none hC hC' mem p n hn idx x m v hx hm ⟨i, hi, ?_, ?_⟩
  · rw [get_eq hC hn hm] at ha; exact ha
  · simp only [SA.gatherAt, t i hi]
    show entry mem (p + ix i) = none
    unfold entry
    by_cases h0 : 0 ≤ p + ix i
    · rw [if_pos h0, List.getElem?_eq_none (by omega)]
    · rw [if_neg h0]

/-- Masked scatter: the active lanes are stored to `mem[index[i]]` in lane order (so the highest
active lane wins for equal indexes), nothing else is written; only the indexes of active lanes
have to be valid. -/
theorem C24_scatter_masked_partial (hC : C.Valid) (hC' : C'.Valid) (n : Nat) (hn : 1 ≤ n) (mem : List α)
    (p : Int) (idx : Idx) (ix : Nat → Int) (hi : IdxIs C' n idx ix) (x : SA α) (m : SA Bool)
    (hx : SA.WF C n x) (hm : SA.WF C n m) (val : Nat → α)
    (hval : ∀ i : Nat, i < n → x.get C (i : Int) = some (val i))
    (hr : ∀ i : Nat, i < n → m.get C (i : Int) = some true → 0 ≤ p + ix i ∧ p + ix i < mem.length) :
    ∃ mem', SA.scatterMasked C' p n idx x m mem = some mem' ∧
      IsStoredInOrder n (fun i => m.get C (i : Int) = some true) (fun i => p + ix i) val mem mem' := by
  obtain ⟨v, t⟩ := idxIs_valid hC' hn hi
  have lx := WF.length hC hn hx
  have lm := WF.length hC hn hm
  have hg : (fun i : Nat => m.get C (i : Int) = some true) = fun i => m.toList[i]? = some true := by
    funext i; rw [get_eq hC hn hm]
  obtain ⟨mem', e, sp⟩ := scatF_spec (idx.at? C') p (fun i => p + ix i) val 0 x.toList m.toList mem
    (by omega)
    (fun i hi => by simp only [Nat.zero_add]; rw [t i (by omega)]; congr 1; omega)
    (fun i hi => by rw [Nat.zero_add, ← get_eq hC hn hx]; exact hval i (by omega))
    (fun i hi ha => by
      simp only [Nat.zero_add]
      exact hr i (by omega) (by rw [get_eq hC hn hm]; exact ha))
  refine ⟨mem', by rw [scatterMasked_eq hC hC' p n hn idx x m mem v hx hm]; exact e, ?_⟩
  rw [hg]
  simpa only [Nat.zero_add, lx] using sp

/-- A masked scatter is undefined if the index of an active lane is outside of the memory. -/
theorem C24_scatter_masked_writes (hC : C.Valid) (hC' : C'.Valid) (n : Nat) (hn : 1 ≤ n)
    (mem : List α) (p : Int) (idx : Idx) (ix : Nat → Int) (hi : IdxIs C' n idx ix) (x : SA α)
    (m : SA Bool) (hx : SA.WF C n x) (hm : SA.WF C n m)
    (hr : ∃ i : Nat, i < n ∧ m.get C (i : Int) = some true ∧
      ¬ (0 ≤ p + ix i ∧ p + ix i < mem.length)) :
    SA.scatterMasked C' p n idx x m mem = none := by
  obtain ⟨v, t⟩ := idxIs_valid hC' hn hi
  obtain ⟨i, hi, ha, h⟩ := hr
  have lx := WF.length hC hn hx
  have lm := WF.length hC hn hm
  rw [scatterMasked_eq hC hC' p n hn idx x m mem v hx hm]
  refine scatF_none _ p 0 x.toList m.toList mem (by omega) ⟨i, by omega, ?_, fun j hj => ?_⟩
  · rw [get_eq hC hn hm] at ha; exact ha
  · rw [Nat.zero_add, t i hi] at hj
    cases hj; exact h

/-- Scatter: lane `i` is stored to `mem[index[i]]`, in lane order, and nothing else is written. -/
theorem C24_scatter_partial (hC : C.Valid) (hC' : C'.Valid) (n : Nat) (hn : 1 ≤ n) (mem : List α)
    (p : Int) (idx : Idx) (ix : Nat → Int) (hi : IdxIs C' n idx ix) (x : SA α)
    (hx : SA.WF C n x) (val : Nat → α)
    (hval : ∀ i : Nat, i < n → x.get C (i : Int) = some (val i))
    (hr : ∀ i : Nat, i < n → 0 ≤ p + ix i ∧ p + ix i < mem.length) :
    ∃ mem', SA.scatter C' p n idx x mem = some mem' ∧
      IsStoredInOrder n (fun _ => True) (fun i => p + ix i) val mem mem' := by
  obtain ⟨m, hm, tm⟩ := exists_of_lanes hC (List.replicate n true) (by simpa using hn)
  simp only [List.length_replicate] at hm
  obtain ⟨mem', e, sp⟩ := C24_scatter_masked_partial hC hC' n hn mem p idx ix hi x m hx hm val hval
    (fun i hi _ => hr i hi)
  refine ⟨mem', by rw [scatter_eq_masked hC p n hn idx x m mem hx hm tm]; exact e, ?_⟩
  have hact : ∀ i : Nat, i < n → m.get C (i : Int) = some true := fun i hi => by
    rw [get_eq hC hn hm, tm]; simp [hi]
  exact ⟨sp.length, fun i hi _ hl => sp.last i hi (hact i hi) (fun j h1 h2 _ => hl j h1 h2 trivial),
    fun a ha => sp.other a (fun i hi _ => ha i hi trivial)⟩

/-- The hypotheses can be met: 7 lanes of `float` with SSE, indexes in a `SimdArray<int, 7>` with
two equal indexes, or behind a pointer. -/
example : ∃ idx, IdxIs exCfg 7 idx (fun i => ([4, 0, 4, 9, 1, 2, 3] : List Int).getD i 0) ∧
    (∀ i, i < 7 → 0 ≤ (1 : Int) + ([4, 0, 4, 9, 1, 2, 3] : List Int).getD i 0 ∧
      (1 : Int) + ([4, 0, 4, 9, 1, 2, 3] : List Int).getD i 0 < (List.range 11).length) := by
  obtain ⟨x, w, t⟩ := exists_of_lanes exCfg_valid ([4, 0, 4, 9, 1, 2, 3] : List Int) (by decide)
  refine ⟨.tree x, Or.inl ⟨x, rfl, w, fun i hi => ?_⟩, by decide⟩
  rw [t]
  revert i; decide

example : IdxIs exCfg 3 (.ptr [5, 6, 7, 8] 0) (fun i => (i : Int) + 5) :=
  Or.inr ⟨_, rfl, by decide⟩

/-- The interface admits index vectors with more entries than the gather has lanes
(`simd_vector_size<IT>::value >= Size`), of which the first `n` are meant. -/
def gatherWithLongerIndexClaim : Prop :=
  ∀ (C C' : Cfg), C.Valid → C'.Valid → ∀ (n M : Nat), 1 ≤ n → n ≤ M → ∀ (ixs : SA Int),
    SA.WF C' M ixs → ∀ (mem : List Nat) (p : Int),
    (∀ i : Nat, i < n → ∃ j, ixs.get C' (i : Int) = some j ∧ 0 ≤ p + j ∧ p + j < mem.length) →
    ∃ x, SA.gather C C' mem p n (.tree ixs) = some x ∧
      ∀ i : Nat, i < n → ∃ j, ixs.get C' (i : Int) = some j ∧ x.get C (i : Int) = entry mem (p + j)

private theorem sizes8 : leftSize 8 = 4 ∧ rightSize 8 = 4 ∧ leftSize 16 = 8 ∧ rightSize 16 = 8 ∧
    leftSize 6 = 4 ∧ rightSize 6 = 2 ∧ leftSize 2 = 1 ∧ rightSize 2 = 1 := by decide +kernel

/-- Vc violates this: `SimdArray<float, 6>` gathers lanes 4 and 5 with the entries 8 and 9 of a
`SimdArray<int, 16>`. With indexes that are all 0 in the first six entries and out of range from
entry 8 on the gather reads outside of the memory. -/
theorem C24_longer_index_violated : ¬ gatherWithLongerIndexClaim := by
  intro h
  obtain ⟨s1, s2, s3, s4, s5, s6, s7, s8⟩ := sizes8
  have at1 : exCfg.atomic 16 = false := by decide
  have at2 : exCfg.atomic 8 = false := by decide
  have at3 : exCfg.atomic 4 = true := by decide
  have at4 : exCfg.atomic 6 = false := by decide
  have at5 : exCfg.atomic 2 = false := by decide
  have at6 : exCfg.atomic 1 = true := by decide
  let ixs : SA Int := .node (.node (.atom [0, 0, 0, 0]) (.atom [0, 0, 0, 0]))
    (.node (.atom [9, 9, 9, 9]) (.atom [9, 9, 9, 9]))
  have w : SA.WF exCfg 16 ixs := by
    refine ⟨at1, ?_, ?_⟩
    · rw [s3]; exact ⟨at2, by rw [s1]; exact ⟨rfl, at3⟩, by rw [s2]; exact ⟨rfl, at3⟩⟩
    · rw [s4]; exact ⟨at2, by rw [s1]; exact ⟨rfl, at3⟩, by rw [s2]; exact ⟨rfl, at3⟩⟩
  obtain ⟨x, e, _⟩ := h exCfg exCfg exCfg_valid exCfg_valid 6 16 (by decide) (by decide) ixs w [7] 0
    (fun i hi => ⟨0, by
      rw [get_eq exCfg_valid (by decide) w]
      have : ∀ i, i < 6 → ixs.toList[i]? = some 0 := by decide
      exact this i hi, by decide, by decide⟩)
  have hg : SA.gather exCfg exCfg [7] 0 6 (.tree ixs) = none := by
    rw [SA.gather, if_neg (by rw [at4]; decide), dif_pos (by decide), s5, s6]
    have h2 : SA.gather exCfg exCfg [7] 0 2 ((Idx.tree ixs).hi 4) = none := by
      rw [SA.gather, if_neg (by rw [at5]; decide), dif_pos (by decide), s7, s8]
      have h1 : SA.gather exCfg exCfg [7] 0 1 (((Idx.tree ixs).hi 4).lo) = none := by
        rw [SA.gather, if_pos at6]
        decide
      rw [h1]; rfl
    rw [h2]
    cases SA.gather exCfg exCfg [7] 0 4 (Idx.tree ixs).lo <;> rfl
  rw [hg] at e
  cases e

end Vc.Prop
