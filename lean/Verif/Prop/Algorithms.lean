import Verif.Lemma.Algorithms

/-!
# C10, C11: simd_for_each, simd_for_each_n

`mem` is the memory region, `first` and `last` positions in it. The result is `none` if the
algorithm accesses memory outside of the region.
-/

namespace Vc.Prop
open Vc.Model Vc.Spec Vc.Lemma

/-- The functor is called with consecutive chunks of `[first, last)`, full vectors first, then
single elements, in order, whatever it does. -/
theorem C10_for_each_const {α σ : Type} (w : Nat) (hw : 0 < w) (f : List α → σ → σ)
    (mem : List α) (first last : Nat) (h1 : first ≤ last) (h2 : last ≤ mem.length) (s : σ) :
    ∃ chunks, IsChunking w (slice mem first last) chunks ∧
      simdForEachConst w hw f first last mem s = some (chunks.foldl (fun s c => f c s) s) := by
  obtain ⟨e, l1, l2⟩ := slice_split mem first last h1 h2
  have hr := Nat.mod_lt (last - first) hw
  have hd := Nat.div_add_mod' (last - first) w
  refine ⟨_, cut_isChunking _ _ _ _ hr (by rw [l2, hd]), ?_⟩
  have hl := loops_eq w hw (bodyConst f mem) ((last - first) / w) ((last - first) % w) hr first s
  rw [hd, show ((first : Int) + (last - first : Nat)) = last by omega] at hl
  have hc := runChunks_const f (List.replicate ((last - first) / w) w ++ List.replicate ((last - first) % w) 1)
    (mem.take first) (slice mem first last) (mem.drop last) s (by rw [sum_chunks, hd, l2])
  rw [← e, l1] at hc
  exact hl.trans hc

/-- The same for a functor that modifies its argument: it is called with consecutive chunks, and
the modified chunks are stored where they have been loaded from; the rest of the memory is
unchanged. -/
theorem C10_for_each_mut {α σ : Type} (w : Nat) (hw : 0 < w) (f : List α → σ → List α × σ)
    (hf : ∀ c s, (f c s).1.length = c.length)
    (mem : List α) (first last : Nat) (h1 : first ≤ last) (h2 : last ≤ mem.length) (s : σ) :
    ∃ chunks, IsChunking w (slice mem first last) chunks ∧
      simdForEachMut w hw f first last mem s =
        some (splice mem first (seqMap f chunks s).1.flatten, (seqMap f chunks s).2) := by
  obtain ⟨e, l1, l2⟩ := slice_split mem first last h1 h2
  have hr := Nat.mod_lt (last - first) hw
  have hd := Nat.div_add_mod' (last - first) w
  have hch := cut_isChunking ((last - first) / w) w _ (slice mem first last) hr (by rw [l2, hd])
  refine ⟨_, hch, ?_⟩
  have hl := loops_eq w hw (bodyMut f) ((last - first) / w) ((last - first) % w) hr first (mem, s)
  rw [hd, show ((first : Int) + (last - first : Nat)) = last by omega] at hl
  have hc := runChunks_mut f (List.replicate ((last - first) / w) w ++ List.replicate ((last - first) % w) 1)
    (fun c s _ => hf c s)
    (mem.take first) (slice mem first last) (mem.drop last) s (by rw [sum_chunks, hd, l2])
  rw [← e, l1] at hc
  refine (hl.trans hc).trans ?_
  unfold splice
  rw [seqMap_flatten_length f _ _ (fun c _ s => hf c s), hch.1, l2,
    show first + (last - first) = last by omega]

/-- With a functor that treats the lanes of its argument one after the other by `g`,
`simd_for_each` is `std::for_each` with `g`. -/
theorem C10_equals_std_for_each {α σ : Type} (w : Nat) (hw : 0 < w) (g : α → σ → α × σ)
    (mem : List α) (first last : Nat) (h1 : first ≤ last) (h2 : last ≤ mem.length) (s : σ) :
    simdForEachMut w hw (seqMap g) first last mem s =
      some (splice mem first (seqMap g (slice mem first last) s).1, (seqMap g (slice mem first last) s).2) := by
  obtain ⟨chunks, hch, e⟩ := C10_for_each_mut w hw (seqMap g) (fun c s => seqMap_length g c s) mem
    first last h1 h2 s
  rw [e, ← hch.1, ← seqMap_flatten g chunks s]

example : 0 < 4 ∧ 1 ≤ 8 ∧ 8 ≤ (List.range 9).length ∧
    IsChunking 4 (slice (List.range 9) 1 8) [[1, 2, 3, 4], [5], [6], [7]] :=
  ⟨by decide, by decide, by decide, by decide, [[1, 2, 3, 4]], [[5], [6], [7]], rfl, by decide,
    by decide, by decide⟩

theorem signedCount_of_lt {count : Nat} (h : count < 2 ^ 63) : signedCount count = count := by
  unfold signedCount
  have e : (BitVec.ofNat 64 count).toNat = count := by
    rw [BitVec.toNat_ofNat]; exact Nat.mod_eq_of_lt (by omega)
  rw [BitVec.toInt_eq_toNat_of_lt (by rw [e]; omega), e]

/-- `simd_for_each_n(first, count, f)` is the iteration over `[first, first + count)`; no object
has `2^63` elements. -/
theorem C11_for_each_n_const {α σ : Type} (w : Nat) (hw : 0 < w) (f : List α → σ → σ)
    (mem : List α) (first count : Nat) (h2 : first + count ≤ mem.length) (h3 : mem.length < 2 ^ 63)
    (s : σ) :
    ∃ chunks, IsChunking w (slice mem first (first + count)) chunks ∧
      simdForEachNConst w hw f first count mem s = some (chunks.foldl (fun s c => f c s) s) := by
  obtain ⟨e, l1, l2⟩ := slice_split mem first (first + count) (by omega) h2
  rw [show first + count - first = count by omega] at l2
  have hr := Nat.mod_lt count hw
  have hd := Nat.div_add_mod' count w
  refine ⟨_, cut_isChunking _ _ _ _ hr (by rw [l2, hd]), ?_⟩
  have hl := loopsN_eq w hw (bodyConst f mem) (count / w) (count % w) hr first s
  rw [hd, ← signedCount_of_lt (show count < 2 ^ 63 by omega)] at hl
  have hc := runChunks_const f (List.replicate (count / w) w ++ List.replicate (count % w) 1)
    (mem.take first) (slice mem first (first + count)) (mem.drop (first + count)) s
    (by rw [sum_chunks, hd, l2])
  rw [← e, l1] at hc
  exact hl.trans hc

theorem C11_for_each_n_mut {α σ : Type} (w : Nat) (hw : 0 < w) (f : List α → σ → List α × σ)
    (hf : ∀ c s, (f c s).1.length = c.length)
    (mem : List α) (first count : Nat) (h2 : first + count ≤ mem.length) (h3 : mem.length < 2 ^ 63)
    (s : σ) :
    ∃ chunks, IsChunking w (slice mem first (first + count)) chunks ∧
      simdForEachNMut w hw f first count mem s =
        some (splice mem first (seqMap f chunks s).1.flatten, (seqMap f chunks s).2) := by
  obtain ⟨e, l1, l2⟩ := slice_split mem first (first + count) (by omega) h2
  rw [show first + count - first = count by omega] at l2
  have hr := Nat.mod_lt count hw
  have hd := Nat.div_add_mod' count w
  have hch := cut_isChunking (count / w) w _ (slice mem first (first + count)) hr (by rw [l2, hd])
  refine ⟨_, hch, ?_⟩
  have hl := loopsN_eq w hw (bodyMut f) (count / w) (count % w) hr first (mem, s)
  rw [hd, ← signedCount_of_lt (show count < 2 ^ 63 by omega)] at hl
  have hc := runChunks_mut f (List.replicate (count / w) w ++ List.replicate (count % w) 1)
    (fun c s _ => hf c s)
    (mem.take first) (slice mem first (first + count)) (mem.drop (first + count)) s
    (by rw [sum_chunks, hd, l2])
  rw [← e, l1] at hc
  refine (hl.trans hc).trans ?_
  unfold splice
  rw [seqMap_flatten_length f _ _ (fun c _ s => hf c s), hch.1, l2]

theorem C11_equals_std_for_each {α σ : Type} (w : Nat) (hw : 0 < w) (g : α → σ → α × σ)
    (mem : List α) (first count : Nat) (h2 : first + count ≤ mem.length) (h3 : mem.length < 2 ^ 63)
    (s : σ) :
    simdForEachNMut w hw (seqMap g) first count mem s =
      some (splice mem first (seqMap g (slice mem first (first + count)) s).1,
        (seqMap g (slice mem first (first + count)) s).2) := by
  obtain ⟨chunks, hch, e⟩ := C11_for_each_n_mut w hw (seqMap g) (fun c s => seqMap_length g c s) mem
    first count h2 h3 s
  rw [e, ← hch.1, ← seqMap_flatten g chunks s]

example : 0 < 4 ∧ 1 + 7 ≤ (List.range 9).length ∧ (List.range 9).length < 2 ^ 63 := by decide

end Vc.Prop
