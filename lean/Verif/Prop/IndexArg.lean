import Verif.Spec.IndexArg
import Verif.Prop.MixedOp

/-!
C99: index arguments of gathers and scatters.
-/

namespace Vc.Prop
open Vc.Model Vc.Spec Vc.Spec.Cpp

theorem promoted_fits {t : CTy} (ht : t.isIntegral = true) {v : Int} (h : Fits t v) : Fits (promotedTy t) v := by
  have : ∀ t ∈ CTy.all, t.isIntegral = true → minVal (promotedTy t) ≤ minVal t ∧ maxVal t ≤ maxVal (promotedTy t) := by decide
  obtain ⟨h1, h2⟩ := this t t.mem_all ht
  exact ⟨le_trans h1 h.1, le_trans h.2 h2⟩

theorem promoted_int {t : CTy} (ht : t.isIntegral = true) : (promotedTy t).isIntegral = true ∧ promotedTy t ≠ .bool := by
  have : ∀ t ∈ CTy.all, t.isIntegral = true → (promotedTy t).isIntegral = true ∧ promotedTy t ≠ .bool := by decide
  exact this t t.mem_all ht

theorem conv_fits {t : CTy} (h1 : t.isIntegral = true) (h2 : t ≠ .bool) {v : Int} (h : Fits t v) : (CInt.conv t v).val = v :=
  wraps_unique h1 h2 (conv_wraps h1 h2 v) (wraps_of_fits h)

theorem convIdx_vals {k : IdxKind} {t : CTy} {a : IdxArg} (h1 : t.isIntegral = true) (h2 : t ≠ .bool)
    (h : ∀ v ∈ a.vals, Fits t v) : (convIdx k t a).vals = a.vals := by
  unfold convIdx
  exact (List.map_congr_left fun v hv => conv_fits h1 h2 (h v hv)).trans (List.map_id' _)

theorem small_int {t : CTy} (ht : t.isIntegral = true) (h : ¬4 ≤ t.size) : promotedTy t = .int := by
  unfold promotedTy
  rw [if_pos (by simp only [ht, Bool.true_and, decide_eq_true_eq]; omega)]

/-- The conversion of the argument keeps all indexes, whatever their type. -/
theorem C99_conversion {a b : IdxArg} (h : GoodIdx a) (hb : convertIndex a = some b) :
    b.vals = a.vals ∧ GoodIdx b ∧ 4 ≤ b.ty.size ∨ (∃ l, a.kind = .other l) ∧ b = a := by
  obtain ⟨hi, hv⟩ := h
  obtain ⟨p1, p2⟩ := promoted_int hi
  have hp : ∀ v ∈ a.vals, Fits (promotedTy a.ty) v := fun v hm => promoted_fits hi (hv v hm)
  have hs : 4 ≤ (promotedTy a.ty).size := by
    have : ∀ t ∈ CTy.all, t.isIntegral = true → 4 ≤ (promotedTy t).size := by decide
    exact this _ a.ty.mem_all hi
  have hc (k : IdxKind) : (convIdx k (promotedTy a.ty) a).vals = a.vals ∧ GoodIdx (convIdx k (promotedTy a.ty) a) ∧
      4 ≤ (convIdx k (promotedTy a.ty) a).ty.size := by
    have e := convIdx_vals (k := k) p1 p2 hp
    refine ⟨e, ⟨p1, ?_⟩, hs⟩
    rw [e]; exact hp
  unfold convertIndex at hb
  split at hb
  · split at hb
    · rename_i h4
      obtain rfl := Option.some.inj hb
      exact .inl ⟨rfl, ⟨hi, hv⟩, h4⟩
    · rename_i h4
      obtain rfl := Option.some.inj hb
      have := hc .simd
      rw [small_int hi h4] at this
      exact .inl this
  · split at hb
    · obtain rfl := Option.some.inj hb; exact .inl (hc _)
    · cases hb
  · split at hb
    · obtain rfl := Option.some.inj hb; exact .inl (hc _)
    · cases hb
  · split at hb
    · obtain rfl := Option.some.inj hb; exact .inl (hc _)
    · cases hb
  · cases hb
  · obtain rfl := Option.some.inj hb; exact .inl (hc _)
  · rw [hi] at hb
    simp only [Bool.not_true, Bool.false_eq_true, if_false] at hb
    split at hb
    · rename_i h4
      obtain rfl := Option.some.inj hb
      exact .inl ⟨rfl, ⟨hi, hv⟩, h4⟩
    · obtain rfl := Option.some.inj hb; exact .inl (hc _)
  · rename_i l hk
    split at hb
    · cases hb
    · obtain rfl := Option.some.inj hb
      exact .inr ⟨⟨_, hk⟩, rfl⟩

theorem conversion_vals {a b : IdxArg} (h : GoodIdx a) (hb : convertIndex a = some b) : b.vals = a.vals := by
  rcases C99_conversion h hb with h | ⟨-, rfl⟩
  · exact h.1
  · rfl

theorem readIdx_uses {size : Nat} {a b : IdxArg} (hv : b.vals = a.vals) (hs : size ≤ a.vals.length) : Uses size a (readIdx size b) := by
  unfold readIdx
  rw [hv, if_pos hs]
  refine ⟨_, rfl, by rw [List.length_take]; omega, fun i hi => ⟨a.vals[i], ?_, ?_⟩⟩
  · rw [List.getElem?_take, if_pos hi, List.getElem?_eq_getElem]
  · rw [List.getElem?_eq_getElem]

/-- With enough indexes, every operation that is not rejected uses the `i`-th index for entry `i`. -/
theorem C99_values {size : Nat} {a : IdxArg} (h : GoodIdx a) (hs : size ≤ a.vals.length) :
    (gatherIdx size a = .reject ∨ Uses size a (gatherIdx size a)) ∧ (scatterIdx size a = .reject ∨ Uses size a (scatterIdx size a)) ∧
    (subscriptGatherIdx size a = .reject ∨ Uses size a (subscriptGatherIdx size a)) ∧
    (subscriptScatterIdx size a = .reject ∨ Uses size a (subscriptScatterIdx size a)) := by
  refine ⟨?_, ?_, ?_, ?_⟩
  · unfold gatherIdx
    split
    · split
      · rename_i b hb
        exact .inr (readIdx_uses (conversion_vals h hb) hs)
      · exact .inl rfl
    · exact .inl rfl
  · unfold scatterIdx
    split
    · exact .inr (readIdx_uses rfl hs)
    · exact .inl rfl
  · unfold subscriptGatherIdx
    split
    · exact .inl rfl
    · rename_i b hb
      split
      · exact .inr (readIdx_uses (conversion_vals h hb) hs)
      · exact .inl rfl
  · unfold subscriptScatterIdx
    split
    · exact .inl rfl
    · rename_i b hb
      split
      · unfold scatterIdx
        split
        · exact .inr (readIdx_uses (conversion_vals h hb) hs)
        · exact .inl rfl
      · exact .inl rfl

/-- What is accepted with enough indexes: vectors and `std::vector`s of all integers, arrays of integers that are not larger than
`int`. -/
theorem C99_accepted {size : Nat} {a : IdxArg} (h : GoodIdx a) (hs : size ≤ a.vals.length)
    (hk : a.kind = .simd ∨ a.kind = .stdVector ∨ a.kind = .stdArray ∧ a.ty.size ≤ 4 ∨ a.kind = .vcArray ∧ a.ty.size ≤ 4 ∨ a.kind = .cArray ∧ a.ty.size ≤ 4) :
    Uses size a (gatherIdx size a) ∧ Uses size a (scatterIdx size a) ∧ Uses size a (subscriptGatherIdx size a) ∧
    Uses size a (subscriptScatterIdx size a) := by
  obtain ⟨k, t, vals⟩ := a
  have h16 : ∀ t ∈ CTy.all, t.isIntegral = true → t.size ≤ 4 → validVec (promotedTy t) = true := by decide
  have hsome : (convertIndex ⟨k, t, vals⟩).isSome = true ∧ hasSubscript k = true ∧
      ∀ b, convertIndex ⟨k, t, vals⟩ = some b → b.kind = .simd ∨ b.kind = .stdVector := by
    have hi := h.1
    simp only at hk hi
    rcases hk with rfl | rfl | ⟨rfl, h4⟩ | ⟨rfl, h4⟩ | ⟨rfl, h4⟩
    · refine ⟨?_, rfl, fun b hb => ?_⟩
      · simp only [convertIndex]; split <;> rfl
      · simp only [convertIndex] at hb; split at hb <;> obtain rfl := Option.some.inj hb <;> exact .inl rfl
    · refine ⟨?_, rfl, fun b hb => ?_⟩
      · simp only [convertIndex, hi, Bool.not_true, Bool.false_eq_true, if_false]; split <;> rfl
      · simp only [convertIndex, hi, Bool.not_true, Bool.false_eq_true, if_false] at hb
        split at hb <;> obtain rfl := Option.some.inj hb <;> exact .inr rfl
    all_goals
      have hvv := h16 t t.mem_all hi h4
      refine ⟨?_, rfl, fun b hb => ?_⟩
      · simp only [convertIndex, hi, hvv, Bool.and_self, if_true]; rfl
      · simp only [convertIndex, hi, hvv, Bool.and_self, if_true] at hb
        obtain rfl := Option.some.inj hb; exact .inl rfl
  obtain ⟨h1, h2, h3⟩ := hsome
  have hp : paramTypes size ⟨k, t, vals⟩ = true := by
    have hs' : size ≤ vals.length := hs
    simp [paramTypes, h2, hs']
  have hm : sizeMatches size ⟨k, t, vals⟩ = true := by
    have hs' : size ≤ vals.length := hs
    unfold sizeMatches
    split <;> simp [hs']
  obtain ⟨b, hb⟩ := Option.isSome_iff_exists.mp h1
  have hv := conversion_vals h hb
  have hpb : paramTypes size b = true := by
    have hs' : size ≤ vals.length := hs
    rcases h3 b hb with e | e <;> simp [paramTypes, e, hasSubscript, hv, hs']
  refine ⟨?_, ?_, ?_, ?_⟩
  · unfold gatherIdx; rw [if_pos hp, hb]; exact readIdx_uses hv hs
  · unfold scatterIdx; rw [if_pos hp]; exact readIdx_uses rfl hs
  · unfold subscriptGatherIdx; simp only [hb]; rw [if_pos (by rw [hm, hpb]; rfl)]; exact readIdx_uses hv hs
  · unfold subscriptScatterIdx; simp only [hb]; rw [if_pos hm]; unfold scatterIdx; rw [if_pos hpb]; exact readIdx_uses hv hs

/-- Gathers and scatters by subscript reject every argument with too few indexes whose type tells their number. -/
theorem C99_subscript_checked (size : Nat) (a : IdxArg) :
    Checked size a (subscriptGatherIdx size a) ∧ Checked size a (subscriptScatterIdx size a) := by
  have hm : StaticSize a.kind → a.vals.length < size → sizeMatches size a = false := by
    intro hk hl
    unfold sizeMatches
    split
    · exact decide_eq_false (by omega)
    · exact decide_eq_false (by omega)
    · exact decide_eq_false (by omega)
    · exact decide_eq_false (by omega)
    · rename_i h1 h2 h3 h4
      obtain ⟨k, t, vals⟩ := a
      cases k <;> first | exact absurd rfl h1 | exact absurd rfl h2 | exact absurd rfl h3 | exact absurd rfl h4 | exact hk.elim
  constructor
  · intro hk hl
    unfold subscriptGatherIdx
    split
    · rfl
    · rw [hm hk hl]; rfl
  · intro hk hl
    unfold subscriptScatterIdx
    split
    · rfl
    · rw [hm hk hl]; rfl

/-- The member functions (and constructors) reject index vectors with too few entries. -/
theorem C99_member_checked_partial (size : Nat) {a : IdxArg} (hk : a.kind = .simd) :
    Checked size a (gatherIdx size a) ∧ Checked size a (scatterIdx size a) := by
  constructor <;> intro _ hl
  · unfold gatherIdx
    rw [if_neg]
    simp [paramTypes, hk]; omega
  · unfold scatterIdx
    rw [if_neg]
    simp [paramTypes, hk]; omega

/-- They do not reject arrays: the assertion that is there to do so looks at the wrong type.  A gather or scatter of four
entries with an array of two indexes compiles and reads beyond the array. -/
theorem C99_member_checked_violated : ∃ k, StaticSize k ∧ isArray k = true ∧
    gatherIdx 4 ⟨k, .int, [0, 1]⟩ = .undefined ∧ scatterIdx 4 ⟨k, .int, [0, 1]⟩ = .undefined ∧
    ¬Checked 4 ⟨k, .int, [0, 1]⟩ (gatherIdx 4 ⟨k, .int, [0, 1]⟩) ∧ ¬Checked 4 ⟨k, .int, [0, 1]⟩ (scatterIdx 4 ⟨k, .int, [0, 1]⟩) := by
  refine ⟨.cArray, trivial, rfl, by decide, by decide, fun h => ?_, fun h => ?_⟩
  · exact absurd (h trivial (by decide)) (by decide)
  · exact absurd (h trivial (by decide)) (by decide)

/-- Pointers to indexes are documented, but no gather accepts them, for any number of entries; scatters do. -/
theorem C99_pointer_violated (size : Nat) (a : IdxArg) (hk : a.kind = .pointer) (hs : size ≤ a.vals.length) :
    gatherIdx size a = .reject ∧ Uses size a (scatterIdx size a) := by
  constructor
  · unfold gatherIdx convertIndex
    rw [hk]
    split <;> rfl
  · unfold scatterIdx
    rw [if_pos (by simp [paramTypes, hk, hasSubscript])]
    exact readIdx_uses rfl hs

/-- Every type with a subscript operator is documented to do, but gathers reject arrays of 64-bit integers, and classes whose
subscript operator returns references (`std::deque`, `Vc::span`); scatters accept both. -/
theorem C99_container_violated (size : Nat) (a : IdxArg) (hs : size ≤ a.vals.length)
    (hk : a.kind = .other true ∨ (a.kind = .stdArray ∨ a.kind = .vcArray ∨ a.kind = .cArray) ∧ a.ty.isIntegral = true ∧ a.ty.size = 8) :
    gatherIdx size a = .reject ∧ subscriptGatherIdx size a = .reject ∧ Uses size a (scatterIdx size a) := by
  obtain ⟨k, t, vals⟩ := a
  have h8 : ∀ t ∈ CTy.all, t.isIntegral = true → t.size = 8 → validVec (promotedTy t) = false := by decide
  have hn : convertIndex ⟨k, t, vals⟩ = none ∧ hasSubscript k = true := by
    simp only at hk
    rcases hk with rfl | ⟨rfl | rfl | rfl, hi, h⟩
    · exact ⟨rfl, rfl⟩
    all_goals exact ⟨by simp only [convertIndex, h8 t t.mem_all hi h, Bool.and_false, Bool.false_eq_true, if_false], rfl⟩
  have hs' : size ≤ vals.length := hs
  refine ⟨?_, ?_, ?_⟩
  · unfold gatherIdx
    rw [hn.1]
    split <;> rfl
  · unfold subscriptGatherIdx
    rw [hn.1]
  · unfold scatterIdx
    rw [if_pos (by simp [paramTypes, hn.2, hs'])]
    exact readIdx_uses rfl hs

/-! Concrete cases: unsigned shorts above 32767 are kept; a SIMD vector or array that is too small is rejected. -/
example : GoodIdx ⟨.simd, .ushort, [65535, 40000, 0, 1]⟩ ∧ gatherIdx 4 ⟨.simd, .ushort, [65535, 40000, 0, 1]⟩ = .offsets [65535, 40000, 0, 1] := by decide
example : gatherIdx 4 ⟨.simd, .int, [0, 1]⟩ = .reject ∧ subscriptGatherIdx 4 ⟨.stdArray, .int, [0, 1]⟩ = .reject ∧
    subscriptGatherIdx 2 ⟨.stdArray, .schar, [-1, 1, 7]⟩ = .offsets [-1, 1] := by decide
example : gatherIdx 2 ⟨.stdVector, .long, [2 ^ 40, 1]⟩ = .offsets [2 ^ 40, 1] ∧ gatherIdx 2 ⟨.cArray, .long, [0, 1]⟩ = .reject := by decide

end Vc.Prop
