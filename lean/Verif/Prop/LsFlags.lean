import Verif.Spec.LsFlags

/-!
# C98: load/store flags
-/

namespace Vc.Prop
open Vc.Model Vc.Spec

private theorem extract_append (b : FlagBase) (l m : List LsFlag) :
    extractType b (l ++ m) = match extractType b l with
      | some t => some t
      | none => extractType b m := by
  induction l with
  | nil => rfl
  | cons t l ih =>
    simp only [List.cons_append, extractType]
    split
    · rfl
    · exact ih

private theorem isSome_append (b : FlagBase) (l m : List LsFlag) :
    (extractType b (l ++ m)).isSome = ((extractType b l).isSome || (extractType b m).isSome) := by
  rw [extract_append]; cases extractType b l <;> rfl

private theorem says_unaligned (e : FlagExpr) : isUnaligned e.flags = true ↔ SaysUnaligned e := by
  induction e with
  | or a b iha ihb =>
    simp only [isUnaligned] at iha ihb
    simp only [FlagExpr.flags, isUnaligned, isSome_append, Bool.or_eq_true, iha, ihb]
    constructor
    · rintro (h | h)
      · exact .left h
      · exact .right h
    · intro h
      cases h with
      | left h => exact .inl h
      | right h => exact .inr h
  | unaligned => exact ⟨fun _ => .base, fun _ => rfl⟩
  | _ => exact ⟨fun h => (by cases h), fun h => (by cases h)⟩

private theorem says_streaming (e : FlagExpr) : isStreaming e.flags = true ↔ SaysStreaming e := by
  induction e with
  | or a b iha ihb =>
    simp only [isStreaming] at iha ihb
    simp only [FlagExpr.flags, isStreaming, isSome_append, Bool.or_eq_true, iha, ihb]
    constructor
    · rintro (h | h)
      · exact .left h
      · exact .right h
    · intro h
      cases h with
      | left h => exact .inl h
      | right h => exact .inr h
  | streaming => exact ⟨fun _ => .base, fun _ => rfl⟩
  | _ => exact ⟨fun h => (by cases h), fun h => (by cases h)⟩

/-- A combination of flags asks for unaligned access if and only if `Unaligned` is one of them, and for streaming access
if and only if `Streaming` is. -/
theorem C98_flags (e : FlagExpr) :
    ((lflagsOf e.flags).unaligned = true ↔ SaysUnaligned e) ∧ ((lflagsOf e.flags).streaming = true ↔ SaysStreaming e) ∧
      (isAlignedFlag e.flags = true ↔ ¬ SaysUnaligned e) := by
  refine ⟨says_unaligned e, says_streaming e, ?_⟩
  rw [← says_unaligned e]
  unfold isAlignedFlag
  cases isUnaligned e.flags <;> simp

/-- Order, grouping and repetition do not matter for this, and `Aligned` is neutral. -/
theorem C98_combine (a b c : FlagExpr) :
    lflagsOf (FlagExpr.or a b).flags = lflagsOf (FlagExpr.or b a).flags ∧
      (FlagExpr.or (.or a b) c).flags = (FlagExpr.or a (.or b c)).flags ∧
      lflagsOf (FlagExpr.or a a).flags = lflagsOf a.flags ∧
      (FlagExpr.or .aligned a).flags = a.flags ∧ (FlagExpr.or a .aligned).flags = a.flags := by
  refine ⟨?_, by simp [FlagExpr.flags], ?_, rfl, by simp [FlagExpr.flags]⟩
  · simp only [lflagsOf, isUnaligned, isStreaming, FlagExpr.flags, isSome_append, Bool.or_comm]
  · simp only [lflagsOf, isUnaligned, isStreaming, FlagExpr.flags, isSome_append, Bool.or_self]

example : lflagsOf (FlagExpr.or .aligned (.or .streaming .unaligned)).flags = ⟨true, true⟩ := rfl

/-- For every combination exactly one overload of each set takes part: of the loads, the stores without mask, the
prefetches; and it is the one for the flags. -/
theorem C98_overloads (l : List LsFlag) :
    (EnableIf.takesPart .aligned l = (!(lflagsOf l).unaligned && !(lflagsOf l).streaming) ∧
      EnableIf.takesPart .streaming l = (!(lflagsOf l).unaligned && (lflagsOf l).streaming) ∧
      EnableIf.takesPart .unaligned l = (lflagsOf l).unaligned ∧
      EnableIf.takesPart .unalignedNotStreaming l = ((lflagsOf l).unaligned && !(lflagsOf l).streaming) ∧
      EnableIf.takesPart .unalignedAndStreaming l = ((lflagsOf l).unaligned && (lflagsOf l).streaming)) ∧
    ([EnableIf.aligned, .unaligned, .streaming].filter (·.takesPart l)).length = 1 ∧
    ([EnableIf.aligned, .unalignedNotStreaming, .streaming, .unalignedAndStreaming].filter (·.takesPart l)).length = 1 ∧
    ([EnableIf.prefetch, .notPrefetch].filter (·.takesPart l)).length = 1 := by
  cases l with
  | nil => exact ⟨⟨rfl, rfl, rfl, rfl, rfl⟩, rfl, rfl, rfl⟩
  | cons t l =>
    simp only [EnableIf.takesPart, lflagsOf, isAlignedFlag, List.filter]
    generalize isUnaligned (t :: l) = u
    generalize isStreaming (t :: l) = v
    generalize isPrefetch (t :: l) = p
    cases u <;> cases v <;> cases p <;> simp

private theorem no_prefetch {e : FlagExpr} (h : NoPrefetch e) : extractType .prefetch e.flags = none := by
  induction h with
  | or _ _ iha ihb => simp only [FlagExpr.flags, extract_append, iha, ihb]
  | _ => rfl

private theorem first_prefetch {e : FlagExpr} {l1 l2 : Nat} (h : FirstPrefetch e l1 l2) :
    ∃ hint, extractType .prefetch e.flags = some (.prefetch l1 l2 hint) := by
  induction h with
  | default => exact ⟨_, rfl⟩
  | flag a b h => exact ⟨h, rfl⟩
  | left _ ih => obtain ⟨x, ih⟩ := ih; exact ⟨x, by simp only [FlagExpr.flags, extract_append, ih]⟩
  | right hn _ ih => obtain ⟨x, ih⟩ := ih; exact ⟨x, by simp only [FlagExpr.flags, extract_append, no_prefetch hn, ih]⟩

private theorem takes_prefetch (l : List LsFlag) : EnableIf.takesPart .prefetch l = (extractType .prefetch l).isSome := by
  cases l <;> rfl

/-- Without a prefetch flag nothing is prefetched; otherwise the leftmost one decides: the address plus the first stride
into the first-level cache and plus the second stride into the second level, a stride of zero being none. -/
theorem C98_prefetch (e : FlagExpr) (addr : Nat) :
    (NoPrefetch e → handlePrefetches e.flags addr = []) ∧
    ∀ l1 l2, FirstPrefetch e l1 l2 →
      ∀ i, i ∈ handlePrefetches e.flags addr ↔ (l1 ≠ 0 ∧ i = .t0 (addr + l1)) ∨ (l2 ≠ 0 ∧ i = .t1 (addr + l2)) := by
  refine ⟨fun h => ?_, fun l1 l2 h i => ?_⟩
  · unfold handlePrefetches
    rw [takes_prefetch, no_prefetch h]; rfl
  · obtain ⟨hint, hx⟩ := first_prefetch h
    unfold handlePrefetches prefetchOf
    rw [takes_prefetch, hx]
    simp only [Option.isSome, if_true, handlePrefetch]
    by_cases h1 : l1 = 0 <;> by_cases h2 : l2 = 0 <;> simp [h1, h2]

/-- Every expression is one of the two. -/
theorem C98_prefetch_cases (e : FlagExpr) : NoPrefetch e ∨ ∃ l1 l2, FirstPrefetch e l1 l2 := by
  induction e with
  | aligned => exact .inl .aligned
  | unaligned => exact .inl .unaligned
  | streaming => exact .inl .streaming
  | prefetchDefault => exact .inr ⟨_, _, .default⟩
  | prefetch a b h => exact .inr ⟨_, _, .flag a b h⟩
  | or a b iha ihb =>
    rcases iha with ha | ⟨x, y, ha⟩
    · rcases ihb with hb | ⟨x, y, hb⟩
      · exact .inl (.or ha hb)
      · exact .inr ⟨x, y, .right ha hb⟩
    · exact .inr ⟨x, y, .left ha⟩

example : FirstPrefetch (.or .unaligned (.or (.prefetch 256 0 .shared) .prefetchDefault)) 256 0 ∧
    handlePrefetches (FlagExpr.or .unaligned (.or (.prefetch 256 0 .shared) .prefetchDefault)).flags 4096 = [.t0 4352] :=
  ⟨.right .unaligned (.left (.flag _ _ _)), rfl⟩

end Vc.Prop
