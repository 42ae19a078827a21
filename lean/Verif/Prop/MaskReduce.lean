import Verif.Model.MaskReduce
import Verif.Prop.SseMask
import Verif.Prop.AvxMask
import Verif.Prop.SimdMask

/-!
# C104: all_of, any_of, none_of, some_of; Scalar masks
-/

namespace Vc.Prop
open Vc.Model Vc.Spec Vc.Lemma

/-- The mask has `n` entries, entry `i` is `b i`. A SimdMaskArray is read with `operator[]`, a `bool` has one
entry. -/
def Denotes (C : Cfg) : AnyMask → Nat → (Nat → Bool) → Prop
  | .sse _ w k, n, b => MaskWidth w ∧ n = 128 / w ∧ IsMask w k b
  | .avx w k, n, b => AvxMaskWidth w ∧ n = 256 / w ∧ IsMask w k b
  | .scalar m, n, b => n = 1 ∧ b 0 = m
  | .array m, n, b => 1 ≤ n ∧ SA.WF C n m ∧ ∀ i, i < n → m.maskGet n i = some (b i)
  | .bool v, n, b => n = 1 ∧ b 0 = v

/-- For all masks and for `bool`: the four functions are the quantifiers over the entries. -/
theorem C104_reductions {C : Cfg} (hC : C.Valid) (m : AnyMask) (n : Nat) (b : Nat → Bool) (h : Denotes C m n b) :
    (allOf m = true ↔ ∀ i, i < n → b i = true) ∧
    (anyOf m = true ↔ ∃ i, i < n ∧ b i = true) ∧
    (noneOf m = true ↔ ∀ i, i < n → b i = false) ∧
    (someOf m = true ↔ (∃ i, i < n ∧ b i = true) ∧ ∃ i, i < n ∧ b i = false) := by
  have one : ∀ P : Nat → Prop, ((∀ i, i < 1 → P i) ↔ P 0) ∧ ((∃ i, i < 1 ∧ P i) ↔ P 0) := fun P =>
    ⟨⟨fun h => h 0 (by decide), fun h i hi => by rw [show i = 0 by omega]; exact h⟩,
      ⟨fun ⟨i, hi, h⟩ => by rw [show i = 0 by omega] at h; exact h, fun h => ⟨0, by decide, h⟩⟩⟩
  cases m with
  | sse p w k =>
    obtain ⟨hw, rfl, hk⟩ := h
    obtain ⟨h1, h2, h3, h4⟩ := C36_queries p hw hk
    exact ⟨h3, h2, h1, h4⟩
  | avx w k =>
    obtain ⟨hw, rfl, hk⟩ := h
    obtain ⟨h1, h2, h3, h4⟩ := C63_queries hw hk
    exact ⟨h3, h2, h1, h4⟩
  | scalar v =>
    obtain ⟨rfl, hv⟩ := h
    simp only [one, hv]
    cases v <;> simp [allOf, anyOf, noneOf, someOf, smIsFull, smIsNotEmpty, smIsEmpty, smIsMix]
  | array a =>
    obtain ⟨hn, hw, hb⟩ := h
    obtain ⟨h1, h2, h3, h4⟩ := C27_is hC n hn a hw
    have e : ∀ v : Bool, (∀ i, i < n → a.maskGet n i = some v) ↔ ∀ i, i < n → b i = v := fun v =>
      ⟨fun h i hi => Option.some.inj ((hb i hi).symm.trans (h i hi)), fun h i hi => by rw [hb i hi, h i hi]⟩
    have x : ∀ v : Bool, (∃ i, i < n ∧ a.maskGet n i = some v) ↔ ∃ i, i < n ∧ b i = v := fun v =>
      ⟨fun ⟨i, hi, h⟩ => ⟨i, hi, Option.some.inj ((hb i hi).symm.trans h)⟩,
        fun ⟨i, hi, h⟩ => ⟨i, hi, by rw [hb i hi, h]⟩⟩
    exact ⟨h1.trans (e true), h3.trans (x true), h2.trans (e false),
      h4.trans (and_congr (x true) (x false))⟩
  | bool v =>
    obtain ⟨rfl, hv⟩ := h
    simp only [one, hv]
    cases v <;> simp [allOf, anyOf, noneOf, someOf]

/-- A SimdMaskArray of 7 entries, an SSE mask, a Scalar mask and a bool. -/
example : (∃ m b, Denotes exCfg (.array m) 7 b) ∧ Denotes exCfg (.sse true 32 exMask4) 4 (fun i => i == 0 || i == 3) ∧
    Denotes exCfg (.scalar true) 1 (fun _ => true) ∧ Denotes exCfg (.bool false) 1 (fun _ => false) := by
  refine ⟨?_, ⟨.inr (.inr (.inl rfl)), rfl, C36_generate 32 _⟩, ⟨rfl, rfl⟩, rfl, rfl⟩
  obtain ⟨m, hm, -⟩ := exMask7
  refine ⟨m, fun i => (m.maskGet 7 i).getD false, by decide, hm, fun i hi => ?_⟩
  have := (C27_index exCfg_valid 7 (by decide) m hm i).mpr hi
  obtain ⟨v, hv⟩ := Option.isSome_iff_exists.mp this
  simp only [hv, Option.getD_some]

/-- What the four functions say about each other. -/
theorem C104_duality {C : Cfg} (hC : C.Valid) (m : AnyMask) (n : Nat) (b : Nat → Bool) (h : Denotes C m n b) :
    noneOf m = !anyOf m ∧ someOf m = (anyOf m && !allOf m) ∧ (0 < n → allOf m = true → anyOf m = true) := by
  obtain ⟨h1, h2, h3, h4⟩ := C104_reductions hC m n b h
  refine ⟨?_, ?_, fun hn ha => h2.mpr ⟨0, hn, h1.mp ha 0 hn⟩⟩
  · rw [Bool.eq_iff_iff, Bool.not_eq_true', ← Bool.not_eq_true, h3, h2]
    simp
  · rw [Bool.eq_iff_iff, Bool.and_eq_true, Bool.not_eq_true', ← Bool.not_eq_true (allOf m), h4, h2, h1]
    simp

/-- Scalar masks: the other functions agree with the only entry. -/
theorem C104_scalar (m : Bool) :
    (smCount m = (List.range 1).countP fun _ => m) ∧
    (∀ i, (smToInt m).testBit i = (decide (i = 0) && m)) ∧
    (m = true → smFirstOne m = 0) ∧
    (∀ gen : Nat → Bool, smGenerate gen = gen 0) ∧
    ∀ a : Int, smShifted m a = if 0 ≤ 0 + a ∧ 0 + a < 1 then m else false := by
  refine ⟨by cases m <;> rfl, fun i => ?_, fun _ => rfl, fun _ => rfl, fun a => ?_⟩
  rotate_left
  · unfold smShifted
    by_cases h : a = 0
    · subst h; rfl
    · rw [if_neg h, if_neg (by omega)]
  cases m
  · simp [smToInt]
  · cases i with
    | zero => rfl
    | succ i => simp [smToInt, Nat.testBit_succ]

end Vc.Prop
