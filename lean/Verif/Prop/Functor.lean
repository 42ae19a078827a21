import Verif.Spec.Functor
import Verif.Prop.Algorithms

/-!
C101: functors of `simd_for_each`.
-/

namespace Vc.Prop
open Vc.Model Vc.Spec

theorem seqMap_state {α σ : Type} (g : List α → σ → List α × σ) (chunks : List (List α)) (s : σ) :
    chunks.foldl (fun s c => (g c s).2) s = (seqMap g chunks s).2 := by
  induction chunks generalizing s with
  | nil => rfl
  | cons c l ih => rw [List.foldl_cons, ih]; rfl

/-- The trait tells whether the functor refers to its argument. -/
theorem C101_trait_partial {f : FSig} (hk : f.kind = .templ ∨ f.kind = .single) (hv : f.void = true) :
    argImmutable f = some (decide (¬Refers f)) := by
  obtain ⟨k, p, c, v⟩ := f
  simp only at hk hv
  subst hv
  rcases hk with rfl | rfl <;> cases p <;> cases c <;> decide

/-- Functors with a single call operator (a template or not) that can be called and return `void`: what they do to the pieces of the range
is stored exactly if their parameter is a reference to a variable. -/
theorem C101_stores_partial {α σ : Type} (w : Nat) (hw : 0 < w) {f : FSig} (hk : f.kind = .templ ∨ f.kind = .single) (hv : f.void = true)
    (hc : callable (w == 1) f = true) (g : List α → σ → List α × σ) (hg : ∀ c s, (g c s).1.length = c.length)
    (mem : List α) (first last : Nat) (h1 : first ≤ last) (h2 : last ≤ mem.length) (s : σ) :
    ForEachOk w f g first last mem s (forEachAny w hw f g first last mem s) := by
  unfold ForEachOk forEachAny
  rw [if_pos hc, C101_trait_partial hk hv]
  by_cases hr : Refers f
  · obtain ⟨chunks, hch, e⟩ := C10_for_each_mut w hw g hg mem first last h1 h2 s
    refine ⟨chunks, hch, ?_⟩
    rw [if_pos hr, decide_eq_false (fun h => h hr)]
    simp only [e]
  · obtain ⟨chunks, hch, e⟩ := C10_for_each_const w hw (fun v s => (g v s).2) mem first last h1 h2 s
    refine ⟨chunks, hch, ?_⟩
    rw [if_neg hr, decide_eq_true hr]
    simp only [e, seqMap_state, Option.map_some]

/-- Programs that cannot call the functor are rejected. -/
theorem C101_rejects {α σ : Type} (w : Nat) (hw : 0 < w) {f : FSig} (hc : callable (w == 1) f = false) (g : List α → σ → List α × σ)
    (mem : List α) (first last : Int) (s : σ) : forEachAny w hw f g first last mem s = .reject := by
  unfold forEachAny
  rw [if_neg (by rw [hc]; exact Bool.false_ne_true)]

/-- But so are programs that can: functors that return a value, functors with overloads for the two types of arguments, and functions. -/
theorem C101_accepts_violated {α σ : Type} (w : Nat) (hw : 0 < w) (g : List α → σ → List α × σ) (mem : List α) (first last : Int) (s : σ) :
    (∀ f : FSig, f.void = false ∨ f.kind = .overloaded ∨ f.kind = .pointer → forEachAny w hw f g first last mem s = .reject) ∧
    callable (w == 1) ⟨.templ, .lref, false, false⟩ = true ∧ callable (w == 1) ⟨.overloaded, .lref, false, true⟩ = true ∧
    callable (1 == 1) ⟨.pointer, .lref, false, true⟩ = true := by
  refine ⟨fun f h => ?_, rfl, rfl, rfl⟩
  have hn : argImmutable f = none := by
    obtain ⟨k, p, c, v⟩ := f
    simp only at h
    rcases h with rfl | rfl | rfl
    · cases k <;> cases p <;> cases c <;> rfl
    · rfl
    · rfl
  unfold forEachAny
  rw [hn]
  split <;> rfl

/-- The example of the documentation, `[&](auto v) { v *= factor; }` in a function `scale`, changes nothing. -/
theorem C101_example_violated {α σ : Type} (w : Nat) (hw : 0 < w) (g : List α → σ → List α × σ) (hg : ∀ c s, (g c s).1.length = c.length)
    (mem : List α) (s : σ) : ∃ s', forEachAny w hw ⟨.templ, .value, false, true⟩ g 0 mem.length mem s = .run (some (mem, s')) := by
  obtain ⟨chunks, -, e⟩ := C101_stores_partial w hw (f := ⟨.templ, .value, false, true⟩) (.inl rfl) rfl rfl g hg mem 0 mem.length (Nat.zero_le _) (Nat.le_refl _) s
  rw [if_neg (by decide)] at e
  exact ⟨_, e⟩

/-! Concrete cases: `auto &x` and `auto &&x` refer to the argument, `auto x` and `const auto &x` do not. -/
example : Refers ⟨.templ, .lref, false, true⟩ ∧ Refers ⟨.templ, .rref, false, true⟩ ∧ ¬Refers ⟨.templ, .value, false, true⟩ ∧
    ¬Refers ⟨.templ, .lref, true, true⟩ ∧ callable false ⟨.templ, .rref, false, true⟩ = true ∧ callable false ⟨.templ, .rref, true, true⟩ = false := by decide
example : (∀ (c : List Nat) (s : Unit), ((fun (c : List Nat) (s : Unit) => (c.map (2 * ·), s)) c s).1.length = c.length) ∧ 1 ≤ 3 ∧ 3 ≤ [5, 6, 7, 8].length :=
  ⟨fun c _ => by simp, by decide, by decide⟩

end Vc.Prop
