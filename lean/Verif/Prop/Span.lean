import Verif.Model.Span
import Mathlib.Data.List.Basic

/-!
C85: spans.
-/

namespace Vc.Spec
open Vc.Model

/-- The span lies in an array of `n` entries. -/
def SpanValid (n : Nat) (s : Span) : Prop := 0 ≤ s.ptr ∧ 0 ≤ s.size ∧ s.ptr + s.size ≤ n

/-- The entries of the span. -/
def spanView {α : Type} (mem : List α) (s : Span) : List α := (mem.drop s.ptr.toNat).take s.size.toNat

/-- The arguments are in range, as the specification of `std::span` demands; -1 stands for the rest. -/
def SpanInRange (n : Nat) : SpanOp → Prop
  | .firstT c | .lastT c | .first c | .last c => 0 ≤ c ∧ c ≤ n
  | .subspanT o c | .subspan o c => 0 ≤ o ∧ o ≤ n ∧ (c = -1 ∨ (0 ≤ c ∧ o + c ≤ n))

/-- The part of the entries that the function returns. -/
def spanPart {α : Type} (l : List α) : SpanOp → List α
  | .firstT c | .first c => l.take c.toNat
  | .lastT c | .last c => l.drop (l.length - c.toNat)
  | .subspanT o c | .subspan o c => if c = -1 then l.drop o.toNat else (l.drop o.toNat).take c.toNat

/-- The same number of entries, and all of them equal. -/
def AllEqual {α : Type} (eq : α → α → Bool) (l r : List α) : Prop :=
  l.length = r.length ∧ ∀ (j : Nat) (a b : α), l[j]? = some a → r[j]? = some b → eq a b = true

/-- The first difference decides: `l` comes before `r` in the lexicographic order. -/
def LexLess {α : Type} (lt : α → α → Bool) (l r : List α) : Prop :=
  ∃ k : Nat, (∀ j < k, ∃ a b, l[j]? = some a ∧ r[j]? = some b ∧ lt a b = false ∧ lt b a = false) ∧
    ∃ b, r[k]? = some b ∧ (l[k]? = none ∨ ∃ a, l[k]? = some a ∧ lt a b = true)

end Vc.Spec

namespace Vc.Prop
open Vc.Model Vc.Spec

/-- `subspan<Offset, Count>()` with an explicit `Count` checks less. -/
def checkedOp : SpanOp → Bool
  | .subspanT _ c => c == -1
  | _ => true

theorem view_length {α : Type} {mem : List α} {s : Span} (h : SpanValid mem.length s) : (spanView mem s).length = s.size.toNat := by
  obtain ⟨h1, h2, h3⟩ := h
  unfold spanView
  rw [List.length_take, List.length_drop]
  omega

theorem view_first {α : Type} {mem : List α} {s : Span} (h : SpanValid mem.length s) {c : Int} (h0 : 0 ≤ c) (h1 : c ≤ s.size) (b : Bool) :
    SpanValid mem.length ⟨s.ptr, c, b⟩ ∧ spanView mem ⟨s.ptr, c, b⟩ = (spanView mem s).take c.toNat := by
  obtain ⟨g1, g2, g3⟩ := h
  refine ⟨⟨g1, h0, by show s.ptr + c ≤ _; omega⟩, ?_⟩
  unfold spanView
  rw [List.take_take]
  congr 1
  show c.toNat = _
  omega

theorem view_sub {α : Type} {mem : List α} {s : Span} (h : SpanValid mem.length s) {o c : Int} (h0 : 0 ≤ o) (h1 : 0 ≤ c) (h2 : o + c ≤ s.size) (b : Bool) :
    SpanValid mem.length ⟨s.ptr + o, c, b⟩ ∧ spanView mem ⟨s.ptr + o, c, b⟩ = ((spanView mem s).drop o.toNat).take c.toNat := by
  obtain ⟨g1, g2, g3⟩ := h
  refine ⟨⟨by show 0 ≤ s.ptr + o; omega, h1, by show s.ptr + o + c ≤ _; omega⟩, ?_⟩
  unfold spanView
  rw [List.drop_take, List.take_take, List.drop_drop]
  show List.take c.toNat (List.drop (s.ptr + o).toNat mem) = _
  congr 1
  · omega
  · congr 1; omega

theorem view_rest {α : Type} {mem : List α} {s : Span} (h : SpanValid mem.length s) {o : Int} (h0 : 0 ≤ o) (h2 : o ≤ s.size) (b : Bool) :
    SpanValid mem.length ⟨s.ptr + o, s.size - o, b⟩ ∧ spanView mem ⟨s.ptr + o, s.size - o, b⟩ = (spanView mem s).drop o.toNat := by
  have := view_sub h h0 (c := s.size - o) (by omega) (by omega) b
  refine ⟨this.1, this.2.trans (List.take_of_length_le ?_)⟩
  rw [List.length_drop, view_length h]
  omega

theorem view_last {α : Type} {mem : List α} {s : Span} (h : SpanValid mem.length s) {c : Int} (h0 : 0 ≤ c) (h1 : c ≤ s.size) (b : Bool) :
    SpanValid mem.length ⟨s.ptr + s.size - c, c, b⟩ ∧
    spanView mem ⟨s.ptr + s.size - c, c, b⟩ = (spanView mem s).drop ((spanView mem s).length - c.toNat) := by
  have := view_rest h (o := s.size - c) (by omega) (by omega) b
  rw [show s.size - (s.size - c) = c by omega, show s.ptr + (s.size - c) = s.ptr + s.size - c by omega] at this
  refine ⟨this.1, this.2.trans ?_⟩
  rw [view_length h]
  congr 1
  omega

theorem sub_sound {s t : Span} {o c : Int} (h : s.subspan o c = .ok t) : (0 ≤ o ∧ o ≤ s.size) ∧
    ((c = -1 ∧ t = ⟨s.ptr + o, s.size - o, false⟩) ∨ (c ≠ -1 ∧ 0 ≤ c ∧ o + c ≤ s.size ∧ t = ⟨s.ptr + o, c, false⟩)) := by
  unfold Span.subspan at h
  split at h
  case isFalse => cases h
  case isTrue ho =>
    refine ⟨ho, ?_⟩
    split at h
    case isFalse => cases h
    case isTrue hc =>
      split at h
      case isTrue e => cases h; exact Or.inl ⟨e, rfl⟩
      case isFalse e =>
        unfold ptrdiffAdd at h
        split at h
        case h_1 => cases h
        case h_2 f hf =>
          split at hf <;> cases hf
          split at h
          case isFalse => cases h
          case isTrue g =>
            cases h
            have e' : c ≠ -1 := e
            have hc' : (0 ≤ c ∧ c ≤ s.size) ∨ c = -1 := hc
            exact Or.inr ⟨e, by omega, g, rfl⟩

/-- Whatever a call returns is a part of the span, the one that was asked for.  It is accepted only if it is in range; for
`subspan<Offset, Count>()` with an explicit `Count` that is not checked and has to be assumed. -/
theorem C85_part_partial {α : Type} {mem : List α} {s t : Span} (h : SpanValid mem.length s) {op : SpanOp}
    (hc : checkedOp op = true ∨ SpanInRange s.size.toNat op) (hr : s.step op = .ok t) :
    SpanInRange s.size.toNat op ∧ SpanValid mem.length t ∧ spanView mem t = spanPart (spanView mem s) op := by
  have hs := h.2.1
  cases op with
  | firstT c =>
    have : (0 ≤ c ∧ c ≤ s.size) ∧ t = ⟨s.ptr, c, true⟩ := by
      change s.firstT c = _ at hr
      unfold Span.firstT at hr
      repeat' split at hr
      all_goals first | (cases hr; exact ⟨by omega, rfl⟩) | cases hr
    obtain ⟨⟨h0, h1⟩, rfl⟩ := this
    exact ⟨⟨h0, by omega⟩, view_first h h0 h1 _⟩
  | lastT c =>
    have : (0 ≤ c ∧ c ≤ s.size) ∧ t = ⟨s.ptr + s.size - c, c, true⟩ := by
      change s.lastT c = _ at hr
      unfold Span.lastT at hr
      repeat' split at hr
      all_goals first | (cases hr; exact ⟨by omega, rfl⟩) | cases hr
    obtain ⟨⟨h0, h1⟩, rfl⟩ := this
    exact ⟨⟨h0, by omega⟩, view_last h h0 h1 _⟩
  | first c =>
    have : (0 ≤ c ∧ c ≤ s.size) ∧ t = ⟨s.ptr, c, false⟩ := by
      change s.first c = _ at hr
      unfold Span.first at hr
      repeat' split at hr
      all_goals first | (cases hr; exact ⟨by omega, rfl⟩) | cases hr
    obtain ⟨⟨h0, h1⟩, rfl⟩ := this
    exact ⟨⟨h0, by omega⟩, view_first h h0 h1 _⟩
  | last c =>
    have : (0 ≤ c ∧ c ≤ s.size) ∧ t = ⟨s.ptr + s.size - c, c, false⟩ := by
      change s.last c = _ at hr
      unfold Span.last at hr
      repeat' split at hr
      all_goals first | (cases hr; exact ⟨by omega, rfl⟩) | cases hr
    obtain ⟨⟨h0, h1⟩, rfl⟩ := this
    exact ⟨⟨h0, by omega⟩, view_last h h0 h1 _⟩
  | subspan o c =>
    obtain ⟨⟨h0, h1⟩, ⟨e, rfl⟩ | ⟨e, h2, h3, rfl⟩⟩ := sub_sound (show s.subspan o c = _ from hr)
    · refine ⟨⟨h0, by omega, Or.inl e⟩, ?_⟩
      have := view_rest h h0 h1 false
      simpa [spanPart, e] using this
    · refine ⟨⟨h0, by omega, Or.inr ⟨h2, by omega⟩⟩, ?_⟩
      have := view_sub h h0 h2 h3 false
      simpa [spanPart, e] using this
  | subspanT o c =>
    have hcr : c = -1 ∨ (0 ≤ c ∧ o + c ≤ s.size) := by
      rcases hc with hc | hc
      · exact Or.inl (by simpa [checkedOp] using hc)
      · rcases hc.2.2 with g | g
        · exact Or.inl g
        · exact Or.inr ⟨g.1, by omega⟩
    have : (0 ≤ o ∧ o ≤ s.size) ∧ ∃ b, t = ⟨s.ptr + o, if c = -1 then s.size - o else c, b⟩ := by
      change (if s.isStatic = true then s.subspanStaticT o c else s.subspanDynamicT o c) = _ at hr
      split at hr
      · unfold Span.subspanStaticT at hr
        dsimp only at hr
        generalize (if c ≠ dynamicExtent then c else s.size - o) = e at hr
        split at hr
        · cases hr
        · split at hr
          case isFalse => cases hr
          case isTrue g => cases hr; exact ⟨g, _, rfl⟩
      · unfold Span.subspanDynamicT at hr
        split at hr
        case isFalse => cases hr
        case isTrue g =>
          refine ⟨g, false, ?_⟩
          split at hr
          case isTrue e => cases hr; rw [if_pos (show c = -1 from e)]
          case isFalse e =>
            rw [if_neg (show ¬ c = -1 from e)]
            split at hr
            · cases hr
            · split at hr
              · cases hr; rfl
              · cases hr
    obtain ⟨⟨h0, h1⟩, b, rfl⟩ := this
    rcases hcr with e | ⟨h2, h3⟩
    · refine ⟨⟨h0, by omega, Or.inl e⟩, ?_⟩
      have := view_rest h h0 h1 b
      simpa [spanPart, e] using this
    · have e : ¬ c = -1 := by omega
      refine ⟨⟨h0, by omega, Or.inr ⟨h2, by omega⟩⟩, ?_⟩
      have := view_sub h h0 h2 h3 b
      simpa [spanPart, e] using this

/-- Calls with arguments in range are accepted, and only those (but for `subspan<Offset, Count>()`); the others are
assertion failures or do not compile. -/
theorem C85_accepted {n : Nat} {s : Span} (h : SpanValid n s) (hn : n < 2 ^ 63) {op : SpanOp} (hr : SpanInRange s.size.toNat op) :
    ∃ t, s.step op = .ok t := by
  obtain ⟨h1, h2, h3⟩ := h
  cases op with
  | firstT c =>
    have := hr.1; have := hr.2
    show ∃ t, s.firstT c = _
    unfold Span.firstT
    rw [if_neg (by omega)]
    split <;> rw [if_pos (by omega)] <;> exact ⟨_, rfl⟩
  | lastT c =>
    have := hr.1; have := hr.2
    show ∃ t, s.lastT c = _
    unfold Span.lastT
    rw [if_neg (by omega)]
    split <;> rw [if_pos (by omega)] <;> exact ⟨_, rfl⟩
  | first c =>
    have := hr.1; have := hr.2
    show ∃ t, s.first c = _
    unfold Span.first
    rw [if_pos (by omega)]; exact ⟨_, rfl⟩
  | last c =>
    have := hr.1; have := hr.2
    show ∃ t, s.last c = _
    unfold Span.last
    rw [if_pos (by omega)]; exact ⟨_, rfl⟩
  | subspan o c =>
    obtain ⟨r1, r2, r3⟩ := hr
    show ∃ t, s.subspan o c = _
    unfold Span.subspan dynamicExtent ptrdiffAdd
    rw [if_pos (by omega), if_pos (by omega)]
    split
    · exact ⟨_, rfl⟩
    · rw [if_pos (by omega)]
      dsimp only
      rw [if_pos (by omega)]; exact ⟨_, rfl⟩
  | subspanT o c =>
    obtain ⟨r1, r2, r3⟩ := hr
    show ∃ t, (if s.isStatic = true then s.subspanStaticT o c else s.subspanDynamicT o c) = _
    split
    · unfold Span.subspanStaticT dynamicExtent
      dsimp only
      rw [if_neg (by split <;> omega), if_pos (by omega)]; exact ⟨_, rfl⟩
    · unfold Span.subspanDynamicT dynamicExtent ptrdiffAdd
      rw [if_pos (by omega)]
      split
      · exact ⟨_, rfl⟩
      · rw [if_pos (by omega)]
        dsimp only
        rw [if_pos (by omega)]; exact ⟨_, rfl⟩

/-- Any sequence of calls that is accepted stays in the array, and returns the part of the part ... of the entries. -/
theorem C85_chain_partial {α : Type} {mem : List α} {s t : Span} (h : SpanValid mem.length s) {ops : List SpanOp}
    (hc : ∀ op ∈ ops, checkedOp op = true) (hr : s.run ops = .ok t) :
    SpanValid mem.length t ∧ spanView mem t = ops.foldl spanPart (spanView mem s) := by
  induction ops generalizing s with
  | nil => cases hr; exact ⟨h, rfl⟩
  | cons op ops ih =>
    change (s.step op).bind _ = _ at hr
    cases hu : s.step op with
    | ok u =>
      rw [hu] at hr
      obtain ⟨-, hv, he⟩ := C85_part_partial h (Or.inl (hc op (by simp))) hu
      obtain ⟨g1, g2⟩ := ih hv (fun o ho => hc o (by simp [ho])) hr
      exact ⟨g1, by rw [g2, he]; rfl⟩
    | assertion => rw [hu] at hr; cases hr
    | illFormed => rw [hu] at hr; cases hr
    | overflow => rw [hu] at hr; cases hr

/-- `subspan<3, 4>()` of a span with static extent 5 is accepted and goes beyond the array; so is `subspan<0, -5>()` of a
span with dynamic extent, which has a negative size. -/
theorem C85_subspan_violated :
    (SpanValid 5 ⟨0, 5, true⟩ ∧ (⟨0, 5, true⟩ : Span).step (.subspanT 3 4) = .ok ⟨3, 4, true⟩ ∧ ¬ SpanValid 5 ⟨3, 4, true⟩) ∧
    (SpanValid 5 ⟨0, 5, false⟩ ∧ (⟨0, 5, false⟩ : Span).step (.subspanT 0 (-5)) = .ok ⟨0, -5, false⟩ ∧ ¬ SpanValid 5 ⟨0, -5, false⟩) := by
  unfold SpanValid; decide

/-- Entries: `s[i]` is entry `i`, an assertion failure outside of the span. -/
theorem C85_at {α : Type} {mem : List α} {s : Span} (h : SpanValid mem.length s) (i : Int) :
    (∀ p, s.at i = .ok p → 0 ≤ i ∧ i < s.size ∧ 0 ≤ p ∧ mem[p.toNat]? = (spanView mem s)[i.toNat]? ∧ (mem[p.toNat]?).isSome = true) ∧
    (0 ≤ i → i < s.size → ∃ p, s.at i = .ok p) := by
  obtain ⟨h1, h2, h3⟩ := h
  unfold Span.at
  constructor
  · intro p hp
    split at hp
    case isFalse => cases hp
    case isTrue g =>
      cases hp
      refine ⟨g.1, g.2, by omega, ?_, ?_⟩
      · unfold spanView
        rw [List.getElem?_take_of_lt (by omega), List.getElem?_drop]
        congr 1; omega
      · rw [List.getElem?_eq_getElem (by omega)]; rfl
  · intro h0 h1
    rw [if_pos ⟨h0, h1⟩]; exact ⟨_, rfl⟩

theorem walk_eq {α : Type} (mem : List α) : ∀ (n : Nat) (it : Int), 0 ≤ it → it + n ≤ mem.length →
    spanWalk mem it n = some ((mem.drop it.toNat).take n)
  | 0, it, _, _ => by simp [spanWalk]
  | n + 1, it, h0, h1 => by
    have hlt : it.toNat < mem.length := by omega
    unfold spanWalk
    rw [if_pos h0, walk_eq mem n (it + 1) (by omega) (by push_cast at h1; omega), List.getElem?_eq_getElem hlt,
      List.drop_eq_getElem_cons hlt, List.take_succ_cons, show (it + 1).toNat = it.toNat + 1 by omega]

theorem walkBack_eq {α : Type} (mem : List α) : ∀ (n : Nat) (it : Int), 0 ≤ it - n → it ≤ mem.length →
    spanWalkBack mem it n = some ((mem.drop (it - n).toNat).take n).reverse
  | 0, it, _, _ => by simp [spanWalkBack]
  | n + 1, it, h0, h1 => by
    have hlt : (it - 1).toNat < mem.length := by push_cast at h0; omega
    unfold spanWalkBack
    rw [if_pos (by push_cast at h0; omega), walkBack_eq mem n (it - 1) (by push_cast at h0; omega) (by omega), List.getElem?_eq_getElem hlt]
    simp only [Option.some.injEq]
    rw [show (it - 1 - (n : Int)).toNat = (it - ((n + 1 : Nat) : Int)).toNat by push_cast; congr 1; omega]
    rw [List.take_succ_eq_append_getElem (by rw [List.length_drop]; push_cast at h0 ⊢; omega), List.reverse_append, List.getElem_drop]
    simp only [List.reverse_singleton, List.singleton_append, List.cons.injEq, and_true]
    congr 1
    push_cast at h0 ⊢; omega

/-- Iteration: forwards the entries in order, backwards in reverse order, without leaving the array. -/
theorem C85_iterate {α : Type} {mem : List α} {s : Span} (h : SpanValid mem.length s) :
    s.forward mem = some (spanView mem s) ∧ s.backward mem = some (spanView mem s).reverse := by
  obtain ⟨h1, h2, h3⟩ := h
  constructor
  · exact walk_eq mem _ _ h1 (by omega)
  · unfold Span.backward spanView
    rw [walkBack_eq mem _ _ (by omega) (by omega)]
    congr 4
    omega

theorem stdEqual_iff {α : Type} (eq : α → α → Bool) : ∀ l r : List α, stdEqual eq l r = true ↔ AllEqual eq l r
  | [], [] => by simp [stdEqual, AllEqual]
  | [], _ :: _ => by simp [stdEqual, AllEqual]
  | _ :: _, [] => by simp [stdEqual, AllEqual]
  | a :: l, b :: r => by
    have ih := stdEqual_iff eq l r
    unfold stdEqual
    rw [Bool.and_eq_true, ih]
    unfold AllEqual
    constructor
    · rintro ⟨h1, h2, h3⟩
      refine ⟨by simp [h2], fun j => ?_⟩
      cases j with
      | zero => intro x y hx hy; simp at hx hy; subst hx; subst hy; exact h1
      | succ j => simpa using h3 j
    · rintro ⟨h1, h2⟩
      exact ⟨h2 0 a b rfl rfl, by simpa using h1, fun j => by simpa using h2 (j + 1)⟩

theorem stdLess_iff {α : Type} (lt : α → α → Bool) : ∀ l r : List α, stdLess lt l r = true ↔ LexLess lt l r
  | l, [] => by
    constructor
    · intro h
      cases l <;> cases h
    · rintro ⟨k, -, b, hb, -⟩
      simp at hb
  | [], b :: r => by
    refine ⟨fun _ => ⟨0, fun j hj => absurd hj (Nat.not_lt_zero j), b, rfl, Or.inl rfl⟩, fun _ => rfl⟩
  | a :: l, b :: r => by
    have ih := stdLess_iff lt l r
    unfold stdLess
    by_cases h1 : lt a b = true
    · rw [if_pos h1]
      exact ⟨fun _ => ⟨0, fun j hj => absurd hj (Nat.not_lt_zero j), b, rfl, Or.inr ⟨a, rfl, h1⟩⟩, fun _ => rfl⟩
    · rw [if_neg h1]
      have h1' : lt a b = false := by simpa using h1
      by_cases h2 : lt b a = true
      · rw [if_pos h2]
        constructor
        · intro h; cases h
        rintro ⟨k, hk, c, hc, hd⟩
        cases k with
        | zero =>
          simp only [List.getElem?_cons_zero, Option.some.injEq, reduceCtorEq, false_or] at hc hd
          subst hc
          obtain ⟨x, rfl, hx⟩ := hd
          exact absurd hx h1
        | succ k =>
          obtain ⟨x, y, hx, hy, -, h3⟩ := hk 0 (by omega)
          simp only [List.getElem?_cons_zero, Option.some.injEq] at hx hy
          subst hx; subst hy
          rw [h2] at h3; cases h3
      · rw [if_neg h2, ih]
        have h2' : lt b a = false := by simpa using h2
        constructor
        · rintro ⟨k, hk, c, hc, hd⟩
          refine ⟨k + 1, fun j hj => ?_, c, by simpa using hc, by simpa using hd⟩
          cases j with
          | zero => exact ⟨a, b, rfl, rfl, h1', h2'⟩
          | succ j => simpa using hk j (by omega)
        · rintro ⟨k, hk, c, hc, hd⟩
          cases k with
          | zero =>
            simp only [List.getElem?_cons_zero, Option.some.injEq, reduceCtorEq, false_or] at hc hd
            subst hc
            obtain ⟨x, rfl, hx⟩ := hd
            exact absurd hx h1
          | succ k =>
            refine ⟨k, fun j hj => by simpa using hk (j + 1) (by omega), c, by simpa using hc, by simpa using hd⟩

/-- Comparisons: `==` holds if the sizes and all entries are equal, `!=` is the negation of `==`, `<` is the lexicographic
order, `>` the reverse and `<=`, `>=` are the negations of `>`, `<`. -/
theorem C85_compare {α : Type} (eq lt : α → α → Bool) (hs : ∀ a b, eq a b = eq b a) (l r : List α) :
    (spanEq eq l r = true ↔ AllEqual eq l r) ∧
    (spanNe eq l r = true ↔ ¬ spanEq eq l r = true) ∧
    (spanLt lt l r = true ↔ LexLess lt l r) ∧ (spanGt lt l r = true ↔ LexLess lt r l) ∧
    (spanLe lt l r = true ↔ ¬ LexLess lt r l) ∧ (spanGe lt l r = true ↔ ¬ LexLess lt l r) := by
  have sym : spanEq eq r l = spanEq eq l r := by
    rw [Bool.eq_iff_iff]
    unfold spanEq
    rw [stdEqual_iff, stdEqual_iff]
    exact ⟨fun h => ⟨h.1.symm, fun j a b ha hb => by rw [hs]; exact h.2 j b a hb ha⟩,
      fun h => ⟨h.1.symm, fun j a b ha hb => by rw [hs]; exact h.2 j b a hb ha⟩⟩
  refine ⟨stdEqual_iff eq l r, ?_, stdLess_iff lt l r, stdLess_iff lt r l, ?_, ?_⟩
  · unfold spanNe; rw [sym]; simp
  · unfold spanLe; rw [← stdLess_iff lt r l]; simp [spanLt]
  · unfold spanGe; rw [← stdLess_iff lt l r]; simp [spanLt]

/-- Construction from a range or a pointer and a count, and the conversions between extents. -/
theorem C85_construct {α : Type} {mem : List α} {f l : Int} (h0 : 0 ≤ f) (h1 : f ≤ l) (h2 : l ≤ mem.length) :
    SpanValid mem.length (Span.ofRange f l) ∧ spanView mem (Span.ofRange f l) = (mem.drop f.toNat).take (l - f).toNat ∧
    Span.ofCount f (l - f) = Span.ofRange f l ∧
    (∀ e t, Span.ofRangeStatic e f l = .ok t → e = l - f ∧ SpanValid mem.length t ∧ spanView mem t = spanView mem (Span.ofRange f l)) ∧
    (∀ e t, Span.ofCountStatic e f (l - f) = .ok t → e = l - f ∧ SpanValid mem.length t ∧ spanView mem t = spanView mem (Span.ofRange f l)) ∧
    (∃ t, Span.ofRangeStatic (l - f) f l = .ok t) := by
  refine ⟨⟨h0, by show 0 ≤ l - f; omega, by show f + (l - f) ≤ _; omega⟩, rfl, rfl, ?_, ?_, ⟨_, if_pos rfl⟩⟩
  · intro e t ht
    unfold Span.ofRangeStatic at ht
    split at ht
    case isFalse => cases ht
    case isTrue g => cases ht; subst g; exact ⟨rfl, ⟨h0, by show 0 ≤ l - f; omega, by show f + (l - f) ≤ _; omega⟩, rfl⟩
  · intro e t ht
    unfold Span.ofCountStatic at ht
    split at ht
    case isFalse => cases ht
    case isTrue g => cases ht; subst g; exact ⟨rfl, ⟨h0, by show 0 ≤ l - f; omega, by show f + (l - f) ≤ _; omega⟩, rfl⟩

theorem C85_convert {α : Type} (mem : List α) (s : Span) :
    spanView mem s.toDynamic = spanView mem s ∧
    ∀ e t, Span.toStatic e s = .ok t → e = s.size ∧ t.size = e ∧ t.ptr = s.ptr ∧ spanView mem t = spanView mem s := by
  refine ⟨rfl, fun e t ht => ?_⟩
  unfold Span.toStatic at ht
  repeat' split at ht
  all_goals first | (rename_i g; cases ht; exact ⟨g, rfl, rfl, by subst g; rfl⟩) | cases ht

/-- `swap` exchanges the entries of two spans of the same type. -/
theorem C85_swap {a b : Span} (ht : a.isStatic = b.isStatic) (hs : a.isStatic = true → a.size = b.size) :
    spanSwap a b = (b, a) := by
  obtain ⟨p, n, x⟩ := a
  obtain ⟨q, m, y⟩ := b
  change x = y at ht; subst ht
  change x = true → n = m at hs
  unfold spanSwap
  cases x
  · rfl
  · have := hs rfl; subst this; rfl

/-! Concrete cases. -/
example : SpanValid 6 ⟨1, 5, true⟩ ∧ (⟨1, 5, true⟩ : Span).run [.lastT 4, .subspan 1 2, .first 1] = .ok ⟨3, 1, false⟩ ∧
    spanView [10, 11, 12, 13, 14, 15] ⟨3, 1, false⟩ = [13] := by unfold SpanValid; decide
example : SpanInRange 5 (.subspanT 3 2) ∧ ¬ SpanInRange 5 (.subspanT 3 4) := by unfold SpanInRange; decide
example : (⟨0, 5, true⟩ : Span).step (.subspan 3 4) = .assertion ∧ (⟨0, 5, true⟩ : Span).step (.firstT 6) = .illFormed := by decide
example : spanLt (fun a b : Nat => decide (a < b)) [1, 2] [1, 3, 0] = true ∧ spanLt (fun a b : Nat => decide (a < b)) [1, 2] [1, 2, 0] = true := by decide
example : spanSwap ⟨0, 3, false⟩ ⟨4, 2, false⟩ = (⟨4, 2, false⟩, ⟨0, 3, false⟩) := by decide

end Vc.Prop
