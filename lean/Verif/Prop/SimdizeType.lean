import Verif.Model.SimdizeType

/-!
# C61: the types of simdized members

`replaceTypes E N MT T` is the type `simdize<T, N, MT>` (`N = 0`: the implementation chooses the number of
lanes, `MT = none`: it chooses the type of masks).
-/

namespace Vc.Prop
open Vc.Model Vc.Spec

/-- Vectors have at least one lane. -/
def SizeEnv.Pos (E : SizeEnv) : Prop := ∀ t, E.native t ≠ 0

private theorem arithSize_spec {E : SizeEnv} (hE : SizeEnv.Pos E) (t N : Nat) :
    arithSize E t N ≠ 0 ∧ (N ≠ 0 → arithSize E t N = N) := by
  unfold arithSize
  by_cases h : N = 0
  · rw [if_pos h]; exact ⟨hE t, fun c => absurd h c⟩
  · rw [if_neg h]
    split
    · rename_i e; rw [e]; exact ⟨h, fun _ => rfl⟩
    · exact ⟨h, fun _ => rfl⟩

/-- What the transformation of one type gives. -/
private def Good (N : Nat) (T : Ty) (v : VTy) : Prop :=
  v.scalar = T ∧ ((VTy.isSame v = true ∧ ¬ T.HasArith) ∨
    (VTy.isSame v = false ∧ VTy.sizeOr0 v ≠ 0 ∧ v.AllWidth (VTy.sizeOr0 v) ∧
      (N ≠ 0 → VTy.sizeOr0 v = N) ∧ T.HasArith))

private theorem allWidth_of_same {v : VTy} (n : Nat) (h : VTy.isSame v = true) : v.AllWidth n := by
  cases v <;> simp_all [VTy.isSame, VTy.AllWidth]

private theorem scalar_of_same {v : VTy} (h : VTy.isSame v = true) : v = .same v.scalar := by
  cases v <;> simp_all [VTy.isSame, VTy.scalar]

mutual
private theorem firstSize_none (nat : Nat → Nat) : ∀ T : Ty, ¬ T.HasArith → T.firstSize nat = none
  | .arith _, h => absurd trivial h
  | .bool, h => absurd trivial h
  | .other _, _ => rfl
  | .tmpl _ args, h => firstSizes_none nat args h
private theorem firstSizes_none (nat : Nat → Nat) : ∀ ts : List Ty, ¬ hasArith ts → firstSizes nat ts = none
  | [], _ => rfl
  | t :: ts, h => by
    rw [firstSizes, firstSize_none nat t (fun c => h (Or.inl c))]
    exact firstSizes_none nat ts (fun c => h (Or.inr c))
end

mutual
private theorem firstSize_pos {E : SizeEnv} (hE : SizeEnv.Pos E) : ∀ (T : Ty) (n : Nat),
    T.firstSize E.native = some n → n ≠ 0
  | .arith t, n, h => by cases h; exact hE t
  | .bool, n, h => by cases h; exact hE 0
  | .other _, n, h => by cases h
  | .tmpl _ args, n, h => firstSizes_pos hE args n h
private theorem firstSizes_pos {E : SizeEnv} (hE : SizeEnv.Pos E) : ∀ (ts : List Ty) (n : Nat),
    firstSizes E.native ts = some n → n ≠ 0
  | [], n, h => by cases h
  | t :: ts, n, h => by
    rw [firstSizes] at h
    split at h
    · rename_i m hm
      cases h
      exact firstSize_pos hE t _ hm
    · exact firstSizes_pos hE ts n h
end

mutual
private theorem replace_good {E : SizeEnv} (hE : SizeEnv.Pos E) : ∀ (T : Ty) (N : Nat) (MT : Option Ty)
    (v : VTy), replaceTypes E N MT T = some v → Good N T v
  | .arith t, N, MT, v, h => by
    simp only [replaceTypes, Option.some.injEq] at h
    subst h
    have := arithSize_spec hE t N
    exact ⟨rfl, Or.inr ⟨rfl, this.1, rfl, this.2, trivial⟩⟩
  | .bool, N, MT, v, h => by
    have key : ∀ t, v = .mask t (arithSize E t N) → Good N .bool v := by
      intro t e
      subst e
      have := arithSize_spec hE t N
      exact ⟨rfl, Or.inr ⟨rfl, this.1, rfl, this.2, trivial⟩⟩
    unfold replaceTypes at h
    split at h
    · exact key _ (Option.some.inj h).symm
    · exact key _ (Option.some.inj h).symm
    · cases h
  | .other s, N, MT, v, h => by
    simp only [replaceTypes, Option.some.injEq] at h
    subst h
    exact ⟨rfl, Or.inl ⟨rfl, fun c => c⟩⟩
  | .tmpl c args, N, MT, v, h => by
    unfold replaceTypes at h
    obtain ⟨⟨vs, n⟩, e, h⟩ := Option.bind_eq_some_iff.mp h
    obtain ⟨h1, h2, h3, h4, h5⟩ := subst_good hE args N MT vs n e
    simp only at h
    split at h
    · rename_i ha
      cases h
      exact ⟨rfl, Or.inl ⟨rfl, h4 ha⟩⟩
    · rename_i ha
      cases h
      have ha' : vs.all VTy.isSame = false := by simpa using ha
      exact ⟨by rw [VTy.scalar, h1], Or.inr ⟨rfl, (h5 ha').1, ⟨rfl, h2⟩, h3, (h5 ha').2⟩⟩

private theorem subst_good {E : SizeEnv} (hE : SizeEnv.Pos E) : ∀ (ts : List Ty) (N : Nat) (MT : Option Ty)
    (vs : List VTy) (n : Nat), substituteOneByOne E N MT ts = some (vs, n) →
      scalars vs = ts ∧ allWidth n vs ∧ (N ≠ 0 → n = N) ∧ (vs.all VTy.isSame = true → ¬ hasArith ts) ∧
        (vs.all VTy.isSame = false → n ≠ 0 ∧ hasArith ts)
  | [], N, MT, vs, n, h => by
    simp only [substituteOneByOne, Option.some.injEq, Prod.mk.injEq] at h
    obtain ⟨rfl, rfl⟩ := h
    exact ⟨rfl, trivial, fun _ => rfl, fun _ c => c, fun c => by cases c⟩
  | t :: ts, N, MT, vs, n, h => by
    unfold substituteOneByOne at h
    obtain ⟨v, e, h⟩ := Option.bind_eq_some_iff.mp h
    obtain ⟨⟨us, k⟩, e', h⟩ := Option.bind_eq_some_iff.mp h
    simp only [Option.some.injEq, Prod.mk.injEq] at h
    obtain ⟨rfl, rfl⟩ := h
    obtain ⟨g1, g2⟩ := replace_good hE t N MT v e
    obtain ⟨h1, h2, h3, h4, h5⟩ := subst_good hE ts (newN N v) _ us k e'
    refine ⟨by rw [scalars, g1, h1], ?_, ?_, ?_, ?_⟩
    · refine ⟨?_, h2⟩
      rcases g2 with ⟨a, -⟩ | ⟨-, b, c, d, -⟩
      · exact allWidth_of_same k a
      · by_cases hN : N = 0
        · have : newN N v = VTy.sizeOr0 v := by simp [newN, hN]
          rw [h3 (by rw [this]; exact b), this]
          exact c
        · have : newN N v = N := by simp [newN, hN]
          rw [h3 (by rw [this]; exact hN), this, ← d hN]
          exact c
    · intro hN
      have : newN N v = N := by simp [newN, hN]
      rw [h3 (by rw [this]; exact hN), this]
    · intro ha
      rw [List.all_cons, Bool.and_eq_true] at ha
      rcases g2 with ⟨-, a⟩ | ⟨b, -⟩
      · rintro (c | c)
        · exact a c
        · exact h4 ha.2 c
      · rw [ha.1] at b; cases b
    · intro ha
      rw [List.all_cons] at ha
      rcases g2 with ⟨a, -⟩ | ⟨-, b, -, d, e⟩
      · rw [a, Bool.true_and] at ha
        exact ⟨(h5 ha).1, Or.inr (h5 ha).2⟩
      · have hne : newN N v ≠ 0 := by
          unfold newN
          split
          · assumption
          · exact b
        rw [h3 hne]
        exact ⟨hne, Or.inl e⟩
end

/-- `simdize<T, N>` is `T` itself if `T` contains no vectorizable type. Otherwise all vectors and masks that
replace the arithmetic types and all (nested) adapters have the same number of lanes, and this number is `N`
if `N` was given. Replacing the vectors and masks by the scalar types again gives `T`. -/
theorem C61_same_width {E : SizeEnv} (hE : SizeEnv.Pos E) (T : Ty) (N : Nat) (MT : Option Ty)
    (v : VTy) (h : replaceTypes E N MT T = some v) :
    v.scalar = T ∧ (¬ T.HasArith → v = .same T) ∧
      (T.HasArith → (∀ U, v ≠ .same U) ∧ ∃ n, n ≠ 0 ∧ v.AllWidth n ∧ (N ≠ 0 → n = N)) := by
  obtain ⟨g1, g2⟩ := replace_good hE T N MT v h
  refine ⟨g1, ?_, ?_⟩
  · intro hn
    rcases g2 with ⟨a, -⟩ | ⟨-, -, -, -, b⟩
    · rw [scalar_of_same a, g1]
    · exact absurd b hn
  · intro hn
    rcases g2 with ⟨-, a⟩ | ⟨a, b, c, d, -⟩
    · exact absurd hn a
    · refine ⟨?_, _, b, c, d⟩
      intro U e
      rw [e] at a
      cases a

/-- SSE: 4 floats, 2 doubles, 8 shorts. -/
def exSizes : SizeEnv := ⟨fun t => if t = 1 then 2 else if t = 2 then 8 else 4, fun _ n => if n % 4 = 0 then 4 else 1⟩

/-- `simdize<tuple<float, pair<bool, double>, string>>` with 4 lanes. -/
example : SizeEnv.Pos exSizes ∧
    replaceTypes exSizes 0 none (.tmpl 0 [.arith 0, .tmpl 1 [.bool, .arith 1], .other 0]) =
      some (.adapter 0 [.vec 0 4, .adapter 1 [.mask 0 4, .vec 1 4] 4, .same (.other 0)] 4) := by
  refine ⟨?_, ?_⟩
  · intro t; unfold exSizes; simp only; split
    · decide
    · split <;> decide
  · simp [replaceTypes, substituteOneByOne, newN, newMT, VTy.sizeOr0, arithSize, exSizes, VTy.isSame]

/-! ### The number of lanes if none is given -/

mutual
private theorem replace_first {E : SizeEnv} (hE : SizeEnv.Pos E) : ∀ (T : Ty) (v : VTy), T.NoSize →
    replaceTypes E 0 none T = some v → VTy.sizeOr0 v = (T.firstSize E.native).getD 0
  | .arith t, v, _, h => by
    simp only [replaceTypes, Option.some.injEq] at h
    subst h
    simp [VTy.sizeOr0, arithSize, Ty.firstSize]
  | .bool, v, _, h => by
    simp only [replaceTypes, Option.some.injEq] at h
    subst h
    simp [VTy.sizeOr0, arithSize, Ty.firstSize, tyFloat]
  | .other s, v, hs, h => by
    simp only [replaceTypes, Option.some.injEq] at h
    subst h
    exact hs
  | .tmpl c args, v, hs, h => by
    unfold replaceTypes at h
    obtain ⟨⟨vs, n⟩, e, h⟩ := Option.bind_eq_some_iff.mp h
    have hn := subst_first hE args vs n hs e
    have hg := subst_good hE args 0 none vs n e
    simp only at h
    split at h
    · rename_i ha
      cases h
      have : (firstSizes E.native args) = none := firstSizes_none _ args (hg.2.2.2.1 ha)
      rw [Ty.firstSize, this]
      rfl
    · cases h
      exact hn

private theorem subst_first {E : SizeEnv} (hE : SizeEnv.Pos E) : ∀ (ts : List Ty) (vs : List VTy) (n : Nat),
    noSize ts → substituteOneByOne E 0 none ts = some (vs, n) → n = (firstSizes E.native ts).getD 0
  | [], vs, n, _, h => by
    simp only [substituteOneByOne, Option.some.injEq, Prod.mk.injEq] at h
    exact h.2.symm
  | t :: ts, vs, n, hs, h => by
    unfold substituteOneByOne at h
    obtain ⟨v, e, h⟩ := Option.bind_eq_some_iff.mp h
    obtain ⟨⟨us, k⟩, e', h⟩ := Option.bind_eq_some_iff.mp h
    simp only [Option.some.injEq, Prod.mk.injEq] at h
    obtain ⟨rfl, rfl⟩ := h
    have hv := replace_first hE t v hs.1 e
    have hN : newN 0 v = VTy.sizeOr0 v := by simp [newN]
    cases ht : t.firstSize E.native with
    | some m =>
      rw [ht, Option.getD_some] at hv
      have hm : m ≠ 0 := firstSize_pos hE t m ht
      have := (subst_good hE ts _ _ us k e').2.2.1 (by rw [hN, hv]; exact hm)
      rw [this, hN, hv, firstSizes, ht]
      rfl
    | none =>
      rw [ht, Option.getD_none] at hv
      have hM : newMT 0 none v t = none := by unfold newMT; rw [hN, hv]; simp
      rw [hN, hv, hM] at e'
      rw [firstSizes, ht]
      exact subst_first hE ts us k hs.2 e'
end

/-- If no number of lanes is given, the first vectorizable type in the order of the template arguments
(also within nested instances) determines it: all vectors, masks and adapters have as many lanes as the
native vector of this type, `bool` counting as `float`. -/
theorem C61_first_width {E : SizeEnv} (hE : SizeEnv.Pos E) (T : Ty) (hs : T.NoSize) (n : Nat)
    (hn : T.firstSize E.native = some n) (v : VTy) (h : replaceTypes E 0 none T = some v) : v.AllWidth n := by
  have e := replace_first hE T v hs h
  rw [hn, Option.getD_some] at e
  rcases (replace_good hE T 0 none v h).2 with ⟨a, -⟩ | ⟨-, -, c, -, -⟩
  · exact allWidth_of_same n a
  · rw [e] at c; exact c

/-- `simdize<tuple<pair<string, string>, tuple<double>, float>>` has as many lanes as `Vector<double>`. -/
example : (Ty.tmpl 0 [.tmpl 1 [.other 0, .other 0], .tmpl 0 [.arith 1], .arith 0]).NoSize ∧
    (Ty.tmpl 0 [.tmpl 1 [.other 0, .other 0], .tmpl 0 [.arith 1], .arith 0]).firstSize exSizes.native = some 2 ∧
    replaceTypes exSizes 0 none (.tmpl 0 [.tmpl 1 [.other 0, .other 0], .tmpl 0 [.arith 1], .arith 0]) =
      some (.adapter 0 [.same (.tmpl 1 [.other 0, .other 0]), .adapter 0 [.vec 1 2] 2, .vec 0 2] 2) := by
  refine ⟨by simp [Ty.NoSize, noSize], by simp [Ty.firstSize, firstSizes, exSizes], ?_⟩
  simp [replaceTypes, substituteOneByOne, newN, VTy.sizeOr0, arithSize, exSizes, VTy.isSame]

/-! ### Which types can be simdized -/

mutual
private theorem replace_some {E : SizeEnv} : ∀ (T : Ty) (N : Nat) (MT : Option Ty),
    (N ≠ 0 ∧ MT = none) ∨ (∃ t, MT = some (.arith t)) → (replaceTypes E N MT T).isSome
  | .arith t, N, MT, _ => by simp [replaceTypes]
  | .bool, N, MT, h => by
    rcases h with ⟨-, rfl⟩ | ⟨t, rfl⟩ <;> simp [replaceTypes]
  | .other s, N, MT, _ => by simp [replaceTypes]
  | .tmpl c args, N, MT, h => by
    obtain ⟨⟨vs, n⟩, e⟩ := Option.isSome_iff_exists.mp (subst_some (E := E) args N MT h)
    unfold replaceTypes
    rw [e]
    simp only [Option.bind_eq_bind, Option.bind_some]
    split <;> rfl

private theorem subst_some {E : SizeEnv} : ∀ (ts : List Ty) (N : Nat) (MT : Option Ty),
    (N ≠ 0 ∧ MT = none) ∨ (∃ t, MT = some (.arith t)) → (substituteOneByOne E N MT ts).isSome
  | [], N, MT, _ => by simp [substituteOneByOne]
  | t :: ts, N, MT, h => by
    obtain ⟨v, e⟩ := Option.isSome_iff_exists.mp (replace_some (E := E) t N MT h)
    have h' : (newN N v ≠ 0 ∧ newMT N MT v t = none) ∨ (∃ u, newMT N MT v t = some (.arith u)) := by
      rcases h with ⟨hN, rfl⟩ | ⟨u, rfl⟩
      · left
        have : newN N v = N := by simp [newN, hN]
        refine ⟨by rw [this]; exact hN, ?_⟩
        unfold newMT
        rw [this]
        simp
      · right
        exact ⟨u, by simp [newMT]⟩
    obtain ⟨⟨vs, n⟩, e'⟩ := Option.isSome_iff_exists.mp (subst_some (E := E) ts (newN N v) _ h')
    unfold substituteOneByOne
    rw [e]
    simp only [Option.bind_eq_bind, Option.bind_some]
    rw [e']
    rfl
end

/-- Every type can be simdized if the number of lanes or an arithmetic type for the masks is given. -/
theorem C61_defined_partial (E : SizeEnv) (T : Ty) (N : Nat) (MT : Option Ty)
    (h : (N ≠ 0 ∧ MT = none) ∨ (∃ t, MT = some (.arith t))) : (replaceTypes E N MT T).isSome :=
  replace_some T N MT h

example : (4 ≠ 0 ∧ (none : Option Ty) = none) ∨ (∃ t, (none : Option Ty) = some (.arith t)) :=
  Or.inl ⟨by decide, rfl⟩

private theorem subst_flat {E : SizeEnv} : ∀ (ts : List Ty) (N : Nat) (MT : Option Ty),
    (∀ t ∈ ts, t.Flat) → noSize ts → (MT = none ∨ ∃ t, MT = some (.arith t)) →
      (substituteOneByOne E N MT ts).isSome
  | [], N, MT, _, _, _ => by simp [substituteOneByOne]
  | t :: ts, N, MT, hf, hs, h => by
    have h0 : ∃ v, replaceTypes E N MT t = some v ∧ (newMT N MT v t = none ∨ ∃ u, newMT N MT v t = some (.arith u)) := by
      have ht := hf t List.mem_cons_self
      have hs' := hs.1
      cases t with
      | arith u =>
        refine ⟨.vec u (arithSize E u N), by simp [replaceTypes], ?_⟩
        unfold newMT
        split
        · exact Or.inr ⟨u, rfl⟩
        · exact h
      | bool =>
        have key : ∀ v : VTy, newMT N MT v .bool = none ∨ ∃ u, newMT N MT v .bool = some (.arith u) := by
          intro v
          unfold newMT
          split
          · exact Or.inr ⟨tyFloat, rfl⟩
          · exact h
        rcases h with rfl | ⟨u, rfl⟩
        · exact ⟨_, by simp only [replaceTypes]; rfl, key _⟩
        · exact ⟨_, by simp only [replaceTypes]; rfl, key _⟩
      | other s =>
        refine ⟨.same (.other s), by simp [replaceTypes], ?_⟩
        have : s = 0 := hs'
        subst this
        have e : newN N (.same (.other 0)) = N := by
          by_cases hN : N = 0 <;> simp [newN, VTy.sizeOr0, hN]
        unfold newMT
        rw [e, if_neg (fun c => c.1 rfl)]
        exact h
      | tmpl c args => exact absurd ht (fun c => c)
    obtain ⟨v, e, h'⟩ := h0
    obtain ⟨⟨vs, n⟩, e'⟩ := Option.isSome_iff_exists.mp (subst_flat (E := E) ts (newN N v) _
      (fun u hu => hf u (List.mem_cons_of_mem _ hu)) hs.2 h')
    unfold substituteOneByOne
    rw [e]
    simp only [Option.bind_eq_bind, Option.bind_some]
    rw [e']
    rfl

/-- A class template whose arguments are not class template instances can be simdized without further
arguments. Missing: nested class templates, for which the claim is false, see below. -/
theorem C61_defined_flat_partial (E : SizeEnv) (c : Nat) (args : List Ty) (hf : ∀ t ∈ args, t.Flat)
    (hs : noSize args) : (replaceTypes E 0 none (.tmpl c args)).isSome := by
  obtain ⟨⟨vs, n⟩, e⟩ := Option.isSome_iff_exists.mp (subst_flat (E := E) args 0 none hf hs (Or.inl rfl))
  unfold replaceTypes
  rw [e]
  simp only [Option.bind_eq_bind, Option.bind_some]
  split <;> rfl

example : (∀ t ∈ [Ty.bool, .arith 1, .other 0], t.Flat) ∧ noSize [.bool, .arith 1, .other 0] :=
  ⟨by simp [Ty.Flat], by simp [noSize, Ty.NoSize]⟩

/-- `simdize<tuple<tuple<t>, bool>>` does not compile, for any arithmetic type `t`: the type of the first
member becomes the mask type, but its simdized type has no `mask_type`. -/
theorem C61_nested_bool_violated (E : SizeEnv) (hE : SizeEnv.Pos E) (c d t : Nat) :
    replaceTypes E 0 none (.tmpl c [.tmpl d [.arith t], .bool]) = none := by
  have h0 := hE t
  have h1 : ¬ (0 = E.native t) := fun e => h0 e.symm
  simp [replaceTypes, substituteOneByOne, newN, newMT, VTy.sizeOr0, arithSize, VTy.isSame, h0, h1]

end Vc.Prop
