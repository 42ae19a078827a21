import Verif.Prop.ExCfg
import Verif.Lemma.SimdArrayReduce

/-!
# C14 to C17: SimdArray access, element-wise operations, reductions, prefix sums

`C.Valid` says that `C` is one of the possible compile-time environments, `SA.WF C n x` that
`x` is a value of type `SimdArray<T, n>`.
-/

namespace Vc.Prop
open Vc.Model Vc.Spec Vc.Lemma

variable {α β γ σ : Type _} {C : Cfg}

/-! ## C14 -/

/-- `x[i]` of an array loaded from `p` is `p[i]`, for all lanes. -/
theorem C14_load_get (hC : C.Valid) (mem : List α) (n p : Nat) (hn : 1 ≤ n)
    (hp : p + n ≤ mem.length) :
    ∃ x, SA.load C mem n p = some x ∧ SA.WF C n x ∧
      ∀ i, i < n → x.get C (i : Int) = mem[p + i]? := by
  obtain ⟨x, e, w, t⟩ := load_wf hC mem n hn p hp
  refine ⟨x, e, w, fun i hi => ?_⟩
  rw [get_eq hC hn w, t, List.getElem?_take_of_lt hi, List.getElem?_drop]

example : exCfg.Valid ∧ 2 + 7 ≤ (List.range 11).length := ⟨exCfg_valid, by decide⟩

/-- A load is defined exactly if all of `p[0], ..., p[n-1]` exist. -/
theorem C14_load_reads_exactly (hC : C.Valid) (mem : List α) (n p : Nat) (hn : 1 ≤ n) :
    (SA.load C mem n p).isSome = true ↔ p + n ≤ mem.length := by
  constructor
  · intro h
    apply Decidable.byContradiction
    intro hc
    rw [load_none hC mem n hn p hc] at h
    cases h
  · intro h
    obtain ⟨x, e, _⟩ := load_wf hC mem n hn p h
    rw [e]; rfl

example : SA.load exCfg (List.range 8) 7 2 = none := by
  have := C14_load_reads_exactly exCfg_valid (List.range 8) 7 2 (by decide)
  cases h : SA.load exCfg (List.range 8) 7 2 with
  | none => rfl
  | some x => rw [h] at this; simp at this

/-- Lanes outside `0, ..., n-1` are not lanes of the array. -/
theorem C14_get_bounds (hC : C.Valid) (n : Nat) (hn : 1 ≤ n) (x : SA α) (hx : SA.WF C n x)
    (i : Int) : (x.get C i).isSome = true ↔ 0 ≤ i ∧ i < n := by
  by_cases h : 0 ≤ i
  · obtain ⟨k, rfl⟩ := Int.eq_ofNat_of_zero_le h
    rw [get_eq hC hn hx, Option.isSome_iff_ne_none, Ne, List.getElem?_eq_none_iff,
      WF.length hC hn hx]
    omega
  · have : x.get C i = none := by unfold SA.get; rw [if_neg h]
    simp [this]; omega

example : ∃ x : SA Nat, SA.WF exCfg 7 x := ex7.imp fun _ h => h.1

/-- `x[i] = v` changes lane `i` and nothing else. -/
theorem C14_set_get (hC : C.Valid) (n : Nat) (hn : 1 ≤ n) (x : SA α) (hx : SA.WF C n x)
    (i : Nat) (hi : i < n) (v : α) :
    ∃ y, x.set C (i : Int) v = some y ∧ SA.WF C n y ∧
      ∀ j : Nat, j < n → y.get C (j : Int) = if j = i then some v else x.get C (j : Int) := by
  obtain ⟨y, e, w, t⟩ := set_eq hC v hn hx i hi
  refine ⟨y, e, w, fun j hj => ?_⟩
  rw [get_eq hC hn w, get_eq hC hn hx, t, List.getElem?_set]
  have := WF.length hC hn hx
  by_cases h : i = j
  · subst h; simp only [if_true]; rw [if_pos (by omega)]
  · rw [if_neg h, if_neg (fun e => h e.symm)]

example : ∃ x : SA Nat, SA.WF exCfg 7 x ∧ 5 < 7 := ex7.imp fun _ h => ⟨h.1, by decide⟩

/-- `store(p)` writes lane `i` to `p[i]` and nothing else. -/
theorem C14_store (hC : C.Valid) (n : Nat) (hn : 1 ≤ n) (x : SA α) (hx : SA.WF C n x)
    (mem : List α) (p : Nat) (hp : p + n ≤ mem.length) :
    ∃ mem', x.store n p mem = some mem' ∧ mem'.length = mem.length ∧
      ∀ j : Nat, mem'[j]? = if p ≤ j ∧ j < p + n then x.get C ((j - p : Nat) : Int) else mem[j]? := by
  have lx := WF.length hC hn hx
  refine ⟨_, store_wf hC n hn x hx p mem hp, ?_, ?_⟩
  · simp only [List.length_append, List.length_take, List.length_drop]; omega
  · intro j
    rw [get_eq hC hn hx, List.append_assoc, List.getElem?_append, List.getElem?_append]
    simp only [List.length_take]
    rw [Nat.min_eq_left (by omega), lx]
    by_cases h1 : j < p
    · rw [if_pos h1, if_neg (by omega), List.getElem?_take_of_lt h1]
    · rw [if_neg h1]
      by_cases h2 : j - p < n
      · rw [if_pos h2, if_pos (by omega)]
      · rw [if_neg h2, if_neg (by omega), List.getElem?_drop]
        congr 1; omega

example : ∃ x : SA Nat, SA.WF exCfg 7 x ∧ 3 + 7 ≤ (List.range 12).length :=
  ex7.imp fun _ h => ⟨h.1, by decide⟩

/-- Storing and loading again gives an array with the same lanes. -/
theorem C14_store_load (hC : C.Valid) (n : Nat) (hn : 1 ≤ n) (x : SA α) (hx : SA.WF C n x)
    (mem : List α) (p : Nat) (hp : p + n ≤ mem.length) :
    ∃ mem' y, x.store n p mem = some mem' ∧ SA.load C mem' n p = some y ∧
      ∀ i : Nat, i < n → y.get C (i : Int) = x.get C (i : Int) := by
  obtain ⟨mem', e, hl, h⟩ := C14_store hC n hn x hx mem p hp
  obtain ⟨y, e', w, h'⟩ := C14_load_get hC mem' n p hn (by omega)
  refine ⟨mem', y, e, e', fun i hi => ?_⟩
  rw [h' i hi, h, if_pos (by omega)]
  congr 2; omega

example : ∃ x : SA Nat, SA.WF exCfg 7 x ∧ 3 + 7 ≤ (List.range 12).length :=
  ex7.imp fun _ h => ⟨h.1, by decide⟩

/-- `generate(g)` calls `g(0), ..., g(n-1)` in this order (`g` may have state) and lane `i` is
the value returned by `g(i)`. -/
theorem C14_generate (hC : C.Valid) (n : Nat) (hn : 1 ≤ n) (g : Nat → σ → Option (α × σ)) (s : σ) :
    (SA.genS C n g s).map (fun r => (r.1.toList, r.2)) = callsInOrder g n s ∧
      ∀ r, SA.genS C n g s = some r → SA.WF C n r.1 ∧
        ∀ i : Nat, r.1.get C (i : Int) = r.1.toList[i]? := by
  have h := genS_wf hC n hn g s
  exact ⟨h.2.trans (natGenS_calls g n s), fun r hr => ⟨h.1 r hr, get_eq hC hn (h.1 r hr)⟩⟩

/-- A generator that returns the number of calls so far, times its argument. -/
example : callsInOrder (fun i (s : Nat) => some (i * s, s + 1)) 4 0 = some ([0, 1, 4, 9], 4) := rfl

/-- The generator constructor with a function of the lane: lane `i` is `g(i)`. -/
theorem C14_generator (hC : C.Valid) (n : Nat) (hn : 1 ≤ n) (f : Nat → Option α) (g : Nat → α)
    (h : ∀ i, i < n → f i = some (g i)) :
    ∃ x, SA.gen C n f = some x ∧ SA.WF C n x ∧ ∀ i : Nat, i < n → x.get C (i : Int) = some (g i) := by
  obtain ⟨x, e, w, t⟩ := gen_wf hC n hn f g h
  refine ⟨x, e, w, fun i hi => ?_⟩
  rw [get_eq hC hn w, t, List.getElem?_map, List.getElem?_range hi]
  rfl

example : ∀ i, i < 7 → (fun i : Nat => some (3 * i)) i = some ((fun i => 3 * i) i) := by decide

/-- Broadcast construction: every lane is the argument. -/
theorem C14_broadcast (hC : C.Valid) (n : Nat) (hn : 1 ≤ n) (v : α) :
    SA.WF C n (SA.broadcast C v n) ∧
      ∀ i : Nat, i < n → (SA.broadcast C v n).get C (i : Int) = some v := by
  obtain ⟨w, t⟩ := broadcast_wf hC v n hn
  refine ⟨w, fun i hi => ?_⟩
  rw [get_eq hC hn w, t, List.getElem?_replicate, if_pos hi]

example : exCfg'.Valid ∧ 1 ≤ 37 := ⟨exCfg'_valid, by decide⟩

/-- `SimdArray<T, n>::IndexesFromZero()`: lane `i` is `i`, for every entry type in which
`value_type(i) + value_type(j) = value_type(i + j)` (all integer types, and floating-point
types as long as the indexes are exact). -/
theorem C14_indexesFromZero (hC : C.Valid) (cast : Nat → α) (add : α → α → α)
    (hadd : ∀ i j, add (cast i) (cast j) = cast (i + j)) (n : Nat) (hn : 1 ≤ n) :
    SA.WF C n (SA.indexesFromZero C cast add n 0) ∧
      ∀ i : Nat, i < n → (SA.indexesFromZero C cast add n 0).get C (i : Int) = some (cast i) := by
  obtain ⟨w, t⟩ := indexesFromZero_wf hC cast add hadd n hn 0
  refine ⟨w, fun i hi => ?_⟩
  rw [get_eq hC hn w, t, List.getElem?_map, List.getElem?_range hi]
  rfl

example : ∀ i j : Nat, BitVec.ofNat 8 i + BitVec.ofNat 8 j = BitVec.ofNat 8 (i + j) :=
  fun i j => (BitVec.ofNat_add i j).symm

/-! ## C15 -/

/-- Unary operations: lane `i` of the result is the operation on lane `i`. -/
theorem C15_unary (hC : C.Valid) (n : Nat) (hn : 1 ≤ n) (f : α → β) (x : SA α)
    (hx : SA.WF C n x) :
    SA.WF C n (x.map f) ∧ ∀ i : Nat, (x.map f).get C (i : Int) = (x.get C (i : Int)).map f := by
  obtain ⟨w, t⟩ := map_wf f hx
  refine ⟨w, fun i => ?_⟩
  rw [get_eq hC hn w, get_eq hC hn hx, t, List.getElem?_map]

example : ∃ x : SA Nat, SA.WF exCfg 7 x := ex7.imp fun _ h => h.1

/-- Binary operations: lane `i` of the result is the operation on the two lanes `i`. -/
theorem C15_binary (hC : C.Valid) (n : Nat) (hn : 1 ≤ n) (f : α → β → γ) (x : SA α) (y : SA β)
    (hx : SA.WF C n x) (hy : SA.WF C n y) :
    ∃ r, x.zipWith f y = some r ∧ SA.WF C n r ∧ ∀ i : Nat, i < n →
      ∃ a b, x.get C (i : Int) = some a ∧ y.get C (i : Int) = some b ∧
        r.get C (i : Int) = some (f a b) := by
  obtain ⟨r, e, w, t⟩ := zipWith_wf hC f n hn x y hx hy
  refine ⟨r, e, w, fun i hi => ?_⟩
  have lx := WF.length hC hn hx
  have ly := WF.length hC hn hy
  refine ⟨x.toList[i], y.toList[i], ?_, ?_, ?_⟩
  · rw [get_eq hC hn hx, List.getElem?_eq_getElem]
  · rw [get_eq hC hn hy, List.getElem?_eq_getElem]
  · rw [get_eq hC hn w, t, List.getElem?_eq_getElem (by simp only [List.length_zipWith]; omega),
      List.getElem_zipWith]

example : ∃ (x : SA Nat) (m : SA Bool), SA.WF exCfg 7 x ∧ SA.WF exCfg 7 m := by
  obtain ⟨x, hx, _⟩ := ex7
  obtain ⟨m, hm, _⟩ := exMask7
  exact ⟨x, m, hx, hm⟩

/-- The result does not depend on the native vector widths: two environments give the same
lanes. -/
theorem C15_width_independent {C' : Cfg} (hC : C.Valid) (hC' : C'.Valid) (n : Nat) (hn : 1 ≤ n)
    (f : α → β → γ) (x x' : SA α) (y y' : SA β) (hx : SA.WF C n x) (hy : SA.WF C n y)
    (hx' : SA.WF C' n x') (hy' : SA.WF C' n y') (ex : x.toList = x'.toList)
    (ey : y.toList = y'.toList) :
    (x.zipWith f y).map SA.toList = (x'.zipWith f y').map SA.toList := by
  obtain ⟨r, e, w, t⟩ := zipWith_wf hC f n hn x y hx hy
  obtain ⟨r', e', w', t'⟩ := zipWith_wf hC' f n hn x' y' hx' hy'
  rw [e, e', Option.map_some, Option.map_some, t, t', ex, ey]

example : ∃ x x' : SA Nat, SA.WF exCfg 21 x ∧ SA.WF exCfg' 21 x' ∧ x.toList = x'.toList := by
  obtain ⟨x, hx, tx⟩ := exists_of_lanes exCfg_valid (List.range 21) (by decide)
  obtain ⟨y, hy, ty⟩ := exists_of_lanes exCfg'_valid (List.range 21) (by decide)
  exact ⟨x, y, hx, hy, tx.trans ty.symm⟩

/-! ## C16 -/

/-- An associative and commutative operation for the examples. -/
theorem assocComm_add : AssocComm (fun a b : Nat => a + b) := ⟨Nat.add_assoc, Nat.add_comm⟩

/-- `sum()`, `product()`, `min()`, `max()` combine all lanes. -/
theorem C16_reduce (op : α → α → α) (hop : AssocComm op) (hC : C.Valid) (n : Nat) (hn : 1 ≤ n)
    (x : SA α) (hx : SA.WF C n x) :
    x.reduce C op n = total op x.toList ∧ (x.reduce C op n).isSome = true := by
  have h := reduce_wf hop hC n hn x hx
  refine ⟨h, ?_⟩
  obtain ⟨r, hr⟩ := total_isSome (op := op) (l := x.toList) (by
    intro e; have := WF.length hC hn hx; rw [e] at this; simp at this; omega)
  rw [h, hr]; rfl

example : ∃ x : SA Nat, SA.WF exCfg 7 x ∧ x.reduce exCfg (· + ·) 7 = some 91 := by
  obtain ⟨x, hx, tx⟩ := ex7
  refine ⟨x, hx, ?_⟩
  rw [(C16_reduce _ assocComm_add exCfg_valid 7 (by decide) x hx).1, tx]
  rfl

/-- `sum(m)`, ...: combination of the lanes selected by the mask, if there is one. The value
for an empty mask (`e`) is unspecified. -/
theorem C16_reduce_masked (op : α → α → α) (hop : AssocComm op) (hC : C.Valid) (n : Nat)
    (hn : 1 ≤ n) (e : α) (x : SA α) (m : SA Bool) (hx : SA.WF C n x) (hm : SA.WF C n m)
    (hne : true ∈ m.toList) :
    x.reduceMasked op e m = total op (active x.toList m.toList) ∧
      (x.reduceMasked op e m).isSome = true := by
  have he : m.isEmpty = false := by
    cases h : m.isEmpty with
    | false => rfl
    | true => exact absurd ((isEmpty_iff m).mp h _ hne) (by decide)
  have h := reduceMasked_wf hop hC e n hn x m hx hm he
  refine ⟨h, ?_⟩
  obtain ⟨r, hr⟩ := total_isSome (op := op) (l := active x.toList m.toList)
    (active_ne_nil _ _ (by rw [WF.length hC hn hx, WF.length hC hn hm])
      (fun hall => absurd (hall _ hne) (by decide)))
  rw [h, hr]; rfl

example : ∃ (x : SA Nat) (m : SA Bool), SA.WF exCfg 7 x ∧ SA.WF exCfg 7 m ∧
    x.reduceMasked (· + ·) 99 m = some 37 := by
  obtain ⟨x, hx, tx⟩ := ex7
  obtain ⟨m, hm, tm⟩ := exMask7
  refine ⟨x, m, hx, hm, ?_⟩
  rw [(C16_reduce_masked _ assocComm_add exCfg_valid 7 (by decide) 99 x m hx hm
    (by rw [tm]; decide)).1, tx, tm]
  rfl

/-! ## C17 -/

/-- `partialSum()`: lane `i` is the combination of the lanes `0, ..., i`. -/
theorem C17_partialSum (op : α → α → α) (hop : AssocComm op) (hC : C.Valid) (n : Nat)
    (hn : 1 ≤ n) (x : SA α) (hx : SA.WF C n x) :
    ∃ r, x.partialSum C op n = some r ∧ SA.WF C n r ∧ IsPrefixTotals op x.toList r.toList :=
  partialSum_wf hop hC n hn x hx

example : IsPrefixTotals (fun a b : Nat => a + b) [3, 1, 4] [3, 4, 8] := by
  refine ⟨rfl, ?_⟩
  intro i h
  match i, h with
  | 0, _ => rfl
  | 1, _ => rfl
  | 2, _ => rfl

end Vc.Prop
