import Verif.Lemma.Apply
import Verif.Lemma.SimdArray
import Verif.Model.Float
import Verif.Prop.AvxMask
import Verif.Prop.Iterators
import Verif.Prop.ExCfg
import Mathlib.Algebra.Order.Ring.Int
import Mathlib.Tactic.IntervalCases

/-!
C87: `call`, `apply`, `fill` and `callWithValuesSorted`.

A functor is any function that also reads and changes a state of any type, so the theorems also say in
which order and how often it is called. `Spec.callEach` calls it for the values of a list in order,
`Spec.replaceEach g sel 0 l s` replaces the selected entries of `l` in ascending order.
-/

namespace Vc.Prop

open Vc.Model Vc.Spec Vc.Lemma

variable {n : Nat} {σ : Type}

/-! ### Without a mask -/

private theorem loop_range (f : Nat → σ → σ) (N : Nat) (s : σ) :
    unrolledLoop f 0 N s = (List.range N).foldl (fun s i => f i s) s := by
  rw [unrolledLoop_eq, List.range_eq_range', Nat.sub_zero]

/-- `call(f)` calls `f` once for every entry, in ascending order of the lanes. -/
theorem C87_call (w : Nat) (f : BitVec w → σ → σ) (x : BitVec n) (s : σ) :
    vecCall w f x s = callEach f (entries w x) s := by
  unfold vecCall callEach entries
  rw [loop_range, List.foldl_map]
  rfl

example : vecCall (n := 128) (σ := List (BitVec 32)) 32 (fun v s => s ++ [v])
    0x00000004000000030000000200000001#128 [] = [1#32, 2#32, 3#32, 4#32] := by
  rw [C87_call]; decide +kernel

/-- `apply(f)` returns the vector of the results, `f` is called once for every entry, in ascending
order of the lanes. -/
theorem C87_apply (w : Nat) (f : BitVec w → σ → BitVec w × σ) (x : BitVec n) (s : σ) :
    (entries w (vecApply w f x s).1, (vecApply w f x s).2) =
      replaceEach (fun _ => f) (fun _ => true) 0 (entries w x) s := by
  unfold vecApply
  rw [loop_range]
  exact laneLoop_entries w (fun _ => f) (fun _ => true) (fun _ i => lane w x i) x 0#n s
    (fun _ _ _ _ _ _ => rfl) (fun _ _ => rfl) (fun _ _ h => by simp at h)

/-- Entry `i` of `apply(f)` is `f` of entry `i` if `f` has no state. -/
theorem C87_apply_pure (w : Nat) (f : BitVec w → BitVec w) (x : BitVec n) :
    entries w (vecApply w (fun v (_ : Unit) => (f v, ())) x ()).1 = (entries w x).map f := by
  have h := congrArg Prod.fst (C87_apply w (fun v (_ : Unit) => (f v, ())) x ())
  rw [show (entries w x).map f = (replaceEach (fun _ v (_ : Unit) => (f v, ())) (fun _ => true) 0
    (entries w x) ()).1 from ?_]
  · exact h
  · generalize (0 : Nat) = b
    generalize entries w x = l
    induction l generalizing b with
    | nil => rfl
    | cons v l ih => rw [replaceEach, if_pos rfl, List.map_cons, ih (b + 1)]

example : (replaceEach (fun _ v (s : BitVec 32) => (v + s, s + 10#32)) (fun _ => true) 0
    (entries 32 0x00000004000000030000000200000001#128) 0#32) = ([1#32, 12#32, 23#32, 34#32], 40#32) := by
  decide +kernel

/-- `fill(f)` with an index: lane `i` is `f(i)`, called for `0, 1, …` in this order; nothing of the
former contents is left. -/
theorem C87_fill_index (w : Nat) (f : Nat → σ → BitVec w × σ) (x : BitVec n) (s : σ) :
    (entries w (vecFillIdx w f x s).1, (vecFillIdx w f x s).2) =
      replaceEach (fun i _ => f i) (fun _ => true) 0 (entries w x) s := by
  unfold vecFillIdx
  rw [loop_range]
  exact laneLoop_entries w (fun i _ => f i) (fun _ => true) (fun _ i => lane w x i) x x s
    (fun _ _ _ _ _ _ => rfl) (fun _ _ => rfl) (fun _ _ h => by simp at h)

/-- `fill(f)` without an index: one call for every lane, in ascending order. -/
theorem C87_fill (w : Nat) (f : σ → BitVec w × σ) (x : BitVec n) (s : σ) :
    (entries w (vecFill w f x s).1, (vecFill w f x s).2) =
      replaceEach (fun _ _ => f) (fun _ => true) 0 (entries w x) s := by
  unfold vecFill
  rw [loop_range]
  exact laneLoop_entries w (fun _ _ => f) (fun _ => true) (fun _ i => lane w x i) x x s
    (fun _ _ _ _ _ _ => rfl) (fun _ _ => rfl) (fun _ _ h => by simp at h)

example : (replaceEach (fun _ _ (s : BitVec 32) => (s, s * 3#32)) (fun _ => true) 0
    (entries 32 0xffffffffffffffffffffffffffffffff#128) 1#32).1 = [1#32, 3#32, 9#32, 27#32] ∧
    (replaceEach (fun i _ (s : Nat) => (BitVec.ofNat 32 (7 * i), s)) (fun _ => true) 0
    (entries 32 0xffffffffffffffffffffffffffffffff#128) 1).1 = [0#32, 7#32, 14#32, 21#32] := by
  decide +kernel

/-! ### With a mask -/

private theorem where_eq (u m N : Nat) (b : Nat → Bool) (hN : N ≤ 31)
    (h : ∀ i, m.testBit i = (decide (i < N) && b i)) :
    whereLanes u (BitVec.ofNat 32 m) = some ((List.range N).filter b) := by
  rw [whereLanes_eq]
  have hm : m < 2 ^ 31 := by
    apply Nat.lt_pow_two_of_testBit
    intro i hi
    rw [h]
    simp; omega
  have hn : (BitVec.ofNat 32 m).msb = false := by
    rw [BitVec.msb_eq_decide]
    simp only [BitVec.toNat_ofNat]
    rw [Nat.mod_eq_of_lt (by omega)]
    simp; omega
  have ht : ((BitVec.ofNat 32 m).signExtend 64).toNat = m := by
    rw [BitVec.signExtend_eq_setWidth_of_msb_false hn, BitVec.toNat_setWidth, BitVec.toNat_ofNat]
    rw [Nat.mod_eq_of_lt (by omega), Nat.mod_eq_of_lt (by omega)]
  rw [ht]
  refine congrArg some (setBits_eq 64 N m b (by omega) (fun i hi => ?_) (fun i hi => ?_))
  · rw [h]; simp [hi]
  · rw [h]; simp; omega

private theorem callMasked (w : Nat) (f : BitVec w → σ → σ) (x : BitVec n) (b : Nat → Bool) (s : σ) :
    vecCallMasked w f x ((List.range (n / w)).filter b) s =
      some (callEach f (((List.range (n / w)).filter b).map (lane w x)) s) := by
  unfold vecCallMasked
  rw [foldlM_filter (n / w) b (fun s i => f (lane w x i) s), callEach, List.foldl_map,
    ← List.foldl_filter]

private theorem applyMasked (w : Nat) (f : BitVec w → σ → BitVec w × σ) (x : BitVec n) (b : Nat → Bool)
    (s : σ) : ∃ r, vecApplyMasked w f x ((List.range (n / w)).filter b) s = some r ∧
      (entries w r.1, r.2) = replaceEach (fun _ => f) b 0 (entries w x) s := by
  refine ⟨_, foldlM_filter (n / w) b
    (fun p i => (setLane w p.1 i (f (lane w p.1 i) p.2).1, (f (lane w p.1 i) p.2).2)) (x, s), ?_⟩
  exact laneLoop_entries w (fun _ => f) b (lane w) x x s
    (fun r v b i hb hi => by rw [lane_setLane _ _ _ hi, if_neg (by omega)])
    (fun _ _ => rfl) (fun _ _ _ => rfl)

/-- `call(f, mask)` of the SSE vectors: `f` is called once for every entry where the mask is set, in
ascending order of the lanes, and not for the others. -/
theorem C87_call_masked_sse {w : Nat} (hw : MaskWidth w) (u : Nat) (f : BitVec w → σ → σ) (x k : M128)
    {b : Nat → Bool} (hk : IsMask w k b) (s : σ) :
    (sseWhere w u k).bind (fun l => vecCallMasked w f x l s) =
      some (callEach f (((List.range (128 / w)).filter b).map fun i => x.extractLsb' (w * i) w) s) := by
  unfold sseWhere
  rw [where_eq u _ (128 / w) b (by rcases hw with rfl | rfl | rfl | rfl <;> decide) (C36_toInt hw hk)]
  exact callMasked w f x b s

/-- `call(f, mask)` of the AVX vectors. -/
theorem C87_call_masked_avx (avx2 : Bool) {w : Nat} (hw : AvxMaskWidth w) (u : Nat)
    (f : BitVec w → σ → σ) (x k : M256) {b : Nat → Bool} (hk : IsMask w k b) (s : σ) :
    (avxWhere avx2 w u k).bind (fun l => vecCallMasked w f x l s) =
      some (callEach f (((List.range (256 / w)).filter b).map fun i => x.extractLsb' (w * i) w) s) := by
  unfold avxWhere
  rw [where_eq u _ (256 / w) b (by rcases hw with rfl | rfl | rfl <;> decide) (C63_toInt avx2 hw hk)]
  exact callMasked w f x b s

/-- `apply(f, mask)` of the SSE vectors: `f` is called once for every entry where the mask is set, in
ascending order of the lanes; these entries are replaced by the results, the others are kept. -/
theorem C87_apply_masked_sse {w : Nat} (hw : MaskWidth w) (u : Nat) (f : BitVec w → σ → BitVec w × σ)
    (x k : M128) {b : Nat → Bool} (hk : IsMask w k b) (s : σ) :
    ∃ r, (sseWhere w u k).bind (fun l => vecApplyMasked w f x l s) = some r ∧
      (entries w r.1, r.2) = replaceEach (fun _ => f) b 0 (entries w x) s := by
  unfold sseWhere
  rw [where_eq u _ (128 / w) b (by rcases hw with rfl | rfl | rfl | rfl <;> decide) (C36_toInt hw hk)]
  exact applyMasked w f x b s

/-- `apply(f, mask)` of the AVX vectors. -/
theorem C87_apply_masked_avx (avx2 : Bool) {w : Nat} (hw : AvxMaskWidth w) (u : Nat)
    (f : BitVec w → σ → BitVec w × σ) (x k : M256) {b : Nat → Bool} (hk : IsMask w k b) (s : σ) :
    ∃ r, (avxWhere avx2 w u k).bind (fun l => vecApplyMasked w f x l s) = some r ∧
      (entries w r.1, r.2) = replaceEach (fun _ => f) b 0 (entries w x) s := by
  unfold avxWhere
  rw [where_eq u _ (256 / w) b (by rcases hw with rfl | rfl | rfl <;> decide) (C63_toInt avx2 hw hk)]
  exact applyMasked w f x b s

example : MaskWidth 32 ∧ IsMask (n := 128) 32 0xffffffff00000000ffffffff00000000#128
    (fun i => i % 2 == 1) :=
  ⟨.inr (.inr (.inl rfl)), fun i hi => by
    have : i < 4 := by omega
    interval_cases i <;> decide +kernel⟩

/-- `Scalar::Vector`: `call(f, mask)` and `apply(f, mask)`. -/
theorem C87_scalar {V : Type} (f : V → σ → σ) (g : V → σ → V × σ) (x : V) (mask : Bool) (s : σ) :
    scalarCallMasked f x mask s = callEach f ([x].filter fun _ => mask) s ∧
    ([(scalarApplyMasked g x mask s).1], (scalarApplyMasked g x mask s).2) =
      replaceEach (fun _ => g) (fun _ => mask) 0 [x] s := by
  cases mask <;> exact ⟨rfl, rfl⟩

/-! ### `SimdArray` -/

private theorem replaceEach_append {V : Type} (g : Nat → V → σ → V × σ) (sel : Nat → Bool)
    (l m : List V) (i : Nat) (s : σ) :
    replaceEach g sel i (l ++ m) s =
      ((replaceEach g sel i l s).1 ++ (replaceEach g sel (i + l.length) m (replaceEach g sel i l s).2).1,
        (replaceEach g sel (i + l.length) m (replaceEach g sel i l s).2).2) := by
  induction l generalizing i s with
  | nil => rfl
  | cons v l ih =>
    rw [List.cons_append, replaceEach, replaceEach, List.length_cons,
      show i + (l.length + 1) = i + 1 + l.length by omega]
    split <;> rw [ih] <;> rfl

private theorem replaceEach_shift {V : Type} (f : V → σ → V × σ) (p q : Nat → Bool) (l : List V)
    (i j : Nat) (s : σ) (h : ∀ k, k < l.length → p (i + k) = q (j + k)) :
    replaceEach (fun _ => f) p i l s = replaceEach (fun _ => f) q j l s := by
  induction l generalizing i j s with
  | nil => rfl
  | cons v l ih =>
    have h0 := h 0 (by simp)
    simp only [Nat.add_zero] at h0
    have ih' := fun s => ih (i + 1) (j + 1) s (fun k hk => by
      have := h (k + 1) (by simpa using hk)
      rwa [show i + (k + 1) = i + 1 + k by omega, show j + (k + 1) = j + 1 + k by omega] at this)
    rw [replaceEach, replaceEach, h0]
    split <;> rw [ih']

private theorem listApply_eq {V : Type} (f : V → σ → V × σ) (l : List V) (i : Nat) (s : σ) :
    listApply f l s = replaceEach (fun _ => f) (fun _ => true) i l s := by
  induction l generalizing i s with
  | nil => rfl
  | cons v l ih => rw [replaceEach, if_pos rfl, ← ih]; rfl

private theorem listApplyMasked_eq {V : Type} (f : V → σ → V × σ) (l : List V) (m : List Bool)
    (h : l.length = m.length) (s : σ) :
    listApplyMasked f l m s = replaceEach (fun _ => f) (fun i => m[i]?.getD false) 0 l s := by
  induction l generalizing m s with
  | nil => cases m <;> rfl
  | cons v l ih =>
    match m, h with
    | k :: m, h =>
      have e := fun s => replaceEach_shift f (fun i => (k :: m)[i]?.getD false)
        (fun i => m[i]?.getD false) l 1 0 s (fun j _ => by
          show (k :: m)[1 + j]?.getD false = m[0 + j]?.getD false
          rw [Nat.add_comm 1, Nat.zero_add, List.getElem?_cons_succ])
      rw [replaceEach, listApplyMasked]
      cases k with
      | true =>
        rw [if_pos (show (true :: m)[0]?.getD false = true from rfl), Nat.zero_add, e,
          ← ih m (by simpa using h)]
        rfl
      | false =>
        rw [if_neg (show ¬ (false :: m)[0]?.getD false = true from Bool.false_ne_true), Nat.zero_add, e,
          ← ih m (by simpa using h)]
        rfl

/-- `SimdArray::apply(f)`: one call for every entry, in ascending order over the whole array. -/
theorem C87_array_apply {C : Cfg} (hC : C.Valid) {V : Type} (f : V → σ → V × σ) (N : Nat) (hN : 1 ≤ N) :
    ∀ (x : SA V) (s : σ), SA.WF C N x →
    SA.WF C N (x.applyF f s).1 ∧
    ((x.applyF f s).1.toList, (x.applyF f s).2) =
      replaceEach (fun _ => f) (fun _ => true) 0 x.toList s := by
  refine template_induction hC (P := fun N => ∀ (x : SA V) (s : σ), SA.WF C N x →
    SA.WF C N (x.applyF f s).1 ∧ ((x.applyF f s).1.toList, (x.applyF f s).2) =
      replaceEach (fun _ => f) (fun _ => true) 0 x.toList s) ?_ ?_ N hN
  · intro n hn ha x s w
    obtain ⟨l, rfl, hl⟩ := WF.exists_atom ha w
    have e : (listApply f l s).1.length = l.length := by
      clear w hl
      induction l generalizing s with
      | nil => rfl
      | cons v l ih => simp [listApply, ih]
    refine ⟨⟨by rw [e, hl], ha⟩, ?_⟩
    exact listApply_eq f l 0 s
  · intro n hn ha iha ihb x s w
    obtain ⟨a, b, rfl, wa, wb⟩ := WF.exists_node ha w
    obtain ⟨w1, e1⟩ := iha a s wa
    obtain ⟨w2, e2⟩ := ihb b (a.applyF f s).2 wb
    refine ⟨⟨ha, w1, w2⟩, ?_⟩
    show ((a.applyF f s).1.toList ++ (b.applyF f (a.applyF f s).2).1.toList,
      (b.applyF f (a.applyF f s).2).2) = replaceEach _ _ 0 (a.toList ++ b.toList) s
    rw [replaceEach_append, replaceEach_shift f _ (fun _ => true) b.toList _ 0 _ (fun _ _ => rfl), ← e1]
    simp only
    rw [← e2]

/-- `SimdArray::apply(f, mask)`. -/
theorem C87_array_apply_masked {C : Cfg} (hC : C.Valid) {V : Type} (f : V → σ → V × σ) (N : Nat)
    (hN : 1 ≤ N) : ∀ (x : SA V) (m : SA Bool) (s : σ), SA.WF C N x → SA.WF C N m →
    ∃ y s', x.applyFMasked f m s = some (y, s') ∧ SA.WF C N y ∧
    (y.toList, s') = replaceEach (fun _ => f) (fun i => m.toList[i]?.getD false) 0 x.toList s := by
  refine template_induction hC (P := fun N => ∀ (x : SA V) (m : SA Bool) (s : σ), SA.WF C N x →
    SA.WF C N m → ∃ y s', x.applyFMasked f m s = some (y, s') ∧ SA.WF C N y ∧
    (y.toList, s') = replaceEach (fun _ => f) (fun i => m.toList[i]?.getD false) 0 x.toList s)
    ?_ ?_ N hN
  · intro n hn ha x m s wx wm
    obtain ⟨l, rfl, hl⟩ := WF.exists_atom ha wx
    obtain ⟨k, rfl, hk⟩ := WF.exists_atom ha wm
    have e : ∀ (l : List V) (k : List Bool) s, (listApplyMasked f l k s).1.length = l.length := by
      intro l
      induction l with
      | nil => intro k s; cases k <;> rfl
      | cons v l ih => intro k s; cases k <;> simp [listApplyMasked, ih]
    exact ⟨_, _, rfl, ⟨by rw [e, hl], ha⟩, listApplyMasked_eq f l k (by omega) s⟩
  · intro n hn ha iha ihb x m s wx wm
    obtain ⟨a, b, rfl, wa, wb⟩ := WF.exists_node ha wx
    obtain ⟨ka, kb, rfl, wka, wkb⟩ := WF.exists_node ha wm
    obtain ⟨y1, s1, e1, w1, t1⟩ := iha a ka s wa wka
    obtain ⟨y2, s2, e2, w2, t2⟩ := ihb b kb s1 wb wkb
    refine ⟨.node y1 y2, s2, ?_, ⟨ha, w1, w2⟩, ?_⟩
    · simp only [SA.applyFMasked, e1, e2]
    have hl : 1 ≤ leftSize n ∧ 1 ≤ rightSize n := by
      constructor
      · exact one_le_leftSize (by omega)
      · exact one_le_rightSize hn
    have la := WF.length hC hl.1 wa
    have lka := WF.length hC hl.1 wka
    show (y1.toList ++ y2.toList, s2) = replaceEach _ (fun i => (ka.toList ++ kb.toList)[i]?.getD false) 0
      (a.toList ++ b.toList) s
    rw [replaceEach_append,
      replaceEach_shift f _ (fun i => ka.toList[i]?.getD false) a.toList 0 0 s (fun j hj => by
        show (ka.toList ++ kb.toList)[0 + j]?.getD false = ka.toList[0 + j]?.getD false
        rw [List.getElem?_append_left (by omega)]), ← t1,
      replaceEach_shift f _ (fun i => kb.toList[i]?.getD false) b.toList _ 0 _ (fun j hj => by
        show (ka.toList ++ kb.toList)[0 + a.toList.length + j]?.getD false = kb.toList[0 + j]?.getD false
        rw [List.getElem?_append_right (by omega)]
        congr 2; omega), ← t2]

example : ∃ (x : SA Nat) (m : SA Bool), SA.WF exCfg 7 x ∧ SA.WF exCfg 7 m := by
  obtain ⟨x, hx, _⟩ := ex7
  obtain ⟨m, hm, _⟩ := exMask7
  exact ⟨x, m, hx, hm⟩

/-! ### `callWithValuesSorted` -/

private theorem sorted_calls {w : Nat} (x : BitVec n) (h1 : 1 ≤ n / w) :
    entries w x = lane w x 0 :: (List.range' 1 (n / w - 1)).map (lane w x) := by
  rw [entries_eq, show n / w = n / w - 1 + 1 by omega, List.range'_succ]
  rfl

/-- The calls of `callWithValuesSorted`, for any comparison `ne` of entries that tells apart the
values `v`: the functor is called for a list of values that ascends exactly if the entries of the
vector already ascend, and then it has every value once. -/
private theorem sorted_iff {w : Nat} {K : Type} [LinearOrder K] (v : BitVec w → K)
    (ne : BitVec w → BitVec w → Bool) (x : BitVec n) (h1 : 1 ≤ n / w)
    (hne : ∀ a ∈ entries w x, ∀ b ∈ entries w x, ne a b = decide (v a ≠ v b)) :
    ∃ calls, (∀ (σ : Type) (f : BitVec w → σ → σ) s, vecCallSorted w ne f x s = callEach f calls s) ∧
      (FromMinToMax v (entries w x) calls ↔ ((entries w x).map v).Pairwise (· ≤ ·)) ∧
      (((entries w x).map v).Pairwise (· ≤ ·) → (calls.map v).Pairwise (· < ·)) := by
  rw [sorted_calls x h1] at hne ⊢
  refine ⟨lane w x 0 :: changes ne (lane w x 0) ((List.range' 1 (n / w - 1)).map (lane w x)), ?_, ?_, ?_⟩
  · intro σ f s
    unfold vecCallSorted
    rw [sortedLoop_eq]
    rfl
  · rw [← changes_sorted v ne _ _ hne]
    refine ⟨fun h => h.ascending, fun h => ⟨fun z => ?_, h⟩⟩
    rw [List.map_cons, List.mem_cons, List.map_cons, List.mem_cons]
    exact changes_same v ne _ _ hne z
  · exact changes_strict v ne _ _ hne

/-- `callWithValuesSorted(f)` with integers: what is documented holds if and only if the entries
already ascend from lane 0 to the last one; the function does not sort. Missing from the claim: all
other vectors, see `C87_callWithValuesSorted_violated`. -/
theorem C87_callWithValuesSorted_int_partial (sgn : Bool) {w : Nat} (x : BitVec n) (h1 : 1 ≤ n / w) :
    ∃ calls, (∀ (σ : Type) (f : BitVec w → σ → σ) s,
        vecCallSorted w (fun a b => a != b) f x s = callEach f calls s) ∧
      (FromMinToMax (val sgn) (entries w x) calls ↔
        ((entries w x).map (val sgn)).Pairwise (· ≤ ·)) ∧
      (((entries w x).map (val sgn)).Pairwise (· ≤ ·) → (calls.map (val sgn)).Pairwise (· < ·)) := by
  refine sorted_iff (val sgn) _ x h1 (fun a _ b _ => ?_)
  have : val sgn a = val sgn b ↔ a = b := by
    cases sgn
    · simp only [val, Bool.false_eq_true, if_false, Int.natCast_inj]
      exact BitVec.toNat_inj
    · simp only [val, if_true]
      exact BitVec.toInt_inj
  by_cases e : a = b
  · rw [decide_eq_false (not_not.2 (this.2 e))]; simp [e]
  · rw [decide_eq_true (show val sgn a ≠ val sgn b from fun h => e (this.1 h))]; simpa using e

/-- The same with floating-point numbers if no entry is NaN. -/
theorem C87_callWithValuesSorted_float_partial (F : Fmt) {w : Nat} (x : BitVec n) (h1 : 1 ≤ n / w)
    (hx : ∀ a ∈ entries w x, isNaN F a = false) :
    ∃ calls, (∀ (σ : Type) (f : BitVec w → σ → σ) s,
        vecCallSorted w (fun a b => !fEq F a b) f x s = callEach f calls s) ∧
      (FromMinToMax (fval F) (entries w x) calls ↔
        ((entries w x).map (fval F)).Pairwise (· ≤ ·)) ∧
      (((entries w x).map (fval F)).Pairwise (· ≤ ·) → (calls.map (fval F)).Pairwise (· < ·)) :=
  sorted_iff (fval F) _ x h1 (fun a ha b hb => by
    unfold fEq
    rw [hx a ha, hx b hb]
    simp)

example : 1 ≤ 128 / 32 ∧
    ((entries 32 0x00000007000000070000000200000001#128).map (val true)).Pairwise (· ≤ ·) := by
  rw [show entries 32 0x00000007000000070000000200000001#128 = [1#32, 2#32, 7#32, 7#32] by decide +kernel]
  decide

example : ∀ a ∈ entries 32 0x40000000400000003f80000000000000#128, isNaN f32 a = false := by
  have h : (entries 32 0x40000000400000003f80000000000000#128).all (fun a => !isNaN f32 a) = true := by
    decide +kernel
  intro a ha
  simpa using List.all_eq_true.1 h a ha

/-- A vector whose entries are not in ascending order, `{2, 1, 1, 1}`: the calls are `f(2)`, `f(1)`,
the first one is not the minimum. -/
theorem C87_callWithValuesSorted_violated :
    ∃ (x : M128) (calls : List (BitVec 32)),
      (∀ (σ : Type) (f : BitVec 32 → σ → σ) s,
        vecCallSorted 32 (fun a b => a != b) f x s = callEach f calls s) ∧
      calls.map (val true) = [2, 1] ∧ ¬ FromMinToMax (val true) (entries 32 x) calls := by
  refine ⟨0x00000001000000010000000100000002#128, [2#32, 1#32], ?_, by decide, fun h => ?_⟩
  · intro σ f s
    have h0 : lane 32 0x00000001000000010000000100000002#128 0 = 2#32 := by decide +kernel
    have h1 : changes (fun a b => a != b) 2#32
      ((List.range' 1 (128 / 32 - 1)).map (lane 32 0x00000001000000010000000100000002#128)) = [1#32] := by
      decide +kernel
    rw [vecCallSorted, sortedLoop_eq, h0, h1]
    rfl
  · have := h.ascending
    revert this
    decide

end Vc.Prop
