import Verif.Model.SimdizeIter
import Verif.Prop.Simdize

/-!
# C62: simdized iterators

The sequence `mem` is accessed through an iterator at position `p`; `N` is the number of lanes.
-/

namespace Vc.Prop
open Vc.Model Vc.Spec Vc.Lemma

variable {m : Nat} {K : Fin m → Member} {N : Nat}

/-- The elements `p` to `p + n - 1` exist. -/
def InSeq {β : Type} (mem : List β) (p : Int) (n : Nat) : Prop := 0 ≤ p ∧ p + Int.ofNat n ≤ Int.ofNat mem.length

private theorem seqAt_some {β : Type} {mem : List β} {p : Int} {n j : Nat} (h : InSeq mem p n) (hj : j < n) :
    ∃ v, seqAt mem (p + Int.ofNat j) = some v := by
  obtain ⟨h0, h1⟩ := h
  simp only [Int.ofNat_eq_natCast] at h0 h1
  unfold seqAt
  rw [if_pos (by simp only [Int.ofNat_eq_natCast]; omega)]
  exact ⟨_, List.getElem?_eq_getElem (by simp only [Int.ofNat_eq_natCast]; omega)⟩

private theorem fill_spec (K : Member) (hC : K.cfg.Valid) (hN : 1 ≤ N) (tmp : SA K.Entry)
    (ht : SA.WF K.cfg N tmp) (v : Nat → Option K.Entry) (hv : ∀ j, j < N → (v j).isSome) :
    ∃ r, fillMember N K tmp v = some r ∧ SA.WF K.cfg N r ∧ ∀ j, j < N → K.get N r j = v j := by
  have key : ∀ c, c ≤ N → ∃ r, (List.range c).foldlM (fun t j => (v j).bind fun x => K.set N t j x) tmp = some r ∧
      SA.WF K.cfg N r ∧ ∀ j, j < c → K.get N r j = v j := by
    intro c
    induction c with
    | zero => intro _; exact ⟨tmp, rfl, ht, fun j hj => absurd hj (Nat.not_lt_zero j)⟩
    | succ c ih =>
      intro hc
      obtain ⟨r, e, w, h⟩ := ih (by omega)
      obtain ⟨x, hx⟩ := Option.isSome_iff_exists.mp (hv c (by omega))
      obtain ⟨y, ey, wy, hy⟩ := member_set_get K hC hN w (i := c) (by omega) x
      refine ⟨y, ?_, wy, ?_⟩
      · rw [List.range_succ, List.foldlM_append, e]
        simp only [Option.bind_eq_bind, Option.bind_some, List.foldlM_cons, List.foldlM_nil, hx, ey]
        rfl
      · intro j hj
        rw [hy j]
        by_cases hjc : j = c
        · rw [if_pos hjc, hjc, hx]
        · rw [if_neg hjc]; exact h j (by omega)
  exact key N (Nat.le_refl N)

/-- `*it` for a sequence of objects: object `j` of the result is element `p + j` of the sequence. -/
theorem C62_dereference (hK : AdValid K) (hN : 1 ≤ N) (r tmp : Adapter K) (ht : AdWF K N tmp)
    (mem : List (Obj K)) (p : Int) (hp : InSeq mem p N) :
    ∃ a, fromIterator N r tmp mem p = some a ∧ AdWF K N a ∧
      ∀ j, j < N → extractImpl N a j = seqAt mem (p + Int.ofNat j) := by
  have h := fun k => fill_spec (K k) (hK k) hN (tmp k) (ht k)
    (fun j => (seqAt mem (p + Int.ofNat j)).map (· k)) (by
      intro j hj
      obtain ⟨v, hv⟩ := seqAt_some hp hj
      rw [hv]; rfl)
  obtain ⟨a, e, ha⟩ := foldPut_aux
    (fun k _ => fillMember N (K k) (tmp k) fun j => (seqAt mem (p + Int.ofNat j)).map (· k))
    (fun k => (h k).choose) (List.finRange m).reverse r
    (List.pairwise_reverse.mpr ((List.nodup_finRange m).imp fun h e => h e.symm)) (fun k _ => (h k).choose_spec.1)
  have ha' : ∀ k, a k = (h k).choose := by
    intro k
    rw [ha k, if_pos (List.mem_reverse.mpr (List.mem_finRange k))]
  refine ⟨a, e, fun k => by rw [ha' k]; exact (h k).choose_spec.2.1, fun j hj => ?_⟩
  obtain ⟨v, hv⟩ := seqAt_some hp hj
  rw [hv]
  refine pack_some fun k => ?_
  rw [ha' k, (h k).choose_spec.2.2 j hj, hv]
  rfl

/-- `*it` for a sequence of arithmetic values, with a loop over the elements. -/
theorem C62_dereference_vector {β : Type} {C : Cfg} (hC : C.Valid) (hN : 1 ≤ N) (z : β) (r : SA β)
    (hr : SA.WF C N r) (mem : List β) (p : Int) (hp : InSeq mem p N) :
    ∃ v, fromIteratorLoop N C z r mem p = some v ∧ SA.WF C N v ∧
      ∀ j : Nat, j < N → v.get C (j : Int) = seqAt mem (p + Int.ofNat j) :=
  fill_spec (.vec β C z) hC hN r hr _ fun _ hj => Option.isSome_iff_exists.mpr (seqAt_some hp hj)

/-- The same for contiguous iterators, with a load. -/
theorem C62_dereference_contiguous {β : Type} {C : Cfg} (hC : C.Valid) (hN : 1 ≤ N) (mem : List β) (p : Int)
    (hp : InSeq mem p N) :
    ∃ v, fromIteratorLoad N C mem p = some v ∧ SA.WF C N v ∧
      ∀ j : Nat, j < N → v.get C (j : Int) = seqAt mem (p + Int.ofNat j) := by
  obtain ⟨h0, h1⟩ := hp
  simp only [Int.ofNat_eq_natCast] at h0 h1
  obtain ⟨v, e, w, h⟩ := C14_load_get hC mem N p.toNat hN (by omega)
  refine ⟨v, by unfold fromIteratorLoad; rw [if_pos h0]; exact e, w, fun j hj => ?_⟩
  rw [h j hj]
  unfold seqAt
  rw [if_pos (by simp only [Int.ofNat_eq_natCast]; omega)]
  congr 1
  simp only [Int.ofNat_eq_natCast]; omega

/-- `*it = x`, and the end of the lifetime of `it.operator->()` whose data is `x`: element `p + j` becomes
object `j` for `j < N`, no other element changes. -/
theorem C62_write_back (hK : AdValid K) (hN : 1 ≤ N) (x : Adapter K) (hx : AdWF K N x) (mem : List (Obj K))
    (p : Int) (hp : InSeq mem p N) :
    ∃ mem', writeBack N x mem p = some mem' ∧ mem'.length = mem.length ∧
      (∀ j, j < N → seqAt mem' (p + Int.ofNat j) = extractImpl N x j) ∧
      ∀ q, q < p ∨ p + Int.ofNat N ≤ q → seqAt mem' q = seqAt mem q := by
  obtain ⟨h0, h1⟩ := hp
  simp only [Int.ofNat_eq_natCast] at h0 h1
  have key : ∀ c, c ≤ N → ∃ mem', (List.range c).foldlM
      (fun mem i => (extractImpl N x i).bind fun v => seqPut mem (p + Int.ofNat i) v) mem = some mem' ∧
      mem'.length = mem.length ∧
      (∀ j, j < c → seqAt mem' (p + Int.ofNat j) = extractImpl N x j) ∧
      ∀ q, q < p ∨ p + Int.ofNat c ≤ q → seqAt mem' q = seqAt mem q := by
    intro c
    induction c with
    | zero => intro _; exact ⟨mem, rfl, rfl, fun j hj => absurd hj (Nat.not_lt_zero j), fun _ _ => rfl⟩
    | succ c ih =>
      intro hc
      obtain ⟨mem', e, hl, h, h'⟩ := ih (by omega)
      obtain ⟨v, hv⟩ := Option.isSome_iff_exists.mp (extract_isSome hK hN hx (i := c) (by omega))
      have hput : seqPut mem' (p + Int.ofNat c) v = some (mem'.set (p + Int.ofNat c).toNat v) := by
        unfold seqPut
        rw [if_pos]
        simp only [Int.ofNat_eq_natCast]
        omega
      have hat : ∀ q, seqAt (mem'.set (p + Int.ofNat c).toNat v) q =
          if q = p + Int.ofNat c then some v else seqAt mem' q := by
        intro q
        unfold seqAt
        simp only [Int.ofNat_eq_natCast]
        by_cases hq : 0 ≤ q
        · rw [if_pos hq, if_pos hq, List.getElem?_set]
          by_cases hqc : q = p + (c : Int)
          · rw [if_pos hqc, if_pos (by omega), if_pos (by omega)]
          · rw [if_neg hqc, if_neg (by omega)]
        · rw [if_neg hq, if_neg hq, if_neg (by omega)]
      refine ⟨mem'.set (p + Int.ofNat c).toNat v, ?_, by rw [List.length_set, hl], ?_, ?_⟩
      · rw [List.range_succ, List.foldlM_append, e]
        simp only [Option.bind_eq_bind, Option.bind_some, List.foldlM_cons, List.foldlM_nil, hv, hput]
        rfl
      · intro j hj
        rw [hat]
        by_cases hjc : j = c
        · subst hjc; rw [if_pos rfl, hv]
        · rw [if_neg (by simp only [Int.ofNat_eq_natCast]; omega)]
          exact h j (by omega)
      · intro q hq
        simp only [Int.ofNat_eq_natCast] at hq
        rw [hat, if_neg (by simp only [Int.ofNat_eq_natCast]; omega)]
        exact h' q (by simp only [Int.ofNat_eq_natCast]; omega)
  exact key N (Nat.le_refl N)

example : AdValid exMembers' ∧ InSeq (List.replicate 20 exObj) 5 8 :=
  ⟨exMembers'_valid, by constructor <;> decide⟩

/-! ### Arithmetic and comparisons -/

/-- `++it`, `--it`, `it + n`, `it - n` move by multiples of `N`; `a - b` counts vectors. -/
theorem C62_arithmetic (hN : 1 ≤ N) (h63 : N < 2 ^ 63) (p n k : Int) :
    iterInc N p = iterAdd N p 1 ∧ iterDec N p = iterSub N p 1 ∧ iterDec N (iterInc N p) = p ∧
      iterSub N (iterAdd N p n) n = p ∧ iterAdd N (iterAdd N p n) k = iterAdd N p (n + k) ∧
      iterDiff N (iterAdd N p n) p = n ∧ iterDiff N p (iterAdd N p n) = -n := by
  have hneg : (-(BitVec.ofNat 64 N)).toInt = -(N : Int) := by
    have h1 : (BitVec.ofNat 64 N).toNat = N := by
      rw [BitVec.toNat_ofNat, Nat.mod_eq_of_lt (by omega)]
    rw [BitVec.toInt_eq_toNat_bmod, BitVec.toNat_neg, h1, Int.bmod]
    omega
  have hz : (N : Int) ≠ 0 := by omega
  refine ⟨by simp [iterInc, iterAdd], ?_, ?_, ?_, ?_, ?_, ?_⟩
  · unfold iterDec iterSub; rw [hneg]; simp only [Int.ofNat_eq_natCast]; omega
  · unfold iterDec iterInc; rw [hneg]; simp only [Int.ofNat_eq_natCast]; omega
  · unfold iterSub iterAdd; omega
  · unfold iterAdd; rw [Int.add_mul]; omega
  · unfold iterDiff iterAdd
    rw [show p + n * Int.ofNat N - p = n * Int.ofNat N by omega]
    exact Int.mul_tdiv_cancel _ hz
  · unfold iterDiff iterAdd
    rw [show p - (p + n * Int.ofNat N) = -n * Int.ofNat N by rw [Int.neg_mul]; omega]
    exact Int.mul_tdiv_cancel _ hz

/-- `a == b` compares positions; `a < b` holds exactly if all elements that `*a` accesses come before `b`;
`a > b` is `b < a`. -/
theorem C62_compare (hN : 1 ≤ N) (a b : Int) :
    (iterEq a b = true ↔ a = b) ∧ (iterNe a b = true ↔ a ≠ b) ∧
      (iterLt N a b = true ↔ ∀ j : Nat, j < N → a + Int.ofNat j < b) ∧ iterGt N a b = iterLt N b a := by
  refine ⟨by simp [iterEq], by simp [iterNe, iterEq], ?_, rfl⟩
  simp only [iterLt, decide_eq_true_eq, Int.ofNat_eq_natCast]
  constructor
  · intro h j hj; omega
  · intro h
    have := h (N - 1) (by omega)
    omega

/-- `<=` and `>=` are `<` or `==`, resp. `>` or `==`, for one lane. For more lanes the claim is false, see
below. -/
theorem C62_le_partial (a b : Int) :
    (iterLe 1 a b = (iterLt 1 a b || iterEq a b)) ∧ iterGe 1 a b = (iterGt 1 a b || iterEq a b) := by
  constructor
  · rw [Bool.eq_iff_iff]
    simp [iterLe, iterLt, iterEq]
    omega
  · rw [Bool.eq_iff_iff]
    simp [iterGe, iterGt, iterEq]
    omega

/-- With more than one lane an iterator compares neither less-equal nor greater-equal to itself (`N - 1`
elements are missing). -/
theorem C62_le_violated (hN : 2 ≤ N) (a : Int) :
    iterEq a a = true ∧ iterLe N a a = false ∧ iterGe N a a = false := by
  simp [iterEq, iterLe, iterGe]
  omega

/-- Iterators a multiple of `N` apart: exactly one of `<`, `==`, `>` holds. -/
theorem C62_trichotomy (hN : 1 ≤ N) (a n : Int) :
    (iterLt N a (iterAdd N a n) = decide (0 < n)) ∧ (iterEq a (iterAdd N a n) = decide (n = 0)) ∧
      iterGt N a (iterAdd N a n) = decide (n < 0) := by
  have hz : (0 : Int) < Int.ofNat N := by simp only [Int.ofNat_eq_natCast]; omega
  have key : ∀ n : Int, 0 < n ↔ Int.ofNat N ≤ n * Int.ofNat N := by
    intro n
    constructor
    · intro h
      have := Int.mul_le_mul_of_nonneg_right (show (1 : Int) ≤ n from h) (Int.le_of_lt hz)
      omega
    · intro h
      apply Decidable.byContradiction
      intro hc
      have := Int.mul_le_mul_of_nonneg_right (show n ≤ 0 by omega) (Int.le_of_lt hz)
      omega
  refine ⟨?_, ?_, ?_⟩
  · unfold iterLt iterAdd
    rw [decide_eq_decide, key n]
    omega
  · rw [Bool.eq_iff_iff]
    simp only [iterEq, iterAdd, beq_iff_eq, decide_eq_true_eq]
    constructor
    · intro h
      have : n * Int.ofNat N = 0 := by omega
      rcases Int.mul_eq_zero.mp this with h | h
      · exact h
      · omega
    · intro h; subst h; omega
  · unfold iterGt iterAdd
    rw [decide_eq_decide]
    have h := key (-n)
    rw [Int.neg_mul] at h
    omega

example : (2 : Nat) ≤ 8 ∧ 8 < 2 ^ 63 := by decide

/-! ### Loops -/

private theorem loop_aux (cond : Int → Int → Bool) (b : Int) : ∀ (c fuel : Nat) (a : Int), c ≤ fuel →
    (∀ j : Nat, j < c → cond (a + Int.ofNat j * Int.ofNat N) b = true) →
    cond (a + Int.ofNat c * Int.ofNat N) b = false →
      iterLoop N cond b fuel a = some ((List.range c).map fun j => a + Int.ofNat j * Int.ofNat N)
  | 0, fuel, a, _, _, h => by
    have h' : cond a b = false := by simpa using h
    cases fuel <;> simp [iterLoop, h']
  | c + 1, 0, _, hf, _, _ => by omega
  | c + 1, fuel + 1, a, hf, ht, h => by
    have h0 : cond a b = true := by simpa using ht 0 (by omega)
    have hs : ∀ j : Nat, iterInc N a + Int.ofNat j * Int.ofNat N = a + Int.ofNat (j + 1) * Int.ofNat N := by
      intro j
      unfold iterInc
      have : Int.ofNat (j + 1) = Int.ofNat j + 1 := rfl
      rw [this, Int.add_mul]
      omega
    rw [iterLoop, if_pos h0, loop_aux cond b c fuel (iterInc N a) (by omega)
      (fun j hj => by rw [hs]; exact ht (j + 1) (by omega)) (by rw [hs]; exact h)]
    simp only [Option.map_some, List.range_succ_eq_map, List.map_cons, List.map_map]
    congr 1
    congr 1
    · simp
    · apply List.map_congr_left
      intro j _
      exact hs j

/-- `for (it = a; it != b; ++it)` with `b` `c` vectors behind `a` visits the `c` vectors in order. -/
theorem C62_loop (hN : 1 ≤ N) (a : Int) (c fuel : Nat) (hf : c ≤ fuel) :
    iterLoop N iterNe (a + Int.ofNat c * Int.ofNat N) fuel a =
      some ((List.range c).map fun j => a + Int.ofNat j * Int.ofNat N) := by
  apply loop_aux
  · exact hf
  · intro j hj
    have hz : (0 : Int) < Int.ofNat N := by simp only [Int.ofNat_eq_natCast]; omega
    have : Int.ofNat j * Int.ofNat N < Int.ofNat c * Int.ofNat N :=
      Int.mul_lt_mul_of_pos_right (by simp only [Int.ofNat_eq_natCast]; omega) hz
    simp only [iterNe, iterEq, Bool.not_eq_true', beq_eq_false_iff_ne]
    omega
  · simp [iterNe, iterEq]

/-- `for (it = a; it < b; ++it)` visits the vectors that lie completely before `b`, and no others: none of
the accessed elements is behind the end, and less than `N` elements remain. -/
theorem C62_loop_less (hN : 1 ≤ N) (a : Int) (len fuel : Nat) (hf : len / N ≤ fuel) :
    iterLoop N (iterLt N) (a + Int.ofNat len) fuel a =
      some ((List.range (len / N)).map fun j => a + Int.ofNat j * Int.ofNat N) := by
  apply loop_aux
  · exact hf
  · intro j hj
    have h1 : (j + 1) * N ≤ len := Nat.le_trans (Nat.mul_le_mul_right N hj) (Nat.div_mul_le_self len N)
    rw [Nat.add_mul] at h1
    simp only [iterLt, decide_eq_true_eq, Int.ofNat_eq_natCast]
    have : ((j * N : Nat) : Int) = (j : Int) * (N : Int) := Int.natCast_mul j N
    omega
  · have h1 := Nat.div_add_mod len N
    have h2 := Nat.mod_lt len hN
    simp only [iterLt, decide_eq_false_iff_not, Int.ofNat_eq_natCast]
    have : ((N * (len / N) : Nat) : Int) = ((len / N : Nat) : Int) * (N : Int) := by
      rw [Int.natCast_mul, Int.mul_comm]
    omega

example : iterLoop 4 (iterLt 4) (100 + Int.ofNat 11) 5 100 = some [100, 104] := by decide

/-! ### References -/

/-- `*it = x` of a named iterator object writes the elements of the iterator. -/
theorem C62_reference_assign (s : Iters) (it : Nat) (p : Int) (hs : s it = some p) (x : Adapter K)
    (mem : List (Obj K)) :
    ∃ r, iterDeref s it = some r ∧ refAssign N s r x mem = writeBack N x mem p := by
  refine ⟨⟨it⟩, by simp [iterDeref, hs], ?_⟩
  simp [refAssign, hs]

example : ∃ (s : Iters), s 3 = some 5 := ⟨fun _ => some 5, rfl⟩

/-- `it[i] = x` uses a reference to a temporary iterator that does not exist any more: it is undefined, for
all iterators, indexes and values. -/
theorem C62_subscript_assign_violated (s : Iters) (it : Nat) (p : Int) (hs : s it = some p) (i : Int) (t : Nat)
    (x : Adapter K) (mem : List (Obj K)) :
    ∃ r s', iterSubscript N s it i t = some (r, s') ∧ refAssign N s' r x mem = none := by
  refine ⟨⟨t⟩, fun j => if j = t then none else if j = t then some (iterAdd N p i) else s j, ?_, ?_⟩
  · simp [iterSubscript, hs, iterDeref]
  · simp [refAssign]

/-- A reference `auto &&r = *it` follows the iterator: after `++it` an assignment to `r` does not write to
the elements the reference was created from but to the next `N`. -/
theorem C62_reference_follows_violated (s : Iters) (it : Nat) (p : Int) (hs : s it = some p) (x : Adapter K)
    (mem : List (Obj K)) :
    ∃ r, iterDeref s it = some r ∧
      refAssign N (fun j => if j = it then some (iterInc N p) else s j) r x mem =
        writeBack N x mem (p + Int.ofNat N) := by
  refine ⟨⟨it⟩, by simp [iterDeref, hs], ?_⟩
  simp [refAssign, iterInc]

end Vc.Prop
