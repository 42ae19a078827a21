import Verif.Model.GatherSet
import Verif.Lemma.GatherAvx2
import Verif.Prop.GatherAvx2

/-!
# C108: gathers without gather instructions
-/

namespace Vc.Prop
open Vc.Model Vc.Spec Vc.Lemma

private theorem lane_pair16 (x1 x0 : BitVec 16) {j : Nat} (hj : j < 2) :
    Model.lane 16 (pair16 x1 x0) j = if j = 0 then x0 else x1 := by
  apply BitVec.eq_of_getLsbD_eq
  intro k hk
  rw [getLsbD_lane]
  unfold pair16
  have : j = 0 ∨ j = 1 := by omega
  rcases this with rfl | rfl
  · simp only [BitVec.getLsbD_or, BitVec.getLsbD_shiftLeft, BitVec.getLsbD_setWidth]
    simp [hk, show k < 32 by omega]
  · simp only [BitVec.getLsbD_or, BitVec.getLsbD_shiftLeft, BitVec.getLsbD_setWidth]
    simp [hk, show 16 + k < 32 by omega, show ¬ 16 + k < 16 by omega]
    omega

/-- `Vc::set(x0, ..., x7)`: entry `i` of the register is `xi`, in both variants of the function. -/
theorem C108_set (asm : Bool) (x : Nat → BitVec 16) (i : Nat) (hi : i < 8) :
    Model.lane 16 (set16 asm x) i = x i := by
  have h32 : ∀ q, q < 4 → Model.lane 32 (set16 asm x) q = pair16 (x (2 * q + 1)) (x (2 * q)) := by
    intro q hq
    unfold set16
    cases asm
    · rw [if_neg (by decide), lane_setr _ (by omega)]
      match q, hq with
      | 0, _ | 1, _ | 2, _ | 3, _ => rfl
    · rw [if_pos rfl]
      have m0 : ∀ t : BitVec 32, Model.lane 32 (movd t) 0 = t := fun t => by
        unfold movd
        apply BitVec.eq_of_getLsbD_eq
        intro k hk
        rw [getLsbD_lane, BitVec.getLsbD_setWidth]
        simp [hk, show k < 128 by omega]
      rw [lane_unpacklo64 _ _ hq]
      unfold pinsrd
      match q, hq with
      | 0, _ => rw [if_pos (by decide), lane_ofLanes _ (by decide), if_neg (by decide), m0]
      | 1, _ => rw [if_pos (by decide), lane_ofLanes _ (by decide), if_pos rfl]
      | 2, _ => rw [if_neg (by decide), lane_ofLanes _ (by decide), if_neg (by decide), m0]
      | 3, _ => rw [if_neg (by decide), lane_ofLanes _ (by decide), if_pos rfl]
  have h := lane_lane 16 2 (set16 asm x) (i / 2) (j := i % 2) (Nat.mod_lt _ (by decide))
  rw [show 2 * (i / 2) + i % 2 = i by omega] at h
  rw [← h]
  show Model.lane 16 (Model.lane 32 _ _) _ = _
  rw [h32 _ (by omega), lane_pair16 _ _ (Nat.mod_lt _ (by decide))]
  by_cases he : i % 2 = 0
  · rw [if_pos he]; congr 1; omega
  · rw [if_neg he]; congr 1; omega

example : Model.lane 16 (set16 true fun i => BitVec.ofNat 16 (0x1111 * i)) 6 = 0x6666#16 := C108_set true _ 6 (by decide)

/-- The numbers the type of `Scale * indexes[i]` can represent: `int` for indexes of less than 32 bits, else the type of
the indexes. -/
def InProduct (b : Nat) (sgn : Bool) (v : Int) : Prop :=
  if b < 32 ∨ sgn = true then -2 ^ (max b 32 - 1) ≤ v ∧ v < 2 ^ (max b 32 - 1) else 0 ≤ v ∧ v < 2 ^ max b 32

private theorem scaledIndex_eq {Scale : Nat} {sgn : Bool} {b : Nat} {x : BitVec b}
    (h : InProduct b sgn (Scale * indexValue sgn x)) : scaledIndex Scale sgn x = some (Scale * indexValue sgn x) := by
  unfold InProduct at h
  simp only [scaledIndex]
  by_cases hc : b < 32 ∨ sgn = true
  · rw [if_pos hc] at h ⊢
    rw [if_pos h]
  · rw [if_neg hc] at h ⊢
    rw [Int.emod_eq_of_lt h.1 h.2]

private theorem gatherEntry_eq {w mt : Nat} (conv : BitVec (8 * mt) → BitVec w) {Scale : Nat} {sgn : Bool} {b : Nat}
    {m : ByteMem} {a : Int} {x : BitVec b} (h : InProduct b sgn (Scale * indexValue sgn x)) {e : BitVec (8 * mt)}
    (he : EntryAt m (a + Scale * indexValue sgn x * (mt : Int)) e) :
    gatherEntry w mt conv Scale sgn m a x = some (conv e) := by
  unfold gatherEntry
  rw [scaledIndex_eq h]
  simp only [Option.bind_eq_bind, Option.bind_some, loadLE_entry he, BitVec.ofNat_toNat, BitVec.setWidth_eq]
  rfl

private theorem mapM_some {α β : Type} (g : α → Option β) (v : α → β) : ∀ l : List α, (∀ x ∈ l, g x = some (v x)) →
    l.mapM g = some (l.map v)
  | [], _ => rfl
  | x :: l, h => by
    rw [List.mapM_cons, h x (.head _), mapM_some g v l fun y hy => h y (.tail _ hy)]
    rfl

private theorem mapM_none {α β : Type} (g : α → Option β) : ∀ l : List α, (∃ x ∈ l, g x = none) → l.mapM g = none
  | [], h => by obtain ⟨x, h, -⟩ := h; cases h
  | x :: l, h => by
    rw [List.mapM_cons]
    cases hx : g x with
    | none => rfl
    | some y =>
      rw [mapM_none g l]
      · rfl
      · obtain ⟨z, hz, e⟩ := h
        cases hz with
        | head => rw [hx] at e; cases e
        | tail _ hz => exact ⟨z, hz, e⟩

/-- `gather(mem, indexes)`: entry `i` is the converted entry `Scale * indexes[i]` of the array. Nothing is said about the
rest of the memory, so nothing else is read. Missing from the full claim: products that the type of the indexes cannot
represent. -/
theorem C108_gather_partial {n : Nat} (hn : n = 128 ∨ n = 256) {w : Nat} (hw : w = 16 ∨ w = 32 ∨ w = 64) (asm : Bool)
    (mt : Nat) (conv : BitVec (8 * mt) → BitVec w) (Scale : Nat) (sgn : Bool) {b : Nat} (m : ByteMem) (a : Int)
    (idx : Nat → BitVec b) (e : Nat → BitVec (8 * mt))
    (hin : ∀ i, w * (i + 1) ≤ n → InProduct b sgn (Scale * indexValue sgn (idx i)))
    (he : ∀ i, w * (i + 1) ≤ n → EntryAt m (a + Scale * indexValue sgn (idx i) * (mt : Int)) (e i)) :
    ∃ r : BitVec n, gatherSet asm w mt conv Scale sgn m a idx = some r ∧
      ∀ i, w * (i + 1) ≤ n → Model.lane w r i = conv (e i) := by
  have hidx : ∀ i, i < n / w → w * (i + 1) ≤ n := by
    intro i hi
    have : w * (i + 1) ≤ w * (n / w) := Nat.mul_le_mul_left _ hi
    exact Nat.le_trans this (Nat.mul_div_le n w)
  have hidx' : ∀ i, w * (i + 1) ≤ n → i < n / w := by
    intro i hi
    rw [Nat.lt_iff_add_one_le, Nat.le_div_iff_mul_le (by omega), Nat.mul_comm]
    exact hi
  have hm : (List.range (n / w)).mapM (fun i => gatherEntry w mt conv Scale sgn m a (idx i)) =
      some ((List.range (n / w)).map fun i => conv (e i)) :=
    mapM_some _ _ _ fun i hi => gatherEntry_eq conv (hin i (hidx i (List.mem_range.mp hi)))
      (he i (hidx i (List.mem_range.mp hi)))
  have hg : ∀ i, i < n / w → ((List.range (n / w)).map fun i => conv (e i)).getD i 0 = conv (e i) := by
    intro i hi
    simp [List.getD, hi]
  simp only [gatherSet, hm, Option.bind_eq_bind, Option.bind_some]
  by_cases hc : n = 128 ∧ w = 16
  · obtain ⟨rfl, rfl⟩ := hc
    rw [if_pos ⟨rfl, rfl⟩]
    refine ⟨_, rfl, fun i hi => ?_⟩
    rw [BitVec.setWidth_eq, C108_set asm _ i (by omega), BitVec.setWidth_eq, hg i (hidx' i hi)]
  · rw [if_neg hc]
    refine ⟨_, rfl, fun i hi => ?_⟩
    rw [lane_setr _ hi, hg i (hidx' i hi)]

/-- SSE::short_v from an array of 32-bit integers, with `unsigned short` indexes and scale 2. -/
example : ∃ r : M128, gatherSet true 16 4 (fun e => e.setWidth 16) 2 false (exWords 0 16) 0
      (fun i => BitVec.ofNat 16 (7 - i)) = some r ∧
    ∀ i, 16 * (i + 1) ≤ 128 → Model.lane 16 r i = BitVec.ofNat 16 (114 - 2 * i) := by
  obtain ⟨r, h, hl⟩ := C108_gather_partial (n := 128) (.inl rfl) (w := 16) (.inl rfl) true 4 (fun e => e.setWidth 16) 2 false
    (exWords 0 16) 0 (fun i => BitVec.ofNat 16 (7 - i)) (fun i => BitVec.ofInt 32 ((14 - 2 * i : Nat) + 100))
    (fun i hi => by
      match i, hi with
      | 0, _ | 1, _ | 2, _ | 3, _ | 4, _ | 5, _ | 6, _ | 7, _ => exact ⟨by decide, by decide⟩
      | i + 8, hi => omega)
    (fun i hi => by
      have := exWords_entry (lo := 0) (hi := 16) (j := ((14 - 2 * i : Nat) : Int)) ⟨by omega, by omega⟩
      have e : (0 : Int) + (2 : Nat) * indexValue false (BitVec.ofNat 16 (7 - i)) * ((4 : Nat) : Int) =
          0 + ((14 - 2 * i : Nat) : Int) * (1 : Nat) * (32 / 8 : Nat) := by
        match i, hi with
        | 0, _ | 1, _ | 2, _ | 3, _ | 4, _ | 5, _ | 6, _ | 7, _ => decide
        | i + 8, hi => omega
      rw [e]; exact this)
  refine ⟨r, h, fun i hi => ?_⟩
  rw [hl i hi]
  match i, hi with
  | 0, _ | 1, _ | 2, _ | 3, _ | 4, _ | 5, _ | 6, _ | 7, _ => decide
  | i + 8, hi => omega

/-- Every byte of every entry is read. -/
theorem C108_reads {n : Nat} {w : Nat} (hw : 0 < w) (asm : Bool)
    (mt : Nat) (conv : BitVec (8 * mt) → BitVec w) (Scale : Nat) (sgn : Bool) {b : Nat} (m : ByteMem) (a : Int)
    (idx : Nat → BitVec b) {i j : Nat} (hi : w * (i + 1) ≤ n) (hin : InProduct b sgn (Scale * indexValue sgn (idx i)))
    (hj : j < mt) (h : m (a + Scale * indexValue sgn (idx i) * (mt : Int) + j) = none) :
    (gatherSet asm w mt conv Scale sgn m a idx : Option (BitVec n)) = none := by
  unfold gatherSet
  rw [mapM_none]
  · rfl
  · refine ⟨i, List.mem_range.mpr ?_, ?_⟩
    · rw [Nat.lt_iff_add_one_le, Nat.le_div_iff_mul_le hw, Nat.mul_comm]
      exact hi
    · unfold gatherEntry
      rw [scaledIndex_eq hin]
      simp only [Option.bind_eq_bind, Option.bind_some, loadLE_none m mt _ j hj h, Option.bind_none]

example : exWords 0 16 (0 + (1 : Nat) * indexValue true (16 : BitVec 32) * ((4 : Nat) : Int) + (2 : Nat)) = none := by decide

/-- The full claim: entry `i` is `array[Scale * indexes[i]]` for all indexes. -/
def gatherClaim : Prop := ∀ (asm : Bool) (Scale : Nat) (sgn : Bool) (m : ByteMem) (a : Int) (idx : Nat → BitVec 32)
  (e : Nat → BitVec 32), (∀ i, i < 4 → EntryAt m (a + Scale * indexValue sgn (idx i) * 4) (e i)) →
  ∃ r : M128, gatherSet asm 32 4 id Scale sgn m a idx = some r ∧ ∀ i, i < 4 → Model.lane 32 r i = e i

/-- Violated: with scale 2 (a struct of two entries) and `unsigned int` indexes the product wraps around, index 2^31 reads
the first struct of the array. -/
theorem C108_unsigned_violated : ¬ gatherClaim := by
  intro h
  -- the byte at address `q` is 1 behind 2^32, else 0
  obtain ⟨r, h1, h2⟩ := h true 2 false (fun q => if 2 ^ 33 ≤ q then some 1#8 else some 0#8) 0
    (fun _ => 0x80000000#32) (fun _ => 0x01010101#32) (fun i _ j hj => by
      have : j < 4 := by omega
      have hq : (2 : Int) ^ 33 ≤ 0 + (2 : Nat) * indexValue false 0x80000000#32 * 4 + j := by
        have : indexValue false 0x80000000#32 = 2147483648 := by decide
        rw [this]; omega
      simp only [hq, if_true]
      match j, this with
      | 0, _ | 1, _ | 2, _ | 3, _ => decide)
  have e0 : ∀ i : Nat, gatherEntry 32 4 id 2 false (fun q => if (2 : Int) ^ 33 ≤ q then some 1#8 else some 0#8) 0
      ((fun _ : Nat => 0x80000000#32) i) = some 0#32 := fun _ => by
    show gatherEntry 32 4 id 2 false (fun q => if (2 : Int) ^ 33 ≤ q then some 1#8 else some 0#8) 0 0x80000000#32 = some 0#32
    decide
  have hm : (List.range (128 / 32)).mapM (fun i => gatherEntry 32 4 id 2 false
      (fun q => if (2 : Int) ^ 33 ≤ q then some 1#8 else some 0#8) 0 ((fun _ : Nat => 0x80000000#32) i)) =
      some ((List.range (128 / 32)).map fun _ => 0#32) := mapM_some _ _ _ fun i _ => e0 i
  simp only [gatherSet] at h1
  rw [hm] at h1
  simp only [Option.bind_eq_bind, Option.bind_some] at h1
  rw [if_neg (by decide)] at h1
  have h1 := Option.some.inj h1
  have := h2 0 (by decide)
  rw [← h1, lane_setr _ (by decide)] at this
  exact absurd this (by decide)

end Vc.Prop
