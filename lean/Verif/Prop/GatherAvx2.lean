import Verif.Lemma.GatherAvx2
import Verif.Prop.AvxMask

/-!
C60: gathers with the AVX2 gather instructions.  Lane `i` gets the entry `Scale * indexes[i]` of the array, lanes
that are not selected by the mask keep their value, and only the bytes of the selected entries are read.

This does not hold if an index is not representable as `int` (entries of `uint_v`, of 64-bit index types), and
the short_v and ushort_v gathers read 4 bytes for every entry of 1 or 2 bytes.
-/

namespace Vc.Prop

open Vc.Spec Vc.Model Vc.Lemma

/-- float_v, double_v, int_v, uint_v with a mask.  Nothing is said about the memory apart from the selected
entries, so nothing else is read.  Missing from the full claim: indexes that are not representable as `int`. -/
theorem C60_masked_partial {n : Nat} (hn : n = 128 ∨ n = 256) {w : Nat} (hw : w = 32 ∨ w = 64) (Scale : Nat)
    (x k : BitVec n) (m : ByteMem) (a : Int) (idx : Nat → Int) (p : Nat → Bool) (hk : IsMask w k p)
    (e : Nat → BitVec w) (hin : ∀ i, w * (i + 1) ≤ n → p i = true → InInt32 (idx i))
    (he : ∀ i, w * (i + 1) ≤ n → p i = true → EntryAt m (a + idx i * Scale * (w / 8 : Nat)) (e i)) :
    ∃ r, gatherNativeMasked w Scale x k m a idx = some r ∧
      ∀ i, w * (i + 1) ≤ n → Model.lane w r i = if p i then e i else Model.lane w x i := by
  unfold gatherNativeMasked maskI32gather
  refine generate_some (v := fun i => if p i then e i else Model.lane w x i) fun i hi => ?_
  have hki : Model.lane w k i = laneMask (p i) := hk i hi
  rw [hki, laneMask_msb (by omega)]
  cases hp : p i
  · rfl
  · rw [if_pos rfl, if_pos rfl, toIntV_lane (idxBits_room hn hw hi) (hin i hi hp), Int.natCast_mul,
      Int.mul_comm ((w / 8 : Nat) : Int), ← Int.mul_assoc]
    exact load_entry hw (he i hi hp)

/-- Without a mask. -/
theorem C60_gather_partial {n : Nat} (hn : n = 128 ∨ n = 256) {w : Nat} (hw : w = 32 ∨ w = 64) (Scale : Nat)
    (m : ByteMem) (a : Int) (idx : Nat → Int) (e : Nat → BitVec w)
    (hin : ∀ i, w * (i + 1) ≤ n → InInt32 (idx i))
    (he : ∀ i, w * (i + 1) ≤ n → EntryAt m (a + idx i * Scale * (w / 8 : Nat)) (e i)) :
    ∃ r : BitVec n, gatherNative w Scale m a idx = some r ∧
      ∀ i, w * (i + 1) ≤ n → Model.lane w r i = e i := by
  have hd : w ∣ n := by
    rcases hn with rfl | rfl <;> rcases hw with rfl | rfl <;> decide
  obtain ⟨r, hr, hl⟩ := C60_masked_partial hn hw Scale (0#n) (BitVec.allOnes n) m a idx (fun _ => true)
    (fun i hi => lane_allOnes hi) e (fun i hi _ => hin i hi) (fun i hi _ => he i hi)
  exact ⟨r, by unfold gatherNative; rw [i32gather_eq (by omega) hd _ 0#n]; exact hr, hl⟩

/-- Every byte of a selected entry is read. -/
theorem C60_reads {n : Nat} (hn : n = 128 ∨ n = 256) {w : Nat} (hw : w = 32 ∨ w = 64) (Scale : Nat)
    (x k : BitVec n) (m : ByteMem) (a : Int) (idx : Nat → Int) (p : Nat → Bool) (hk : IsMask w k p) {i j : Nat}
    (hi : w * (i + 1) ≤ n) (hp : p i = true) (hin : InInt32 (idx i)) (hj : j < w / 8)
    (h : m (a + idx i * Scale * (w / 8 : Nat) + j) = none) : gatherNativeMasked w Scale x k m a idx = none := by
  have hki : Model.lane w k i = laneMask (p i) := hk i hi
  refine maskI32gather_none (by omega) hi ?_ hj ?_
  · rw [hki, laneMask_msb (by omega), hp]
  · rw [toIntV_lane (idxBits_room hn hw hi) hin, Int.natCast_mul, Int.mul_comm ((w / 8 : Nat) : Int), ← Int.mul_assoc]
    exact h

/-- An array of 32-bit entries at address 0: entry `j` is `j + 100`, for `lo ≤ j < hi`. -/
def exWords (lo hi : Int) : ByteMem := fun q =>
  if 4 * lo ≤ q ∧ q < 4 * hi then some ((BitVec.ofInt 32 (q / 4 + 100)).extractLsb' (8 * (q % 4).toNat) 8) else none

theorem exWords_entry {lo hi j : Int} (h : lo ≤ j ∧ j < hi) :
    EntryAt (exWords lo hi) (0 + j * (1 : Nat) * (32 / 8 : Nat)) (BitVec.ofInt 32 (j + 100)) := by
  intro t ht
  unfold exWords
  have e : (0 + j * ((1 : Nat) : Int) * ((32 / 8 : Nat) : Int) + t) = 4 * j + t := by omega
  rw [e, if_pos (by omega), show (4 * j + t) / 4 = j by omega, show ((4 * j + (t : Int)) % 4).toNat = t by omega]

/-- SSE::int_v, indexes 3, -1, 7, 1; nothing else can be read. -/
example : ∃ r : M128, gatherNative 32 1 (exWords (-1) 8) 0 (fun i => [3, -1, 7, 1].getD i 0) = some r ∧
    ∀ i, 32 * (i + 1) ≤ 128 → Model.lane 32 r i = BitVec.ofInt 32 ([3, -1, 7, 1].getD i 0 + 100) := by
  refine C60_gather_partial (.inl rfl) (.inl rfl) 1 _ _ _ _ (fun i hi => ?_) (fun i hi => exWords_entry ?_)
  · match i, hi with
    | 0, _ | 1, _ | 2, _ | 3, _ => exact ⟨by decide, by decide⟩
    | i + 4, hi => omega
  · match i, hi with
    | 0, _ | 1, _ | 2, _ | 3, _ => decide
    | i + 4, hi => omega

/-- AVX2::float_v with every second lane active; the other indexes are wild. -/
example : ∃ r : M256, gatherNativeMasked 32 1 (set1 32 7#32) (ofLanes 32 fun i => boolLane 32 (i % 2 == 1))
      (exWords 0 8) 0 (fun i => if i % 2 = 1 then i else 2 ^ 40) = some r ∧
    ∀ i, 32 * (i + 1) ≤ 256 → Model.lane 32 r i =
      if (i % 2 == 1) then BitVec.ofInt 32 (i + 100) else Model.lane 32 (set1 32 7#32 : M256) i := by
  have sel : ∀ i : Nat, (i % 2 == 1) = true → (if i % 2 = 1 then (i : Int) else 2 ^ 40) = i :=
    fun i h => if_pos (by simpa using h)
  refine C60_masked_partial (.inr rfl) (.inl rfl) 1 _ _ _ 0 _ (fun i => i % 2 == 1)
    (fun i hi => by exact lane_ofLanes _ hi) _ (fun i hi h => ?_) (fun i hi h => ?_)
  · rw [sel i h]; exact ⟨by omega, by omega⟩
  · rw [sel i h]; exact exWords_entry (by omega)

/-- An index of uint_v that does not fit into `int`: the entry is there, but another one is read. -/
theorem C60_index_violated :
    (∀ i, 32 * (i + 1) ≤ 128 → EntryAt (exWords 2147483648 2147483649)
      (0 + (fun _ => 2147483648 : Nat → Int) i * (1 : Nat) * (32 / 8 : Nat)) (BitVec.ofInt 32 2147483748)) ∧
    (gatherNative 32 1 (exWords 2147483648 2147483649) 0 (fun _ => 2147483648) : Option M128) = none := by
  constructor
  · intro i _
    exact exWords_entry (lo := 2147483648) (hi := 2147483649) (j := 2147483648) (by decide)
  · decide +kernel

/-- SSE::short_v and SSE::ushort_v with a mask, from entries of 1 or 2 bytes, signed if `ms`.  Missing from the full
claim: indexes that are not representable as `int`, and entries with unreadable bytes in the 4 bytes from their
address on. -/
theorem C60_sse16_masked_partial (I : Isa) (ext : Option M128) (u : M128) (sgn : Bool) {mt : Nat}
    (hmt : mt = 1 ∨ mt = 2) (ms : Bool) (Scale : Nat) (x k : M128) (m : ByteMem) (a : Int) (idx : Nat → Int)
    (p : Nat → Bool) (hk : IsMask 16 k p) (e : Nat → BitVec (8 * mt))
    (hin : ∀ i, i < 8 → p i = true → InInt32 (idx i))
    (he : ∀ i, i < 8 → p i = true → EntryAt m (a + idx i * Scale * mt) (e i))
    (hr : ∀ i, i < 8 → p i = true → Readable m (a + idx i * Scale * mt) 4) :
    ∃ r, gather16SseMasked I ext u sgn mt ms Scale x k m a idx = some r ∧
      ∀ i, i < 8 → Model.lane 16 r i = if p i then to16 ms (e i) else Model.lane 16 x i := by
  obtain ⟨k', hk', hpre, _⟩ := C63_fromSse_partial ext u false (.inl rfl) (.inr (.inl rfl)) hk
  obtain ⟨g, hg, hl⟩ := windows_masked hmt (k := k') (p := p)
    (fun i hi => hpre i (by omega) (by omega)) hin he hr
  refine ⟨_, by unfold gather16SseMasked; rw [hk']; simp only [Option.bind_eq_bind, Option.bind_some]; rw [hg]; rfl,
    fun i hi => ?_⟩
  have e1 : Model.lane 16 (sseAssign I 8 x (fixByte mt ms (narrow16 sgn g)) k) i =
      if p i then Model.lane 16 (fixByte mt ms (narrow16 sgn g)) i else Model.lane 16 x i :=
    lane_blendv I (w := 16) (v := 8) (c := 2) rfl (by decide) (by omega) x _ k (hk i (by omega))
  rw [e1]
  cases hp : p i
  · rfl
  · rw [if_pos rfl, if_pos rfl]
    exact lane_fixByte hmt ms (by omega) (lane_narrow16 sgn g hi) (hl i hi hp)

/-- Without a mask. -/
theorem C60_sse16_partial (sgn : Bool) {mt : Nat} (hmt : mt = 1 ∨ mt = 2) (ms : Bool) (Scale : Nat) (m : ByteMem)
    (a : Int) (idx : Nat → Int) (e : Nat → BitVec (8 * mt)) (hin : ∀ i, i < 8 → InInt32 (idx i))
    (he : ∀ i, i < 8 → EntryAt m (a + idx i * Scale * mt) (e i))
    (hr : ∀ i, i < 8 → Readable m (a + idx i * Scale * mt) 4) :
    ∃ r, gather16Sse sgn mt ms Scale m a idx = some r ∧ ∀ i, i < 8 → Model.lane 16 r i = to16 ms (e i) := by
  obtain ⟨g, hg, hl⟩ := windows_masked hmt (k := BitVec.allOnes 256) (p := fun _ => true)
    (fun i hi => lane_allOnes (by omega)) (fun i hi _ => hin i hi) (fun i hi _ => he i hi) (fun i hi _ => hr i hi)
  refine ⟨fixByte mt ms (narrow16 sgn g), ?_, fun i hi => ?_⟩
  · unfold gather16Sse
    rw [i32gather_eq (by decide) (by decide) _ 0#256, hg]
    rfl
  · exact lane_fixByte hmt ms (by omega) (lane_narrow16 sgn g hi) (hl i hi rfl)

/-- Bytes at address 0: byte `j` is `-j`, for `0 ≤ j < len`. -/
def exBytes (len : Int) : ByteMem := fun q => if 0 ≤ q ∧ q < len then some (BitVec.ofInt 8 (-q)) else none

theorem exBytes_entry {len j : Int} (h : 0 ≤ j ∧ j < len) :
    EntryAt (exBytes len) (0 + j * (1 : Nat) * (1 : Nat)) (BitVec.ofInt 8 (-j) : BitVec (8 * 1)) := by
  intro t ht
  unfold exBytes
  obtain rfl : t = 0 := by omega
  rw [show (0 + j * ((1 : Nat) : Int) * ((1 : Nat) : Int) + (0 : Nat)) = j by omega, if_pos (by omega)]
  congr 1
  apply BitVec.eq_of_toNat_eq
  rw [BitVec.extractLsb'_toNat, Nat.mul_zero, Nat.shiftRight_zero]
  have := (BitVec.ofInt 8 (-j)).isLt
  exact (Nat.mod_eq_of_lt this).symm

/-- SSE::short_v from the odd ones of 19 signed bytes. -/
example : ∃ r, gather16Sse true 1 true 1 (exBytes 19) 0 (fun i => 2 * i + 1) = some r ∧
    ∀ i, i < 8 → Model.lane 16 r i = to16 true (BitVec.ofInt 8 (-(2 * (i : Int) + 1)) : BitVec (8 * 1)) := by
  refine C60_sse16_partial true (.inl rfl) true 1 _ 0 _ _ (fun i hi => ⟨by omega, by omega⟩)
    (fun i hi => exBytes_entry (by omega)) (fun i hi j hj => ⟨_, if_pos ?_⟩)
  omega

/-- AVX2::short_v and AVX2::ushort_v with a mask.  Missing: as for SSE. -/
theorem C60_avx16_masked_partial (ext : Option M128) (sgn : Bool) {mt : Nat} (hmt : mt = 1 ∨ mt = 2) (ms : Bool)
    (Scale : Nat) (x k : M256) (m : ByteMem) (a : Int) (idx : Nat → Int) (p : Nat → Bool) (hk : IsMask 16 k p)
    (e : Nat → BitVec (8 * mt)) (hin : ∀ i, i < 16 → p i = true → InInt32 (idx i))
    (he : ∀ i, i < 16 → p i = true → EntryAt m (a + idx i * Scale * mt) (e i))
    (hr : ∀ i, i < 16 → p i = true → Readable m (a + idx i * Scale * mt) 4) :
    ∃ r, gather16AvxMasked ext sgn mt ms Scale x k m a idx = some r ∧
      ∀ i, i < 16 → Model.lane 16 r i = if p i then to16 ms (e i) else Model.lane 16 x i := by
  obtain ⟨k0, hk0, hpre, _⟩ := C63_cast_partial ext (.inl rfl) (.inr (.inl rfl)) hk
  obtain ⟨k1, hk1, hm1⟩ := C63_cast_offset (.inl rfl) (.inr (.inl rfl)) (offset := 1) (by decide) (by decide) hk
  obtain ⟨g0, hg0, hl0⟩ := windows_masked hmt (k := k0) (p := p)
    (fun i hi => hpre i (by omega) (by omega)) (fun i hi => hin i (by omega)) (fun i hi => he i (by omega))
    (fun i hi => hr i (by omega))
  obtain ⟨g1, hg1, hl1⟩ := windows_masked hmt (k := k1) (p := fun i => p (8 + i)) (idx := fun i => idx (8 + i))
    (e := fun i => e (8 + i)) (fun i hi => hm1 i (by omega)) (fun i hi => hin (8 + i) (by omega))
    (fun i hi => he (8 + i) (by omega)) (fun i hi => hr (8 + i) (by omega))
  obtain ⟨v, hv, hvl⟩ := lane_narrow16x2 sgn g0 g1
  refine ⟨avxAssign true 8 x (fixByte mt ms v) k, ?_, fun i hi => ?_⟩
  · unfold gather16AvxMasked
    rw [show amCast ext 16 8 k = some k0 from hk0, show amCastOffset 16 8 1 k = some k1 from hk1]
    simp only [Option.bind_eq_bind, Option.bind_some]
    rw [hg0]
    simp only [Option.bind_some]
    rw [hg1]
    simp only [Option.bind_some]
    rw [hv]
    rfl
  · have e1 : Model.lane 16 (avxAssign true 8 x (fixByte mt ms v) k) i =
        if p i then Model.lane 16 (fixByte mt ms v) i else Model.lane 16 x i :=
      lane_avxBlendv8 true (w := 16) (c := 2) (k := 8) rfl rfl (by omega) x _ k (hk i (by omega))
    rw [e1]
    cases hp : p i
    · rfl
    · rw [if_pos rfl, if_pos rfl]
      refine lane_fixByte hmt ms (by omega) (hvl i hi) ?_
      by_cases h8 : i < 8
      · rw [if_pos h8]; exact hl0 i h8 hp
      · have h := hl1 (i - 8) (by omega)
        rw [show 8 + (i - 8) = i by omega] at h
        rw [if_neg h8]
        exact h hp

/-- Without a mask. -/
theorem C60_avx16_partial (sgn : Bool) {mt : Nat} (hmt : mt = 1 ∨ mt = 2) (ms : Bool) (Scale : Nat) (m : ByteMem)
    (a : Int) (idx : Nat → Int) (e : Nat → BitVec (8 * mt)) (hin : ∀ i, i < 16 → InInt32 (idx i))
    (he : ∀ i, i < 16 → EntryAt m (a + idx i * Scale * mt) (e i))
    (hr : ∀ i, i < 16 → Readable m (a + idx i * Scale * mt) 4) :
    ∃ r, gather16Avx sgn mt ms Scale m a idx = some r ∧ ∀ i, i < 16 → Model.lane 16 r i = to16 ms (e i) := by
  obtain ⟨g0, hg0, hl0⟩ := windows_masked hmt (k := BitVec.allOnes 256) (p := fun _ => true)
    (fun i hi => lane_allOnes (by omega)) (fun i hi _ => hin i (by omega)) (fun i hi _ => he i (by omega))
    (fun i hi _ => hr i (by omega))
  obtain ⟨g1, hg1, hl1⟩ := windows_masked hmt (k := BitVec.allOnes 256) (p := fun _ => true)
    (idx := fun i => idx (8 + i)) (e := fun i => e (8 + i)) (fun i hi => lane_allOnes (by omega))
    (fun i hi _ => hin (8 + i) (by omega)) (fun i hi _ => he (8 + i) (by omega))
    (fun i hi _ => hr (8 + i) (by omega))
  obtain ⟨v, hv, hvl⟩ := lane_narrow16x2 sgn g0 g1
  refine ⟨fixByte mt ms v, ?_, fun i hi => ?_⟩
  · unfold gather16Avx
    rw [i32gather_eq (by decide) (by decide) _ 0#256, hg0]
    simp only [Option.bind_eq_bind, Option.bind_some]
    rw [i32gather_eq (by decide) (by decide) _ 0#256, hg1]
    simp only [Option.bind_some]
    rw [hv]
    rfl
  · refine lane_fixByte hmt ms (by omega) (hvl i hi) ?_
    by_cases h8 : i < 8
    · rw [if_pos h8]; exact hl0 i h8 rfl
    · have h := hl1 (i - 8) (by omega) rfl
      rw [show 8 + (i - 8) = i by omega] at h
      rw [if_neg h8]
      exact h

/-- An array of 16-bit entries at address 0: entry `j` is `1000 * j - 5000`, for `0 ≤ j < len`; `pad` bytes behind
the array can be read, too. -/
def exShorts (len pad : Int) : ByteMem := fun q =>
  if 0 ≤ q ∧ q < 2 * len + pad then
    some ((BitVec.ofInt 16 (1000 * (q / 2) - 5000)).extractLsb' (8 * (q % 2).toNat) 8) else none

theorem exShorts_entry {len pad j : Int} (h : 0 ≤ j ∧ j < len) (hpad : 0 ≤ pad) :
    EntryAt (exShorts len pad) (0 + j * (1 : Nat) * (2 : Nat)) (BitVec.ofInt 16 (1000 * j - 5000) : BitVec (8 * 2)) := by
  intro t ht
  unfold exShorts
  have e : (0 + j * ((1 : Nat) : Int) * ((2 : Nat) : Int) + t) = 2 * j + t := by omega
  rw [e, if_pos (by omega), show (2 * j + t) / 2 = j by omega, show ((2 * j + (t : Int)) % 2).toNat = t by omega]

/-- Lanes 0, 3, 6, … of AVX2::ushort_v; the other indexes are wild. -/
example : ∃ r, gather16AvxMasked none false 2 true 1 (set1 16 7#16)
      (ofLanes 16 fun i => boolLane 16 (i % 3 == 0)) (exShorts 20 2) 0
      (fun i => if i % 3 = 0 then 19 - i else 2 ^ 40) = some r ∧
    ∀ i, i < 16 → Model.lane 16 r i = if (i % 3 == 0) then to16 true (BitVec.ofInt 16 (1000 * (19 - (i : Int)) - 5000) :
      BitVec (8 * 2)) else Model.lane 16 (set1 16 7#16 : M256) i := by
  have sel : ∀ i : Nat, (i % 3 == 0) = true → (if i % 3 = 0 then 19 - (i : Int) else 2 ^ 40) = 19 - (i : Int) :=
    fun i h => if_pos (by simpa using h)
  refine C60_avx16_masked_partial none false (.inr rfl) true 1 _ _ _ 0 _ (fun i => i % 3 == 0)
    (fun i hi => by exact lane_ofLanes _ hi) _ (fun i hi h => ?_) (fun i hi h => ?_) (fun i hi h => ?_)
  · rw [sel i h]; exact ⟨by omega, by omega⟩
  · rw [sel i h]; exact exShorts_entry (by omega) (by decide)
  · rw [sel i h]
    intro j hj
    refine ⟨_, if_pos ?_⟩
    omega

/-- An entry with an unreadable byte in the 4 bytes from its address on can not be gathered. -/
theorem C60_sse16_reads (sgn : Bool) (mt : Nat) (ms : Bool) (Scale : Nat) (m : ByteMem) (a : Int) (idx : Nat → Int)
    {i j : Nat} (hi : i < 8) (hin : InInt32 (idx i)) (hj : j < 4) (h : m (a + idx i * Scale * mt + j) = none) :
    gather16Sse sgn mt ms Scale m a idx = none := by
  unfold gather16Sse
  rw [i32gather_eq (by decide) (by decide) _ 0#256, maskI32gather_none (i := i) (j := j) (by decide) (by omega) _ hj]
  · rfl
  · rw [toIntV_lane (by omega) hin, Int.natCast_mul, Int.mul_comm (mt : Int), ← Int.mul_assoc]
    exact h
  · rw [lane_allOnes (by omega)]; rfl

/-- The same for the upper and lower half of the AVX2 vectors. -/
theorem C60_avx16_reads (sgn : Bool) (mt : Nat) (ms : Bool) (Scale : Nat) (m : ByteMem) (a : Int) (idx : Nat → Int)
    {i j : Nat} (hi : i < 16) (hin : InInt32 (idx i)) (hj : j < 4) (h : m (a + idx i * Scale * mt + j) = none) :
    gather16Avx sgn mt ms Scale m a idx = none := by
  have half : ∀ (f : Nat → Int) (i : Nat), i < 8 → InInt32 (f i) → m (a + f i * Scale * mt + j) = none →
      (i32gather 32 (mt * Scale) m a (toIntV 256 f) : Option M256) = none := by
    intro f i hi hin h
    rw [i32gather_eq (by decide) (by decide) _ 0#256, maskI32gather_none (i := i) (j := j) (by decide) (by omega) _ hj]
    · rw [toIntV_lane (by omega) hin, Int.natCast_mul, Int.mul_comm (mt : Int), ← Int.mul_assoc]
      exact h
    · rw [lane_allOnes (by omega)]; rfl
  unfold gather16Avx
  by_cases h8 : i < 8
  · rw [half idx i h8 hin h]; rfl
  · rw [half (fun t => idx (8 + t)) (i - 8) (by omega) (by rw [show 8 + (i - 8) = i by omega]; exact hin)
      (by rw [show 8 + (i - 8) = i by omega]; exact h)]
    simp [Option.bind_none]

/-- All eight entries of an array of eight 16-bit integers: every entry is readable, but the gather reads the two
bytes behind the array. -/
theorem C60_sse16_violated :
    (∀ i, i < 8 → EntryAt (exShorts 8 0) (0 + ((i : Nat) : Int) * (1 : Nat) * (2 : Nat))
      (BitVec.ofInt 16 (1000 * i - 5000) : BitVec (8 * 2))) ∧
    gather16Sse true 2 true 1 (exShorts 8 0) 0 (fun i => i) = none := by
  refine ⟨fun i hi => exShorts_entry (by omega) (by decide), ?_⟩
  exact C60_sse16_reads true 2 true 1 _ 0 _ (i := 7) (j := 2) (by decide) ⟨by decide, by decide⟩ (by decide) rfl

/-- The same for AVX2::short_v and an array of 16 entries. -/
theorem C60_avx16_violated :
    (∀ i, i < 16 → EntryAt (exShorts 16 0) (0 + ((i : Nat) : Int) * (1 : Nat) * (2 : Nat))
      (BitVec.ofInt 16 (1000 * i - 5000) : BitVec (8 * 2))) ∧
    gather16Avx true 2 true 1 (exShorts 16 0) 0 (fun i => i) = none := by
  refine ⟨fun i hi => exShorts_entry (by omega) (by decide), ?_⟩
  exact C60_avx16_reads true 2 true 1 _ 0 _ (i := 15) (j := 2) (by decide) ⟨by decide, by decide⟩ (by decide) rfl

end Vc.Prop
