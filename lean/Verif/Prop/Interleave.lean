import Verif.Lemma.InterleaveP

/-!
# C32, C33: interleaved memory access

`InterleavedMemoryWrapper<S, V>`: an array of structs with `S` members of the entry type of `V` is read
and written with one vector per member. `V` is any of the vector types `Scalar::Vector<T>` (entries of
any width), `SSE::Vector` and `AVX2::Vector` with entries of 16, 32 and 64 bit. Component `l` of a vector
`v` is `lane V.width v l`. Index vectors have signed 32 bit components; `wrapper[first]` takes a `size_t`.
-/

namespace Vc.Prop
open Vc.Model Vc.Spec Vc.Lemma

/-- The struct numbers of an index vector. -/
def structs (idx : Nat → BitVec 32) (l : Nat) : Int := (idx l).toInt

/-- The struct numbers of `wrapper[first]`. -/
def structsS (first : BitVec 64) (l : Nat) : Int := Int.ofNat (first.toNat + l)

/-- The offsets fit into the index type. -/
def Fits (S : Nat) (idx : Nat → BitVec 32) (size : Nat) : Prop :=
  ∀ l, l < size → -2 ^ 31 ≤ (idx l).toInt * Int.ofNat S ∧ (idx l).toInt * Int.ofNat S < 2 ^ 31

/-- The offsets fit into `size_t`. -/
def FitsS (S : Nat) (first : BitVec 64) (size : Nat) : Prop :=
  ∀ l, l < size → (first.toNat + l) * S < 2 ^ 64

private theorem offsets {S size : Nat} {idx : Nat → BitVec 32} (h : Fits S idx size) :
    Offsets S size (structs idx) fun l => (scaleIndex S (idx l)).toInt :=
  fun l hl => scaleIndex_toInt S (idx l) (h l hl).1 (h l hl).2

private theorem offsetsS {S size : Nat} {first : BitVec 64} (h : FitsS S first size) :
    Offsets S size (structsS first)
      fun l => Int.ofNat (successive S (scaleFirst S first) l).toNat := by
  intro l hl
  show Int.ofNat _ = Int.ofNat _ * Int.ofNat _
  rw [successive_toNat S first l (h l hl)]
  simp

private theorem succ {S size : Nat} {first : BitVec 64} (h : FitsS S first size) :
    Succ S size fun l => Int.ofNat (successive S (scaleFirst S first) l).toNat := by
  intro l hl
  show Int.ofNat (successive S (scaleFirst S first) l).toNat =
    Int.ofNat (successive S (scaleFirst S first) 0).toNat + Int.ofNat (S * l)
  rw [successive_toNat S first l (h l hl), successive_toNat S first 0 (h 0 (by omega)), Nat.add_mul,
    Nat.mul_comm l S]
  simp

private theorem distinctS (first : BitVec 64) (size : Nat) : Distinct (structsS first) size := by
  intro l l' _ _ h
  unfold structsS at h
  simp only [Int.ofNat_eq_natCast] at h
  omega

private theorem vec_ext (V : ILVec) {x y : BitVec V.bits}
    (h : ∀ l, l < V.size → lane V.width x l = lane V.width y l) : x = y := by
  cases V with
  | scalar w =>
    have := h 0 (by decide : (0 : Nat) < 1)
    have e : ∀ z : BitVec w, lane w z 0 = z := lane_self
    exact (e x).symm.trans (this.trans (e y))
  | sse8 => exact reg_ext (n := 128) 16 (by decide) (by decide) h
  | sse4 => exact reg_ext (n := 128) 32 (by decide) (by decide) h
  | sse2 => exact reg_ext (n := 128) 64 (by decide) (by decide) h
  | avx16 => exact reg_ext (n := 256) 16 (by decide) (by decide) h
  | avx8 => exact reg_ext (n := 256) 32 (by decide) (by decide) h
  | avx4 => exact reg_ext (n := 256) 64 (by decide) (by decide) h

private theorem vecs_ext (V : ILVec) {vs ws : List (BitVec V.bits)} (hl : vs.length = ws.length)
    (h : ∀ l, l < V.size → ∀ j, j < vs.length →
      lane V.width (vs.getD j 0) l = lane V.width (ws.getD j 0) l) : vs = ws := by
  refine List.ext_getElem hl fun j hj hj' => ?_
  refine vec_ext V fun l hlt => ?_
  have := h l hlt j hj
  simpa [List.getD, hj, hj'] using this

variable {C : ILCfg} {V : ILVec} {S k : Nat} {m : ILMem V.width} {data : Int} {idx : Nat → BitVec 32}
  {first : BitVec 64} {vs : List (BitVec V.bits)}

/-! ## C32 -/

/-- `wrapper[idx] = (v0, ..., vk)` with distinct indexes writes component `l` of vector `j` to member `j`
of struct `idx[l]`, and nothing else; it needs only the written members to exist. -/
theorem C32_write (hv : 2 ≤ vs.length ∧ vs.length ≤ 8) (hS : vs.length ≤ S) (hf : Fits S idx V.size)
    (hd : Distinct (structs idx) V.size)
    (hm : MembersExist m data S (structs idx) V.size vs.length) :
    ∃ m', ilWrite C V S m data idx vs = some m' ∧
      Holds m' data S (structs idx) V.size vs.length (fun j l => lane V.width (vs.getD j 0) l) ∧
      SameOutside m m' data S (structs idx) V.size vs.length := by
  unfold ilWrite
  rw [if_pos hS]
  exact scatters_some (scatters_interleave C V data _ hv) (offsets hf) hS hd hm

/-- If a member to be written does not exist, the write is a fault (also with equal indexes). -/
theorem C32_write_fault (hv : 2 ≤ vs.length ∧ vs.length ≤ 8) (hS : vs.length ≤ S)
    (hf : Fits S idx V.size)
    (hm : ¬ MembersExist m data S (structs idx) V.size vs.length) :
    ilWrite C V S m data idx vs = none := by
  unfold ilWrite
  rw [if_pos hS]
  exact scatters_none (scatters_interleave C V data _ hv) (offsets hf) hm

/-- The same for `wrapper[first] = (v0, ..., vk)` and the structs `first`, `first + 1`, .... -/
theorem C32_write_successive (hv : 2 ≤ vs.length ∧ vs.length ≤ 8) (hS : vs.length ≤ S)
    (hf : FitsS S first V.size)
    (hm : MembersExist m data S (structsS first) V.size vs.length) :
    ∃ m', ilWriteS C V S m data first vs = some m' ∧
      Holds m' data S (structsS first) V.size vs.length (fun j l => lane V.width (vs.getD j 0) l) ∧
      SameOutside m m' data S (structsS first) V.size vs.length := by
  unfold ilWriteS
  rw [if_pos hS]
  exact scatters_some (scatters_interleaveS C S V data (succ hf) hv) (offsetsS hf) hS
    (distinctS first V.size) hm

theorem C32_write_successive_fault (hv : 2 ≤ vs.length ∧ vs.length ≤ 8) (hS : vs.length ≤ S)
    (hf : FitsS S first V.size)
    (hm : ¬ MembersExist m data S (structsS first) V.size vs.length) :
    ilWriteS C V S m data first vs = none := by
  unfold ilWriteS
  rw [if_pos hS]
  exact scatters_none (scatters_interleaveS C S V data (succ hf) hv) (offsetsS hf) hm

/-- `(v0, ..., vk) = wrapper[idx]`: component `l` of vector `j` is member `j` of struct `idx[l]`. The
indexes may be equal. (That the read is not a fault: C33.) -/
theorem C32_read (hk : 2 ≤ k ∧ k ≤ 8) (hf : Fits S idx V.size)
    (hr : ilRead V S k m data idx = some vs) :
    vs.length = k ∧
      Holds m data S (structs idx) V.size k (fun j l => lane V.width (vs.getD j 0) l) := by
  have hg := gathers_deinterleave V hk data fun l => (scaleIndex S (idx l)).toInt
  by_cases hm : MembersExist m data S (structs idx) V.size (readSpan V k)
  · obtain ⟨ws, h1, h2, h3⟩ := gathers_some hg (offsets hf) hm
    have : ws = vs := Option.some.inj (h1.symm.trans hr)
    subst this
    exact ⟨h2, h3⟩
  · have := gathers_none hg (offsets hf) hm
    cases this.symm.trans hr

/-- The same for `(v0, ..., vk) = wrapper[first]`. -/
theorem C32_read_successive (hk : 2 ≤ k ∧ k ≤ 8) (hf : FitsS S first V.size)
    (hr : ilReadS V S k m data first = some vs) :
    vs.length = k ∧
      Holds m data S (structsS first) V.size k (fun j l => lane V.width (vs.getD j 0) l) := by
  have hg := gathers_deinterleaveS S V hk data (succ hf)
  by_cases hm : MembersExist m data S (structsS first) V.size (readSpanS S V k)
  · obtain ⟨ws, h1, h2, h3⟩ := gathers_some hg (offsetsS hf) hm
    have : ws = vs := Option.some.inj (h1.symm.trans hr)
    subst this
    exact ⟨h2, h3⟩
  · have := gathers_none hg (offsetsS hf) hm
    cases this.symm.trans hr

private theorem holds_unique {n w size : Nat} {m : ILMem w} {e : Nat → Int} {vs ws : List (BitVec n)}
    (h1 : Holds m data S e size k (fun j l => lane w (vs.getD j 0) l))
    (h2 : Holds m data S e size k (fun j l => lane w (ws.getD j 0) l)) :
    ∀ l, l < size → ∀ j, j < k → lane w (vs.getD j 0) l = lane w (ws.getD j 0) l :=
  fun l hl j hj => Option.some.inj ((h1 l hl j hj).symm.trans (h2 l hl j hj))

/-- Reading what was written gives the vectors back. -/
theorem C32_write_read (hv : 2 ≤ vs.length ∧ vs.length ≤ 8) (hS : vs.length ≤ S)
    (hf : Fits S idx V.size) (hd : Distinct (structs idx) V.size) {m' : ILMem V.width}
    {ws : List (BitVec V.bits)} (hw : ilWrite C V S m data idx vs = some m')
    (hr : ilRead V S vs.length m' data idx = some ws) : ws = vs := by
  by_cases hm : MembersExist m data S (structs idx) V.size vs.length
  · obtain ⟨m'', h1, h2, -⟩ := C32_write (C := C) hv hS hf hd hm
    have : m'' = m' := Option.some.inj (h1.symm.trans hw)
    subst this
    obtain ⟨hl, h3⟩ := C32_read hv hf hr
    refine vecs_ext V hl ?_
    rw [hl]
    exact holds_unique h3 h2
  · cases (C32_write_fault (C := C) hv hS hf hm).symm.trans hw

theorem C32_write_read_successive (hv : 2 ≤ vs.length ∧ vs.length ≤ 8) (hS : vs.length ≤ S)
    (hf : FitsS S first V.size) {m' : ILMem V.width} {ws : List (BitVec V.bits)}
    (hw : ilWriteS C V S m data first vs = some m')
    (hr : ilReadS V S vs.length m' data first = some ws) : ws = vs := by
  by_cases hm : MembersExist m data S (structsS first) V.size vs.length
  · obtain ⟨m'', h1, h2, -⟩ := C32_write_successive (C := C) hv hS hf hm
    have : m'' = m' := Option.some.inj (h1.symm.trans hw)
    subst this
    obtain ⟨hl, h3⟩ := C32_read_successive hv hf hr
    refine vecs_ext V hl ?_
    rw [hl]
    exact holds_unique h3 h2
  · cases (C32_write_successive_fault (C := C) hv hS hf hm).symm.trans hw

private theorem holds_exist {β : Type} {m : Int → Option β} {e : Nat → Int} {size : Nat}
    {v : Nat → Nat → β} (h : Holds m data S e size k v) : MembersExist m data S e size k :=
  fun l hl j hj => by rw [h l hl j hj]; rfl

private theorem mem_unchanged {β : Type} {m m' : Int → Option β} {e : Nat → Int} {size : Nat}
    {v : Nat → Nat → β} (h : Holds m data S e size k v) (h' : Holds m' data S e size k v)
    (hs : SameOutside m m' data S e size k) : m' = m := by
  funext a
  by_cases ha : ∃ l, l < size ∧ ∃ j, j < k ∧ a = member data S (e l) j
  · obtain ⟨l, hl, j, hj, rfl⟩ := ha
    rw [h l hl j hj, h' l hl j hj]
  · exact hs a fun l hl j hj hh => ha ⟨l, hl, j, hj, hh⟩

/-- Writing back what was read leaves the memory unchanged. -/
theorem C32_read_write (hk : 2 ≤ k ∧ k ≤ 8) (hS : k ≤ S)
    (hf : Fits S idx V.size) (hd : Distinct (structs idx) V.size)
    (hr : ilRead V S k m data idx = some vs) : ilWrite C V S m data idx vs = some m := by
  obtain ⟨hl, h3⟩ := C32_read hk hf hr
  subst hl
  obtain ⟨m', h1, h2, h4⟩ := C32_write (C := C) hk hS hf hd (holds_exist h3)
  rw [h1, mem_unchanged h3 h2 h4]

theorem C32_read_write_successive (hk : 2 ≤ k ∧ k ≤ 8) (hS : k ≤ S) (hf : FitsS S first V.size)
    (hr : ilReadS V S k m data first = some vs) : ilWriteS C V S m data first vs = some m := by
  obtain ⟨hl, h3⟩ := C32_read_successive hk hf hr
  subst hl
  obtain ⟨m', h1, h2, h4⟩ := C32_write_successive (C := C) hk hS hf (holds_exist h3)
  rw [h1, mem_unchanged h3 h2 h4]

/-! ## C33 -/

/-- Number of entries, from the first member on, that `(v1, ..., vk) = wrapper[idx]` accesses in each
struct. -/
def accessed (V : ILVec) (k : Nat) : Nat :=
  match V, k with
  | .sse8, 3 | .avx16, 3 | .sse4, 3 | .avx8, 3 => 4
  | .sse8, 5 | .avx16, 5 | .sse8, 6 | .avx16, 6 => 8
  | .sse8, 7 | .avx16, 7 | .sse4, 7 | .avx8, 7 => 8
  | _, k => k

/-- The same for `wrapper[first]`. -/
def accessedS (S : Nat) (V : ILVec) (k : Nat) : Nat :=
  match V with
  | .avx8 => if S = 3 then k else accessed .avx8 k
  | V => accessed V k

private theorem accessed_eq (V : ILVec) {k : Nat} (hk : 2 ≤ k ∧ k ≤ 8) : readSpan V k = accessed V k := by
  have : k = 2 ∨ k = 3 ∨ k = 4 ∨ k = 5 ∨ k = 6 ∨ k = 7 ∨ k = 8 := by omega
  cases V <;> rcases this with rfl | rfl | rfl | rfl | rfl | rfl | rfl <;> rfl

private theorem accessedS_eq (S : Nat) (V : ILVec) {k : Nat} (hk : 2 ≤ k ∧ k ≤ 8) :
    readSpanS S V k = accessedS S V k := by
  cases V with
  | avx8 =>
    show (if S = 3 then k else readSpan .avx8 k) = if S = 3 then k else accessed .avx8 k
    rw [accessed_eq _ hk]
  | scalar w => exact accessed_eq (.scalar w) hk
  | sse8 => exact accessed_eq .sse8 hk
  | sse4 => exact accessed_eq .sse4 hk
  | sse2 => exact accessed_eq .sse2 hk
  | avx16 => exact accessed_eq .avx16 hk
  | avx4 => exact accessed_eq .avx4 hk

/-- A read is not a fault exactly if the accessed entries of all addressed structs exist. -/
theorem C33_accessed_entries (hk : 2 ≤ k ∧ k ≤ 8) (hf : Fits S idx V.size) :
    (ilRead V S k m data idx).isSome ↔
      MembersExist m data S (structs idx) V.size (accessed V k) := by
  have hg := gathers_deinterleave V hk data fun l => (scaleIndex S (idx l)).toInt
  rw [accessed_eq V hk] at hg
  constructor
  · intro h
    by_cases hm : MembersExist m data S (structs idx) V.size (accessed V k)
    · exact hm
    · have := gathers_none hg (offsets hf) hm
      unfold ilRead at h
      rw [this] at h
      cases h
  · intro hm
    obtain ⟨vs, h, -⟩ := gathers_some hg (offsets hf) hm
    unfold ilRead
    rw [h]; rfl

theorem C33_accessed_entries_successive (hk : 2 ≤ k ∧ k ≤ 8) (hf : FitsS S first V.size) :
    (ilReadS V S k m data first).isSome ↔
      MembersExist m data S (structsS first) V.size (accessedS S V k) := by
  have hg := gathers_deinterleaveS S V hk data (succ hf)
  rw [accessedS_eq S V hk] at hg
  constructor
  · intro h
    by_cases hm : MembersExist m data S (structsS first) V.size (accessedS S V k)
    · exact hm
    · have := gathers_none hg (offsetsS hf) hm
      unfold ilReadS at h
      rw [this] at h
      cases h
  · intro hm
    obtain ⟨vs, h, -⟩ := gathers_some hg (offsetsS hf) hm
    unfold ilReadS
    rw [h]; rfl

/-- Full statement: if the addressed structs exist, reading at most `S` members is not a fault (so the
read stays inside of them, as no other memory need exist). Proved for the vector types and member counts
with `accessed V k ≤ S`: all for doubles and `Scalar`, 2, 4, 5, 6, 8 members for 32 bit entries, 2, 4, 8
members for 16 bit entries, and any number for structs with enough further members. Missing: the
others, for which it is wrong, see `C33_last_struct_violated`. -/
theorem C33_inside_structs_partial (hk : 2 ≤ k ∧ k ≤ 8) (hS : accessed V k ≤ S)
    (hf : Fits S idx V.size) (hm : MembersExist m data S (structs idx) V.size S) :
    (ilRead V S k m data idx).isSome := by
  rw [C33_accessed_entries hk hf]
  exact fun l hl j hj => hm l hl j (by omega)

theorem C33_inside_structs_successive_partial (hk : 2 ≤ k ∧ k ≤ 8) (hS : accessedS S V k ≤ S)
    (hf : FitsS S first V.size) (hm : MembersExist m data S (structsS first) V.size S) :
    (ilReadS V S k m data first).isSome := by
  rw [C33_accessed_entries_successive hk hf]
  exact fun l hl j hj => hm l hl j (by omega)

/-- The memory that consists of an array of `N` structs. -/
def IsArray {β : Type} (m : Int → Option β) (data : Int) (S N : Nat) : Prop :=
  ∀ a, (m a).isSome ↔ data ≤ a ∧ a < data + Int.ofNat (N * S)

/-- If the struct after the last addressed one still belongs to the array, the read stays inside the
array, for every vector type and struct. -/
theorem C33_inside_array_partial {N : Nat} (hk : 2 ≤ k ∧ k ≤ 8) (hS : k ≤ S) (hf : Fits S idx V.size)
    (hm : IsArray m data S N)
    (hN : ∀ l, l < V.size → 0 ≤ structs idx l ∧ structs idx l + 1 < Int.ofNat N) :
    (ilRead V S k m data idx).isSome := by
  rw [C33_accessed_entries hk hf]
  intro l hl j hj
  have ha : accessed V k ≤ 2 * k := by
    have : k = 2 ∨ k = 3 ∨ k = 4 ∨ k = 5 ∨ k = 6 ∨ k = 7 ∨ k = 8 := by omega
    cases V <;> rcases this with rfl | rfl | rfl | rfl | rfl | rfl | rfl <;>
      simp [accessed]
  obtain ⟨h0, h1⟩ := hN l hl
  rw [hm]
  unfold member
  generalize structs idx l = e at h0 h1
  simp only [Int.ofNat_eq_natCast] at *
  obtain ⟨e, rfl⟩ := Int.eq_ofNat_of_zero_le h0
  have h2 : (e + 2) * S ≤ N * S := Nat.mul_le_mul_right _ (by omega)
  rw [Nat.add_mul] at h2
  have h3 : ((e : Int) * (S : Int)) = ((e * S : Nat) : Int) := by simp
  rw [h3]
  generalize e * S = eS at *
  generalize N * S = NS at *
  omega

/-- The claim is false for the other member counts: if the struct has fewer than `accessed V k` members
and the last struct of the array is addressed, the read accesses memory behind the array. -/
theorem C33_last_struct_violated {N : Nat} (hk : 2 ≤ k ∧ k ≤ 8) (hS : S < accessed V k)
    (hf : Fits S idx V.size) (hm : IsArray m data S N) {l : Nat} (hl : l < V.size)
    (hN : structs idx l + 1 = Int.ofNat N) : ilRead V S k m data idx = none := by
  rw [← Option.not_isSome_iff_eq_none, C33_accessed_entries hk hf]
  intro h
  have := h l hl S hS
  rw [hm] at this
  unfold member at this
  have h2 := this.2
  rw [show structs idx l = Int.ofNat N - 1 by omega, Int.sub_mul] at h2
  simp only [Int.ofNat_eq_natCast, Int.natCast_mul, Int.one_mul] at h2
  generalize (N : Int) * (S : Int) = NS at *
  omega

theorem C33_last_struct_successive_violated {N : Nat} (hk : 2 ≤ k ∧ k ≤ 8) (hS : S < accessedS S V k)
    (hf : FitsS S first V.size) (hm : IsArray m data S N) {l : Nat} (hl : l < V.size)
    (hN : structsS first l + 1 = Int.ofNat N) : ilReadS V S k m data first = none := by
  rw [← Option.not_isSome_iff_eq_none, C33_accessed_entries_successive hk hf]
  intro h
  have := h l hl S hS
  rw [hm] at this
  unfold member at this
  have h2 := this.2
  rw [show structsS first l = Int.ofNat N - 1 by omega, Int.sub_mul] at h2
  simp only [Int.ofNat_eq_natCast, Int.natCast_mul, Int.one_mul] at h2
  generalize (N : Int) * (S : Int) = NS at *
  omega

/-! ### Examples -/

private def sampleMem (N S : Nat) (w : Nat) : ILMem w := fun a =>
  if 100 ≤ a ∧ a < 100 + Int.ofNat (N * S) then some (BitVec.ofInt w a) else none

private theorem sampleMem_array (N S w : Nat) : IsArray (sampleMem N S w) 100 S N := by
  intro a
  unfold sampleMem
  split <;> simp_all

private def sampleIdx (l : Nat) : BitVec 32 := [5, 0, 1, 7].getD l 0

/-- The hypotheses of the C32 theorems hold for an array of 8 structs `{x, y, z}`, the indexes
`[5, 0, 1, 7]`, and three vectors of 4 floats. -/
example : Fits 3 sampleIdx (ILVec.sse4).size ∧ Distinct (structs sampleIdx) (ILVec.sse4).size ∧
    MembersExist (sampleMem 8 3 32) 100 3 (structs sampleIdx) (ILVec.sse4).size 3 := by
  refine ⟨?_, ?_, ?_⟩
  · intro l hl
    revert l
    show ∀ l, l < 4 → _
    decide
  · intro l l' hl hl'
    revert l l'
    show ∀ l l', l < 4 → l' < 4 → _
    have : ∀ l, l < 4 → ∀ l', l' < 4 → structs sampleIdx l = structs sampleIdx l' → l = l' := by decide
    exact fun l l' hl hl' => this l hl l' hl'
  · intro l hl
    revert l
    show ∀ l, l < 4 → _
    decide

/-- Reading three floats per struct at the end of the array faults with SSE, reading two does not. -/
example : ilRead .sse4 3 3 (sampleMem 8 3 32) 100 sampleIdx = none :=
  C33_last_struct_violated (N := 8) (by decide) (by decide)
    (by intro l hl; revert l; show ∀ l, l < 4 → _; decide) (sampleMem_array 8 3 32) (l := 3)
    (by decide) (by decide)

example : (ilRead .sse4 3 2 (sampleMem 8 3 32) 100 sampleIdx).isSome :=
  C33_inside_structs_partial (by decide) (by decide)
    (by intro l hl; revert l; show ∀ l, l < 4 → _; decide)
    (by intro l hl; revert l; show ∀ l, l < 4 → _; decide)

/-- `wrapper[size_t]` with AVX reads structs of three floats exactly, structs of seven floats not. -/
example : (ilReadS .avx8 3 3 (sampleMem 8 3 32) 100 0).isSome :=
  C33_inside_structs_successive_partial (by decide) (by decide)
    (by intro l hl; revert l; show ∀ l, l < 8 → _; decide)
    (by intro l hl; revert l; show ∀ l, l < 8 → _; decide)

example : ilReadS .avx8 7 7 (sampleMem 8 7 32) 100 0 = none :=
  C33_last_struct_successive_violated (N := 8) (by decide) (by decide)
    (by intro l hl; revert l; show ∀ l, l < 8 → _; decide) (sampleMem_array 8 7 32) (l := 7)
    (by decide) (by decide)

end Vc.Prop
