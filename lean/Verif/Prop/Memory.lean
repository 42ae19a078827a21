import Verif.Lemma.Memory

/-!
# C04 to C09, C49: Vc::Memory

`w` is the number of lanes of the vector type, `m.mem` the storage of a `Memory` object including
padding, so that scalar entry `i` is `m.mem[i]?`. An operation that would access memory outside
of the storage has the result `none`.
-/

namespace Vc.Prop
open Vc.Model Vc.Spec Vc.Lemma

variable {α : Type _}

/-- What holds for every `Memory` object once constructed: the number of stored entries is the
number of vectors times the vector size, and the least multiple of the vector size that holds
`entriesCount()` entries. -/
structure MemOk (w : Nat) (m : VMem α) : Prop where
  pos : 0 < w
  fits : m.vecs * w ≤ 2 ^ 64
  len : m.mem.length = m.vecs * w
  least : IsLeastMultiple w m.entries (m.vecs * w)

/-- The number of entries allocated by a `Memory` is the least multiple of the vector size that
is not below the requested number. -/
theorem C02_memory_padded_least (w n : Nat) (hw : IsPow2 w) (hf : n + w ≤ 2 ^ 64) :
    IsLeastMultiple w n (paddedEntries w n) := padded_least hw hf

example : (IsPow2 8 ∧ 11 + 8 ≤ 2 ^ 64) ∧ paddedEntries 8 11 = 16 :=
  ⟨⟨⟨3, rfl⟩, by decide⟩, by decide⟩

/-! ## C04, C05 -/

/-- The general form of C04/C05 for construction, for all vector sizes and entry counts. -/
def constructClaim : Prop :=
  ∀ (w n : Nat), 0 < w → n + w ≤ 2 ^ 64 → ∀ (raw : Nat → Nat),
    ∃ m, VMem.construct 0 w n raw = some m ∧ m.entries = n ∧ MemOk w m ∧
      ∀ e, n ≤ e → e < m.vecs * w → m.mem[e]? = some 0

theorem construct_eq (z : α) (w n : Nat) (hw : IsPow2 w) (hf : n + w ≤ 2 ^ 64) (hn : 1 ≤ n)
    (raw : Nat → α) :
    ∃ m, VMem.construct z w n raw = some m ∧ m.entries = n ∧ MemOk w m ∧
      (∀ e, n ≤ e → e < m.vecs * w → m.mem[e]? = some z) ∧
      (∀ e, e + w < n → m.mem[e]? = some (raw e)) := by
  have hp := pow2_pos hw
  obtain ⟨hlt, hmul⟩ := padded_lt hw hf
  have hleast := padded_least hw hf
  have hge := hleast.2.1
  have hv1 : 1 ≤ paddedEntries w n / w := by
    rcases Nat.eq_zero_or_pos (paddedEntries w n / w) with h | h
    · rw [h] at hmul; omega
    · exact h
  have hlast : lastIndex (paddedEntries w n / w) = paddedEntries w n / w - 1 := by
    unfold lastIndex wrap64
    have : paddedEntries w n / w ≤ paddedEntries w n := Nat.div_le_self _ _
    omega
  obtain ⟨mem', e, hl, hc⟩ := vectorWrite_some (w := w) (N := paddedEntries w n / w)
    (i := paddedEntries w n / w - 1) (mem := (List.range (paddedEntries w n)).map raw)
    (v := List.replicate w z) hp (by omega) (by omega) (by simp [hmul]) (by simp)
  have hlb : (paddedEntries w n / w - 1) * w = paddedEntries w n - w := by
    rw [Nat.sub_mul, hmul, Nat.one_mul]
  refine ⟨⟨n, paddedEntries w n / w, mem'⟩, ?_, rfl, ⟨hp, ?_, ?_, ?_⟩, ?_, ?_⟩
  · unfold VMem.construct
    simp only [hlast, e]; rfl
  · show paddedEntries w n / w * w ≤ _; omega
  · show mem'.length = paddedEntries w n / w * w
    rw [hl, hmul]; simp
  · show IsLeastMultiple w n (paddedEntries w n / w * w)
    rw [hmul]; exact hleast
  · intro x h1 h2
    simp only [hmul] at h2
    show mem'[x]? = some z
    rw [hc x, hlb, if_pos (by omega), List.getElem?_replicate, if_pos (by omega)]
  · intro x hx
    show mem'[x]? = some (raw x)
    rw [hc x, hlb, if_neg (by omega), List.getElem?_map, List.getElem?_range (by omega)]; rfl

/-- A constructed `Memory` with at least one entry and power-of-two vector size is consistent:
storage, `vectorsCount()` and `entriesCount()` fit together. -/
theorem C04_construct_partial (z : α) (w n : Nat) (hw : IsPow2 w) (hf : n + w ≤ 2 ^ 64)
    (hn : 1 ≤ n) (raw : Nat → α) :
    ∃ m, VMem.construct z w n raw = some m ∧ m.entries = n ∧ MemOk w m := by
  obtain ⟨m, e, h1, h2, _⟩ := construct_eq z w n hw hf hn raw
  exact ⟨m, e, h1, h2⟩

/-- Construction zeroes the padding, and all its stores are inside the storage. -/
theorem C05_construct_partial (z : α) (w n : Nat) (hw : IsPow2 w) (hf : n + w ≤ 2 ^ 64)
    (hn : 1 ≤ n) (raw : Nat → α) :
    ∃ m, VMem.construct z w n raw = some m ∧
      ∀ e, n ≤ e → e < m.vecs * w → m.mem[e]? = some z := by
  obtain ⟨m, e, _, _, h3, _⟩ := construct_eq z w n hw hf hn raw
  exact ⟨m, e, h3⟩

example : (IsPow2 4 ∧ 5 + 4 ≤ 2 ^ 64 ∧ 1 ≤ 5) ∧
    VMem.construct 0 4 5 (fun i => i + 100) = some ⟨5, 2, [100, 101, 102, 103, 0, 0, 0, 0]⟩ :=
  ⟨⟨⟨2, rfl⟩, by decide, by decide⟩, by decide +kernel⟩

/-- `Memory<V>(0)` stores a vector outside of its storage. -/
theorem C05_zero_violated (z : α) (w : Nat) (hw : IsPow2 w) (raw : Nat → α) :
    VMem.construct z w 0 raw = none := by
  have hp := pow2_pos hw
  have h0 : paddedEntries w 0 = 0 := by unfold paddedEntries; simp
  unfold VMem.construct
  simp only [h0, Nat.zero_div]
  have : vectorWrite w (List.map raw (List.range 0)) (lastIndex 0) (List.replicate w z) = none := by
    unfold vectorWrite
    apply vecStore_none
    simp; omega
  rw [this]; rfl

/-- The general construction claim is false. -/
theorem C05_claim_violated : ¬ constructClaim := by
  intro h
  obtain ⟨m, e, _⟩ := h 4 0 (by decide) (by decide) (fun i => i)
  rw [C05_zero_violated 0 4 ⟨2, rfl⟩] at e
  cases e

/-- With a vector size that is not a power of two (`SimdArray<float, 12>` passes the static
assertion of `Memory`) entries 12 to 15 of a `Memory` of 16 entries belong to no vector. -/
theorem C04_width_violated :
    ∃ m, VMem.construct 0 12 16 (fun i => i + 100) = some m ∧ m.entries = 16 ∧ m.vecs = 1 ∧
      ¬ ∀ e, e < m.entries → ∃ i l, i < m.vecs ∧ l < 12 ∧ e = i * 12 + l := by
  refine ⟨⟨16, 1, List.replicate 12 0 ++ [112, 113, 114, 115]⟩, by decide +kernel, rfl, rfl, ?_⟩
  intro h
  obtain ⟨i, l, h1, h2, h3⟩ := h 12 (by decide)
  simp only at h1
  omega

/-- Reading `vector(i)` for `i < vectorsCount()` is in bounds; lane `l` is scalar entry
`i * Size + l`. -/
theorem C04_vector_read (w : Nat) (m : VMem α) (h : MemOk w m) (i : Nat) (hi : i < m.vecs) :
    ∃ v, vectorRead w m.mem i = some v ∧ v.length = w ∧
      ∀ l, l < w → i * w + l < m.vecs * w ∧ v[l]? = m.mem[i * w + l]? := by
  obtain ⟨v, e, hl, hv⟩ := vectorRead_some (mem := m.mem) h.pos hi h.fits (by rw [h.len]; omega)
  have := wrap_index hi h.fits h.pos
  exact ⟨v, e, hl, fun l hl => ⟨by omega, hv l hl⟩⟩

/-- The vectors tile the storage: every entry, padding included, is in exactly one lane of
exactly one vector. -/
theorem C04_tiling (w : Nat) (m : VMem α) (h : MemOk w m) (e : Nat) (he : e < m.mem.length) :
    ∃ i l, i < m.vecs ∧ l < w ∧ e = i * w + l ∧
      ∀ i' l', i' < m.vecs → l' < w → e = i' * w + l' → i' = i ∧ l' = l := by
  rw [h.len] at he
  refine ⟨e / w, e % w, (Nat.div_lt_iff_lt_mul h.pos).mpr he, Nat.mod_lt _ h.pos,
    (Nat.div_add_mod' e w).symm, fun i' l' _ hl' e' => ?_⟩
  subst e'
  rw [Nat.mul_comm, Nat.mul_add_div h.pos, Nat.div_eq_of_lt hl', Nat.mul_add_mod,
    Nat.mod_eq_of_lt hl']
  exact ⟨rfl, rfl⟩

/-- All scalar entries are stored, and scalar entry `i` is lane `i mod Size` of vector
`i / Size`. -/
theorem C04_scalar_is_lane (w : Nat) (m : VMem α) (h : MemOk w m) (i : Nat) (hi : i < m.entries) :
    ∃ x v, m.mem[i]? = some x ∧ i / w < m.vecs ∧ vectorRead w m.mem (i / w) = some v ∧
      v[i % w]? = some x := by
  have hlt : i < m.vecs * w := Nat.lt_of_lt_of_le hi h.least.2.1
  have hq : i / w < m.vecs := (Nat.div_lt_iff_lt_mul h.pos).mpr hlt
  obtain ⟨v, e, hl, hv⟩ := C04_vector_read w m h (i / w) hq
  have hx := List.getElem?_eq_getElem (l := m.mem) (i := i) (by rw [h.len]; exact hlt)
  refine ⟨_, v, hx, hq, e, ?_⟩
  rw [(hv _ (Nat.mod_lt _ h.pos)).2, Nat.div_add_mod', hx]

/-- `vector(i) = v` for `i < vectorsCount()` changes the entries `i * Size + l` to lane `l` of
`v` and no other entry. -/
theorem C04_vector_write (w : Nat) (m : VMem α) (h : MemOk w m) (i : Nat) (hi : i < m.vecs)
    (v : List α) (hv : v.length = w) :
    ∃ mem', vectorWrite w m.mem i v = some mem' ∧ mem'.length = m.mem.length ∧
      (∀ l, l < w → mem'[i * w + l]? = v[l]?) ∧
      (∀ e, (∀ l, l < w → e ≠ i * w + l) → mem'[e]? = m.mem[e]?) := by
  obtain ⟨mem', e, hl, hc⟩ := vectorWrite_some (mem := m.mem) h.pos hi h.fits
    (by rw [h.len]; omega) hv
  refine ⟨mem', e, hl, fun l hl => ?_, fun x hx => ?_⟩
  · rw [hc, if_pos (by omega)]; congr 1; omega
  · rw [hc, if_neg (fun c => hx (x - i * w) (by omega) (by omega))]

/-- A vector index that is not below `vectorsCount()` is out of bounds (as long as the byte
offset is representable). -/
theorem C04_vector_bounds (w : Nat) (m : VMem α) (h : MemOk w m) (i : Nat) (hi : m.vecs ≤ i)
    (hf : i * w < 2 ^ 64) : vectorRead w m.mem i = none := by
  unfold vectorRead
  rw [wrap64_of_lt hf]
  apply vecLoad_none
  have := Nat.mul_le_mul_right w hi
  have := h.len
  have := h.pos
  omega

/-- `vectorAt(i)` accesses the entries `i, ..., i + Size - 1`, in bounds exactly if these
exist. -/
theorem C04_vectorAt (w : Nat) (m : VMem α) (i : Nat) :
    (∃ v, vectorAtRead w m.mem i = some v ∧ v.length = w ∧
      ∀ l, l < w → v[l]? = m.mem[i + l]?) ↔ i + w ≤ m.mem.length := by
  unfold vectorAtRead
  constructor
  · rintro ⟨v, e, _⟩
    apply Decidable.byContradiction
    intro hc
    rw [vecLoad_none hc] at e; cases e
  · intro hc
    exact vecLoad_some hc

/-- `vector(i, shift)` accesses the entries from `i * Size + shift` on. -/
theorem C04_vector_shifted (w : Nat) (m : VMem α) (i : Nat) (shift : Int)
    (h0 : 0 ≤ ((i * w : Nat) : Int) + shift)
    (h1 : ((i * w : Nat) : Int) + shift + w ≤ m.mem.length) :
    ∃ v, vectorReadShift w m.mem i shift = some v ∧ v.length = w ∧
      ∀ l : Nat, l < w → v[l]? = m.mem[(((i * w : Nat) : Int) + shift + l).toNat]? := by
  unfold vectorReadShift
  rw [if_pos h0]
  obtain ⟨v, e, hl, hv⟩ := vecLoad_some (w := w) (mem := m.mem) (off := shiftedOffset w i shift)
    (by unfold shiftedOffset; omega)
  refine ⟨v, e, hl, fun l hl => ?_⟩
  rw [hv l hl]
  congr 1
  unfold shiftedOffset; omega

/-- `vector(i, shift) = v` changes these entries and no others. -/
theorem C04_vector_shifted_write (w : Nat) (m : VMem α) (i : Nat) (shift : Int) (v : List α) (hv : v.length = w)
    (h0 : 0 ≤ ((i * w : Nat) : Int) + shift)
    (h1 : ((i * w : Nat) : Int) + shift + w ≤ m.mem.length) :
    ∃ mem', vectorWriteShift w m.mem i shift v = some mem' ∧ mem'.length = m.mem.length ∧
      (∀ l : Nat, l < w → mem'[(((i * w : Nat) : Int) + shift + l).toNat]? = v[l]?) ∧
      (∀ e : Nat, (∀ l : Nat, l < w → (e : Int) ≠ ((i * w : Nat) : Int) + shift + l) → mem'[e]? = m.mem[e]?) := by
  unfold vectorWriteShift
  rw [if_pos h0]
  obtain ⟨mem', e, hl, hc⟩ := vecStore_some (mem := m.mem) (v := v) (off := shiftedOffset w i shift)
    (by unfold shiftedOffset; omega)
  unfold shiftedOffset at hc
  refine ⟨mem', e, hl, fun l hl => ?_, fun x hx => ?_⟩
  · rw [hc, if_pos (by omega)]; congr 1; omega
  · rw [hc, if_neg fun c => hx (x - (((i * w : Nat) : Int) + shift).toNat) (by omega) (by omega)]

example : (0 : Int) ≤ ((1 * 4 : Nat) : Int) + -3 ∧
    ((1 * 4 : Nat) : Int) + -3 + 4 ≤ (⟨5, 2, [10, 11, 12, 13, 14, 0, 0, 0]⟩ : VMem Nat).mem.length := by decide

/-- Every vector address is aligned if the storage is: `Size * sizeof(EntryType)` is a multiple of
the alignment (static assertion of `MemoryBase`). -/
theorem C04_aligned (w sz align base i : Nat) (hb : align ∣ base) (ha : align ∣ w * sz) :
    align ∣ base + i * w * sz := by
  rw [Nat.mul_assoc]
  exact Nat.dvd_add hb (Nat.dvd_trans ha (Nat.dvd_mul_left _ _))

/-- Iteration over all vectors visits `vector(0), ..., vector(vectorsCount() - 1)`, and over
`range(first, last)` visits `vector(first), ..., vector(last)`. -/
theorem C04_iteration (first last : Nat) :
    iterate first (last + 1) = (List.range (last + 1 - first)).map (first + ·) :=
  iterate_eq _ _ _ rfl

/-- A consistent memory with padding for the theorems about `MemOk`. -/
def exMem : VMem Nat := ⟨5, 2, [10, 11, 12, 13, 14, 0, 0, 0]⟩

theorem exMem_ok : MemOk 4 exMem where
  pos := by decide
  fits := by decide
  len := by decide
  least := ⟨⟨2, by decide⟩, by decide, fun q ⟨c, hc⟩ hq => by
    simp only [exMem] at hq ⊢; omega⟩

example : MemOk 4 exMem ∧ 1 < exMem.vecs ∧ 4 < exMem.entries := ⟨exMem_ok, by decide, by decide⟩
example : VMem.fromList 0 4 5 (fun i => i + 100) [10, 11, 12, 13, 14] = some exMem := by decide +kernel

/-- Construction from a list: the listed entries, padding zero. -/
theorem C05_fromList_partial (z : α) (w n : Nat) (hw : IsPow2 w) (hf : n + w ≤ 2 ^ 64)
    (hn : 1 ≤ n) (raw : Nat → α) (init : List α) (hi : init.length ≤ n) :
    ∃ m, VMem.fromList z w n raw init = some m ∧ m.entries = n ∧ MemOk w m ∧
      (∀ e, e < init.length → m.mem[e]? = init[e]?) ∧
      ∀ e, n ≤ e → e < m.vecs * w → m.mem[e]? = some z := by
  obtain ⟨m, e, hm, ok, hz, _⟩ := construct_eq z w n hw hf hn raw
  have hge := ok.least.2.1
  obtain ⟨mem', es, hl, hc⟩ := vecStore_some (mem := m.mem) (v := init) (off := 0)
    (by rw [ok.len]; omega)
  refine ⟨{ m with mem := mem' }, ?_, hm, ⟨ok.pos, ok.fits, by rw [hl]; exact ok.len, ok.least⟩,
    fun x hx => ?_, fun x h1 h2 => ?_⟩
  · unfold VMem.fromList
    rw [if_pos hi, e]
    show (vecStore m.mem 0 init).bind _ = _
    rw [es]; rfl
  · show mem'[x]? = _
    rw [hc, if_pos (by omega)]; simp
  · show mem'[x]? = _
    rw [hc, if_neg (by omega)]; exact hz x h1 h2

example : (IsPow2 4 ∧ 5 + 4 ≤ 2 ^ 64 ∧ 1 ≤ 5) ∧ ([1, 2, 3] : List Nat).length ≤ 5 :=
  ⟨⟨⟨2, rfl⟩, by decide, by decide⟩, by decide⟩

/-! ## C06 -/

theorem padded_ge (w n : Nat) (hf : n + w ≤ 2 ^ 64) (hw : 0 < w) : n ≤ paddedEntries w n := by
  unfold paddedEntries
  by_cases h : n &&& (w - 1) = 0
  · simp only [h, if_true]; omega
  · simp only [h, if_false]
    have : n &&& (w - 1) ≤ w - 1 := Nat.and_le_right
    by_cases hlt : n + (w - (n &&& (w - 1))) < 2 ^ 64
    · rw [wrap64_of_lt hlt]; omega
    · omega

theorem rowBytes_ge (w sz align cols : Nat) (ha : 0 < align) :
    paddedEntries w cols * sz ≤ rowBytes w sz align cols := by
  unfold rowBytes
  have h1 := Nat.div_add_mod (paddedEntries w cols * sz + align - 1) align
  have h2 := Nat.mod_lt (paddedEntries w cols * sz + align - 1) ha
  rw [Nat.mul_comm] at h1
  omega

/-- Two different cells of a two-dimensional memory (entries or padding of rows) do not overlap.
All vector sizes. -/
theorem C06_cells_disjoint (w sz align cols r c r' c' : Nat) (ha : 0 < align)
    (hc : c < paddedEntries w cols) (hc' : c' < paddedEntries w cols)
    (hne : (r, c) ≠ (r', c')) :
    addr2 w sz align cols r c + sz ≤ addr2 w sz align cols r' c' ∨
    addr2 w sz align cols r' c' + sz ≤ addr2 w sz align cols r c := by
  have hge := rowBytes_ge w sz align cols ha
  have key : ∀ r c r' c', c < paddedEntries w cols → r < r' →
      addr2 w sz align cols r c + sz ≤ addr2 w sz align cols r' c' := by
    intro r c r' c' hc hr
    unfold addr2
    have h1 : (c + 1) * sz ≤ paddedEntries w cols * sz := Nat.mul_le_mul_right sz hc
    have h2 : (r + 1) * rowBytes w sz align cols ≤ r' * rowBytes w sz align cols :=
      Nat.mul_le_mul_right _ hr
    rw [Nat.add_mul, Nat.one_mul] at h1 h2
    omega
  rcases Nat.lt_trichotomy r r' with h | h | h
  · exact Or.inl (key r c r' c' hc h)
  · subst h
    have hcc : c ≠ c' := fun e => hne (by rw [e])
    unfold addr2
    rcases Nat.lt_or_gt_of_ne hcc with h | h
    · have h1 : (c + 1) * sz ≤ c' * sz := Nat.mul_le_mul_right sz h
      rw [Nat.add_mul, Nat.one_mul] at h1
      left; omega
    · have h1 : (c' + 1) * sz ≤ c * sz := Nat.mul_le_mul_right sz h
      rw [Nat.add_mul, Nat.one_mul] at h1
      right; omega
  · exact Or.inr (key r' c' r c hc' h)

example : 0 < 16 ∧ 6 < paddedEntries 4 5 ∧ 2 < paddedEntries 4 5 ∧ ((1, 6) ≠ (2, 2)) ∧
    addr2 4 4 16 5 1 6 = 56 := by decide +kernel

/-- Every entry is inside the object and inside its row, and distinct from all padding. All
vector sizes. -/
theorem C06_in_bounds (w sz align rows cols r c : Nat) (ha : 0 < align) (hw : 0 < w)
    (hf : cols + w ≤ 2 ^ 64) (hr : r < rows) (hc : c < cols) :
    c < paddedEntries w cols ∧
    r * rowBytes w sz align cols ≤ addr2 w sz align cols r c ∧
    addr2 w sz align cols r c + sz ≤ (r + 1) * rowBytes w sz align cols ∧
    addr2 w sz align cols r c + sz ≤ rows * rowBytes w sz align cols := by
  have hge := rowBytes_ge w sz align cols ha
  have hp := padded_ge w cols hf hw
  have h1 : (c + 1) * sz ≤ paddedEntries w cols * sz := Nat.mul_le_mul_right sz (by omega)
  have h2 : (r + 1) * rowBytes w sz align cols ≤ rows * rowBytes w sz align cols :=
    Nat.mul_le_mul_right _ hr
  rw [Nat.add_mul, Nat.one_mul] at h1
  have h3 : (r + 1) * rowBytes w sz align cols = r * rowBytes w sz align cols + rowBytes w sz align cols := by
    rw [Nat.add_mul, Nat.one_mul]
  unfold addr2
  exact ⟨by omega, by omega, by omega, by omega⟩

example : 0 < 16 ∧ 0 < 4 ∧ 5 + 4 ≤ 2 ^ 64 ∧ 2 < 3 ∧ 4 < 5 := by decide

/-- The vectors of row `r` only touch row `r`: vector `j` covers exactly the cells `j * Size + l`
of row `r`. All vector sizes. -/
theorem C06_row_vectors (w sz align cols r j : Nat) (ha : 0 < align)
    (hj : j < rowVectors w cols) :
    (rowVector2 w sz align cols r j).1 = addr2 w sz align cols r (j * w) ∧
    (rowVector2 w sz align cols r j).2 = w * sz ∧
    r * rowBytes w sz align cols ≤ (rowVector2 w sz align cols r j).1 ∧
    (rowVector2 w sz align cols r j).1 + (rowVector2 w sz align cols r j).2 ≤
      (r + 1) * rowBytes w sz align cols ∧
    ∀ l, l < w → j * w + l < paddedEntries w cols := by
  have hge := rowBytes_ge w sz align cols ha
  have h1 : (j + 1) * w ≤ paddedEntries w cols := by
    have : (j + 1) * w ≤ rowVectors w cols * w := Nat.mul_le_mul_right w hj
    exact Nat.le_trans this (Nat.div_mul_le_self _ _)
  have h2 : (j + 1) * w * sz ≤ paddedEntries w cols * sz := Nat.mul_le_mul_right sz h1
  have h3 : (j + 1) * w * sz = j * w * sz + w * sz := by
    rw [Nat.add_mul, Nat.one_mul, Nat.add_mul]
  have h4 : (r + 1) * rowBytes w sz align cols = r * rowBytes w sz align cols + rowBytes w sz align cols := by
    rw [Nat.add_mul, Nat.one_mul]
  rw [Nat.add_mul, Nat.one_mul] at h1
  refine ⟨rfl, rfl, ?_, ?_, fun l hl => by omega⟩
  · show r * rowBytes w sz align cols ≤ r * rowBytes w sz align cols + j * w * sz; omega
  · show r * rowBytes w sz align cols + j * w * sz + w * sz ≤ _
    omega

example : 0 < 16 ∧ 1 < rowVectors 4 5 := by decide +kernel

/-- `vector(i)` of the two-dimensional memory is vector `i mod n` of row `i / n`, `n` vectors per
row, for power-of-two vector sizes. -/
theorem C06_flat_vectors (w sz align cols i : Nat) (hw : IsPow2 w) (hf : cols + w ≤ 2 ^ 64)
    (ha : 0 < align) (hal : align ∣ w * sz) :
    flatVector2 w sz i = rowVector2 w sz align cols (i / rowVectors w cols) (i % rowVectors w cols) := by
  obtain ⟨_, hmul⟩ := padded_lt hw hf
  have hd : align ∣ paddedEntries w cols * sz := by
    rw [← hmul, Nat.mul_assoc]
    exact Nat.dvd_trans hal (Nat.dvd_mul_left _ _)
  have hrb : rowBytes w sz align cols = paddedEntries w cols * sz := by
    obtain ⟨k, hk⟩ := hd
    unfold rowBytes
    rw [hk]
    have : (align * k + align - 1) / align = k := by
      rw [Nat.add_sub_assoc ha, Nat.mul_add_div ha, Nat.div_eq_of_lt (by omega)]; rfl
    rw [this, Nat.mul_comm]
  unfold flatVector2 rowVector2
  rw [hrb]
  congr 1
  have e1 : paddedEntries w cols = rowVectors w cols * w := hmul.symm
  rw [e1]
  have e2 := Nat.div_add_mod' i (rowVectors w cols)
  calc i * w * sz
      = (i / rowVectors w cols * rowVectors w cols + i % rowVectors w cols) * w * sz := by rw [e2]
    _ = _ := by rw [Nat.add_mul, Nat.add_mul]; simp only [Nat.mul_assoc]

example : IsPow2 4 ∧ 5 + 4 ≤ 2 ^ 64 ∧ 0 < 16 ∧ 16 ∣ 4 * 4 :=
  ⟨⟨2, rfl⟩, by decide, by decide, ⟨1, rfl⟩⟩

/-! ## C07 -/

/-- Assignment: the destination has all entries of the source (padding included) and keeps its
own entry count; all accesses are inside the two storages. -/
theorem C07_assign (w : Nat) (dst src : VMem α) (hd : MemOk w dst) (hs : MemOk w src)
    (hv : dst.vecs = src.vecs) :
    ∃ r, dst.assign w src = some r ∧ r.mem = src.mem ∧ r.vecs = dst.vecs ∧
      r.entries = dst.entries := by
  obtain ⟨mem', e, hl, hc⟩ := copyVectors_spec (w := w) (N := dst.vecs) (L := dst.mem.length)
    (old := fun e => dst.mem[e]?) (new := fun e => src.mem[e]?) (src := fun _ => src.mem) hd.pos
    hd.fits (by rw [hd.len]; omega)
    (fun j mem _ _ => ⟨by rw [hs.len, hv]; omega, fun e _ => rfl⟩) dst.mem
    ⟨rfl, fun e => by simp⟩
  refine ⟨{ dst with mem := mem' }, ?_, ?_, rfl, rfl⟩
  · unfold VMem.assign
    rw [if_pos hv, e]; rfl
  · show mem' = src.mem
    apply List.ext_getElem?
    intro i
    rw [hc i]
    by_cases h : i < dst.vecs * w
    · rw [if_pos h]
    · rw [if_neg h]
      show dst.mem[i]? = src.mem[i]?
      rw [List.getElem?_eq_none (l := dst.mem) (by rw [hd.len]; omega),
        List.getElem?_eq_none (by rw [hs.len, ← hv]; omega)]

example : MemOk 4 exMem ∧ exMem.vecs = exMem.vecs := ⟨exMem_ok, rfl⟩

/-- Self-assignment does nothing. -/
theorem C07_assign_self (w : Nat) (m : VMem α) (h : MemOk w m) : m.assignSelf w = some m := by
  obtain ⟨mem', e, hl, hc⟩ := copyVectors_spec (w := w) (N := m.vecs) (L := m.mem.length)
    (old := fun e => m.mem[e]?) (new := fun e => m.mem[e]?) (src := id) h.pos
    h.fits (by rw [h.len]; omega)
    (fun j mem _ hu => ⟨by rw [id, hu.1, h.len]; omega, fun e _ => by rw [id, hu.2 e]; simp⟩) m.mem
    ⟨rfl, fun e => by simp⟩
  have : mem' = m.mem := List.ext_getElem? (fun i => by rw [hc i]; simp)
  subst this
  unfold VMem.assignSelf
  rw [e]; rfl

/-- Copy construction: same sizes, same contents. -/
theorem C07_copy_construct (w : Nat) (src : VMem α) (hs : MemOk w src) (raw : Nat → α) :
    src.copyConstruct w raw = some src := by
  obtain ⟨mem', e, hl, hc⟩ := copyVectors_spec (w := w) (N := src.vecs) (L := src.vecs * w)
    (old := fun e => ((List.range (src.vecs * w)).map raw)[e]?) (new := fun e => src.mem[e]?)
    (src := fun _ => src.mem) hs.pos hs.fits (Nat.le_refl _)
    (fun j mem _ _ => ⟨by rw [hs.len]; omega, fun e _ => rfl⟩) ((List.range (src.vecs * w)).map raw)
    ⟨by simp, fun e => by simp⟩
  have : mem' = src.mem := List.ext_getElem? (fun i => by
    rw [hc i]
    by_cases h : i < src.vecs * w
    · rw [if_pos h]
    · rw [if_neg h]
      show ((List.range (src.vecs * w)).map raw)[i]? = src.mem[i]?
      rw [List.getElem?_eq_none (l := List.map raw _) (by simpa using h),
        List.getElem?_eq_none (l := src.mem) (by rw [hs.len]; omega)])
  subst this
  unfold VMem.copyConstruct
  rw [e]; rfl

/-- In general: `copyVectors` writes the `n` vectors of the destination with those of the
source and leaves what is behind them alone, for every number of vectors `n`. -/
theorem C07_copyVectors (w n : Nat) (src dst : List α) (hw : 0 < w) (hf : n * w ≤ 2 ^ 64)
    (hs : n * w ≤ src.length) (hd : n * w ≤ dst.length) :
    ∃ r, copyVectors w n (fun _ => src) dst = some r ∧ r.length = dst.length ∧
      ∀ e, r[e]? = if e < n * w then src[e]? else dst[e]? := by
  obtain ⟨mem', e, hl, hc⟩ := copyVectors_spec (w := w) (N := n) (L := dst.length)
    (old := fun e => dst[e]?) (new := fun e => src[e]?)
    (src := fun _ => src) hw hf hd (fun j mem _ _ => ⟨hs, fun e _ => rfl⟩) dst
    ⟨rfl, fun e => by simp⟩
  exact ⟨mem', e, hl, hc⟩

example : 0 < 2 ∧ 7 * 2 ≤ 2 ^ 64 ∧ 7 * 2 ≤ (List.range 14).length ∧ 7 * 2 ≤ (List.range 20).length := by
  decide

/-- `swap` exchanges contents and sizes, so both objects stay consistent. -/
theorem C07_swap (w : Nat) (a b : VMem α) (ha : MemOk w a) (hb : MemOk w b) :
    a.swap b = (b, a) ∧ MemOk w (a.swap b).1 ∧ MemOk w (a.swap b).2 := ⟨rfl, hb, ha⟩

/-- Memories of different sizes. -/
example : MemOk 4 exMem ∧ MemOk 4 (⟨1, 1, [9, 0, 0, 0]⟩ : VMem Nat) ∧
    exMem.swap ⟨1, 1, [9, 0, 0, 0]⟩ = (⟨1, 1, [9, 0, 0, 0]⟩, exMem) ∧ exMem.entries ≠ 1 :=
  ⟨exMem_ok, ⟨by decide, by show 1 * 4 ≤ 2 ^ 64; decide, rfl,
    ⟨⟨1, rfl⟩, (by show 1 ≤ 1 * 4; decide), fun q ⟨c, hc⟩ hq => by simp only at hq ⊢; omega⟩⟩, rfl, by decide⟩

/-! ## C08 -/

/-- The relation holds between all entries of two memories. -/
def AllEntries (r : α → α → Bool) (n : Nat) (a b : List α) : Prop :=
  ∀ (e : Nat) u v, e < n → a[e]? = some u → b[e]? = some v → r u v = true

theorem cmpAll_spec (r : α → α → Bool) (w : Nat) (a b : VMem α) (ha : MemOk w a) (hb : MemOk w b)
    (hv : a.vecs = b.vecs) :
    ∃ res, a.cmpAll r w b = some res ∧ (res = true ↔ AllEntries r (a.vecs * w) a.mem b.mem) := by
  obtain ⟨res, e, h⟩ := allVectors_spec (test := cmpFull r)
    (T := fun j => ∀ l, l < w → ∀ u v, a.mem[j * w + l]? = some u → b.mem[j * w + l]? = some v →
      r u v = true) ha.pos ha.fits a.mem b.mem (by rw [ha.len]; omega) (by rw [hb.len, hv]; omega)
    (fun j x y hj hx hy vx vy => by
      rw [cmpFull_iff (by omega)]
      constructor
      · intro h l hl u v hu hv
        exact h l u v (by rw [vx l hl]; exact hu) (by rw [vy l hl]; exact hv)
      · intro h l u v hu hv
        have hl : l < w := by rw [← hx]; exact (List.getElem?_eq_some_iff.mp hu).1
        exact h l hl u v (by rw [← vx l hl]; exact hu) (by rw [← vy l hl]; exact hv))
    (a.vecs - 0) 0 rfl (by omega)
  refine ⟨res, e, ?_⟩
  rw [h]
  have := forall_lanes (N := a.vecs) ha.pos
    (fun e => ∀ u v, a.mem[e]? = some u → b.mem[e]? = some v → r u v = true)
  constructor
  · intro h e u v he
    exact this.mp (fun j hj => h j (by omega) hj) e he u v
  · intro h j _ hj
    exact this.mpr (fun e he u v => h e u v he) j hj

/-- `a == b`, `a < b`, ... hold exactly if the relation holds for all stored entries, padding
included; if the relation holds in the padding, exactly if it holds for all entries. -/
theorem C08_compare_partial (r : α → α → Bool) (w : Nat) (a b : VMem α) (ha : MemOk w a)
    (hb : MemOk w b) (hv : a.vecs = b.vecs) (hn : a.entries = b.entries)
    (hpad : ∀ (e : Nat) u v, a.entries ≤ e → a.mem[e]? = some u → b.mem[e]? = some v → r u v = true) :
    ∃ res, a.cmpAll r w b = some res ∧ (res = true ↔ AllEntries r a.entries a.mem b.mem) := by
  obtain ⟨res, e, h⟩ := cmpAll_spec r w a b ha hb hv
  refine ⟨res, e, ?_⟩
  rw [h]
  have hge := ha.least.2.1
  constructor
  · intro h e u v he hu hv
    exact h e u v (by omega) hu hv
  · intro h e u v he hu hv
    rcases Nat.lt_or_ge e a.entries with c | c
    · exact h e u v c hu hv
    · exact hpad e u v c hu hv

/-- What the comparisons compute in all cases. -/
theorem C08_compare_stored (r : α → α → Bool) (w : Nat) (a b : VMem α) (ha : MemOk w a)
    (hb : MemOk w b) (hv : a.vecs = b.vecs) :
    ∃ res, a.cmpAll r w b = some res ∧
      (res = true ↔ AllEntries r a.mem.length a.mem b.mem) := by
  rw [ha.len]; exact cmpAll_spec r w a b ha hb hv

/-- `a != b` holds exactly if all stored entries differ. -/
theorem C08_ne_stored (eq : α → α → Bool) (w : Nat) (a b : VMem α) (ha : MemOk w a)
    (hb : MemOk w b) (hv : a.vecs = b.vecs) :
    ∃ res, a.ne eq w b = some res ∧
      (res = true ↔ AllEntries (fun u v => !(eq u v)) a.mem.length a.mem b.mem) := by
  obtain ⟨res, e, h⟩ := allVectors_spec (test := cmpEmpty eq)
    (T := fun j => ∀ l, l < w → ∀ u v, a.mem[j * w + l]? = some u → b.mem[j * w + l]? = some v →
      (!(eq u v)) = true) ha.pos ha.fits a.mem b.mem (by rw [ha.len]; omega) (by rw [hb.len, hv]; omega)
    (fun j x y hj hx hy vx vy => by
      rw [cmpEmpty_iff (by omega)]
      simp only [Bool.not_eq_true']
      constructor
      · intro h l hl u v hu hv
        exact h l u v (by rw [vx l hl]; exact hu) (by rw [vy l hl]; exact hv)
      · intro h l u v hu hv
        have hl : l < w := by rw [← hx]; exact (List.getElem?_eq_some_iff.mp hu).1
        exact h l hl u v (by rw [← vx l hl]; exact hu) (by rw [← vy l hl]; exact hv))
    (a.vecs - 0) 0 rfl (by omega)
  refine ⟨res, e, ?_⟩
  rw [h, ha.len]
  have := forall_lanes (N := a.vecs) ha.pos
    (fun e => ∀ u v, a.mem[e]? = some u → b.mem[e]? = some v → (!(eq u v)) = true)
  constructor
  · intro h e u v he
    exact this.mp (fun j hj => h j (by omega) hj) e he u v
  · intro h j _ hj
    exact this.mpr (fun e he u v => h e u v he) j hj

example : MemOk 4 exMem ∧ exMem.entries = exMem.entries ∧
    (∀ (e : Nat) (u v : Nat), exMem.entries ≤ e → exMem.mem[e]? = some u → exMem.mem[e]? = some v →
      (u == v) = true) :=
  ⟨exMem_ok, rfl, fun e u v _ hu hv => by rw [hu] at hv; cases hv; simp⟩

/-- The claim for `!=`: it is the negation of `==`. -/
def neIsNotEq : Prop :=
  ∀ (w : Nat) (a b : VMem Nat), MemOk w a → MemOk w b → a.vecs = b.vecs → a.entries = b.entries →
    ∃ r, a.cmpAll (· == ·) w b = some r ∧ a.ne (· == ·) w b = some (!r)

def exA : VMem Nat := ⟨2, 1, [1, 2]⟩
def exB : VMem Nat := ⟨2, 1, [1, 3]⟩

theorem ok2 (x y : Nat) : MemOk 2 (⟨2, 1, [x, y]⟩ : VMem Nat) where
  pos := by decide
  fits := by show 1 * 2 ≤ 2 ^ 64; decide
  len := rfl
  least := ⟨⟨1, rfl⟩, (by show 2 ≤ 1 * 2; decide), fun q ⟨c, hc⟩ hq => by simp only at hq ⊢; omega⟩

/-- `{1, 2}` and `{1, 3}` are neither `==` nor `!=`. -/
theorem C08_ne_violated : ¬ neIsNotEq := by
  intro h
  obtain ⟨r, e1, e2⟩ := h 2 exA exB (ok2 1 2) (ok2 1 3) rfl rfl
  obtain ⟨r1, f1, g1⟩ := C08_compare_stored (· == ·) 2 exA exB (ok2 1 2) (ok2 1 3) rfl
  obtain ⟨r2, f2, g2⟩ := C08_ne_stored (· == ·) 2 exA exB (ok2 1 2) (ok2 1 3) rfl
  rw [f1] at e1
  rw [f2] at e2
  cases e1; cases e2
  cases r with
  | true =>
    have := g1.mp rfl 1 2 3 (by decide) rfl rfl
    simp at this
  | false =>
    have := g2.mp rfl 0 1 1 (by decide) rfl rfl
    simp at this

/-- The claim for ordering: `a < b` holds exactly if it holds for all entries. -/
def ltIsEntrywise : Prop :=
  ∀ (w : Nat) (a b : VMem Nat), MemOk w a → MemOk w b → a.vecs = b.vecs → a.entries = b.entries →
    ∃ r, a.cmpAll (fun u v => decide (u < v)) w b = some r ∧
      (r = true ↔ AllEntries (fun u v => decide (u < v)) a.entries a.mem b.mem)

theorem ok4 (x p q r : Nat) : MemOk 4 (⟨1, 1, [x, p, q, r]⟩ : VMem Nat) where
  pos := by decide
  fits := by show 1 * 4 ≤ 2 ^ 64; decide
  len := rfl
  least := ⟨⟨1, rfl⟩, (by show 1 ≤ 1 * 4; decide), fun q ⟨c, hc⟩ hq => by simp only at hq ⊢; omega⟩

/-- The memories `{1}` and `{2}` of one entry, as constructed: `{1} < {2}` is false because the
padding (zero in both) is compared, too. -/
theorem C08_lt_violated : ¬ ltIsEntrywise ∧
    VMem.fromList 0 4 1 (fun i => i + 100) [1] = some ⟨1, 1, [1, 0, 0, 0]⟩ ∧
    VMem.fromList 0 4 1 (fun i => i + 100) [2] = some ⟨1, 1, [2, 0, 0, 0]⟩ := by
  refine ⟨?_, by decide +kernel, by decide +kernel⟩
  intro h
  obtain ⟨r, e, g⟩ := h 4 ⟨1, 1, [1, 0, 0, 0]⟩ ⟨1, 1, [2, 0, 0, 0]⟩ (ok4 1 0 0 0) (ok4 2 0 0 0) rfl rfl
  obtain ⟨r1, f1, g1⟩ := C08_compare_stored (fun u v => decide (u < v)) 4 ⟨1, 1, [1, 0, 0, 0]⟩
    ⟨1, 1, [2, 0, 0, 0]⟩ (ok4 1 0 0 0) (ok4 2 0 0 0) rfl
  rw [f1] at e
  cases e
  have hr : r = true := g.mpr (by
    intro e u v he hu hv
    simp only at he
    have : e = 0 := by omega
    subst this
    simp at hu hv
    subst hu; subst hv; decide)
  have := g1.mp hr 1 0 0 (by decide) rfl rfl
  simp at this

/-! ## C09 -/

theorem opAssign_spec (op : α → α → Option α) (w : Nat) (m : VMem α) (h : MemOk w m)
    (rhs : List α → List α) (rv : Nat → Option α)
    (hrhs : ∀ j mem, Upto w m.mem.length j (fun e => m.mem[e]?)
      (fun e => (m.mem[e]?).bind fun x => (rv e).bind fun y => op x y) mem →
      m.vecs * w ≤ (rhs mem).length ∧ ∀ e, j * w ≤ e → e < m.vecs * w → (rhs mem)[e]? = rv e)
    (hdef : ∀ e x y, e < m.vecs * w → m.mem[e]? = some x → rv e = some y → (op x y).isSome = true) :
    ∃ r, m.opAssign op w rhs = some r ∧ r.entries = m.entries ∧ r.vecs = m.vecs ∧
      r.mem.length = m.mem.length ∧
      ∀ e, e < m.vecs * w → r.mem[e]? = (m.mem[e]?).bind fun x => (rv e).bind fun y => op x y := by
  obtain ⟨mem', e, hu⟩ := forLoop_vectors (w := w) (N := m.vecs) (L := m.mem.length)
    (old := fun e => m.mem[e]?) (new := fun e => (m.mem[e]?).bind fun x => (rv e).bind fun y => op x y)
    h.pos h.fits (by rw [h.len]; omega) (fun i mem => do
      let a ← vectorRead w mem i
      let b ← vectorRead w (rhs mem) i
      let r ← lanesM op a b
      vectorWrite w mem i r) 0 (Nat.zero_le _) (by
    intro j mem hj hu
    obtain ⟨rl, rvv⟩ := hrhs j mem hu
    have hidx := wrap_index hj h.fits h.pos
    obtain ⟨a, ea, la, va⟩ := vectorRead_some (mem := mem) h.pos hj h.fits (by rw [hu.1, h.len]; omega)
    obtain ⟨b, eb, lb, vb⟩ := vectorRead_some (mem := rhs mem) h.pos hj h.fits rl
    have va' : ∀ l, l < w → a[l]? = m.mem[j * w + l]? := fun l hl => by
      rw [va l hl, hu.2, if_neg (by omega)]
    have vb' : ∀ l, l < w → b[l]? = rv (j * w + l) := fun l hl => by
      rw [vb l hl, rvv _ (by omega) (by omega)]
    obtain ⟨r, er, lr, vr⟩ := lanesM_some (op := op) (a := a) (b := b) (by omega)
      (fun l hl x y hx hy => hdef (j * w + l) x y (by omega) (by rw [← va' l (by omega)]; exact hx)
        (by rw [← vb' l (by omega)]; exact hy))
    refine ⟨r, by omega, fun l hl => ?_, by rw [ea, eb]; simp only [Option.bind_eq_bind, Option.bind_some, er]⟩
    have hx := List.getElem?_eq_getElem (l := a) (i := l) (by omega)
    have hy := List.getElem?_eq_getElem (l := b) (i := l) (by omega)
    rw [vr l _ _ hx hy, ← va' l hl, ← vb' l hl, hx, hy]; rfl) m.mem ⟨rfl, fun e => by simp⟩
  refine ⟨{ m with mem := mem' }, by unfold VMem.opAssign; rw [e]; rfl, rfl, rfl, hu.1, fun x hx => ?_⟩
  show mem'[x]? = _
  rw [hu.2 x, if_pos hx]

/-- `m op= rhs`: every entry becomes `e_i op rhs_i`, provided that the operation is defined in the
padding as well. Sizes are unchanged. -/
theorem C09_op_partial (op : α → α → Option α) (w : Nat) (m rhs : VMem α) (h : MemOk w m)
    (h' : MemOk w rhs) (hv : m.vecs = rhs.vecs)
    (hdef : ∀ (e : Nat) x y, m.mem[e]? = some x → rhs.mem[e]? = some y → (op x y).isSome = true) :
    ∃ r, m.opAssign op w (fun _ => rhs.mem) = some r ∧ r.entries = m.entries ∧ r.vecs = m.vecs ∧
      MemOk w r ∧
      ∀ (e : Nat) x y, m.mem[e]? = some x → rhs.mem[e]? = some y → r.mem[e]? = op x y := by
  obtain ⟨r, e, h1, h2, h3, h4⟩ := opAssign_spec op w m h (fun _ => rhs.mem) (fun e => rhs.mem[e]?)
    (fun j mem _ => ⟨by rw [h'.len, hv]; omega, fun _ _ _ => rfl⟩) (fun e x y _ hx hy => hdef e x y hx hy)
  refine ⟨r, e, h1, h2, ⟨h.pos, by rw [h2]; exact h.fits, by rw [h3, h2]; exact h.len,
    by rw [h1, h2]; exact h.least⟩, fun e x y hx hy => ?_⟩
  rw [h4 e (by rw [← h.len]; exact (List.getElem?_eq_some_iff.mp hx).1), hx, hy]; rfl

/-- `m op= m`. -/
theorem C09_op_self_partial (op : α → α → Option α) (w : Nat) (m : VMem α) (h : MemOk w m)
    (hdef : ∀ (e : Nat) x, m.mem[e]? = some x → (op x x).isSome = true) :
    ∃ r, m.opAssign op w id = some r ∧ r.entries = m.entries ∧ r.vecs = m.vecs ∧ MemOk w r ∧
      ∀ (e : Nat) x, m.mem[e]? = some x → r.mem[e]? = op x x := by
  obtain ⟨r, e, h1, h2, h3, h4⟩ := opAssign_spec op w m h id (fun e => m.mem[e]?)
    (fun j mem hu => ⟨by rw [id, hu.1, h.len]; omega, fun e he _ => by
      rw [id, hu.2, if_neg (by omega)]⟩)
    (fun e x y _ hx hy => by rw [hx] at hy; cases hy; exact hdef e x hx)
  refine ⟨r, e, h1, h2, ⟨h.pos, by rw [h2]; exact h.fits, by rw [h3, h2]; exact h.len,
    by rw [h1, h2]; exact h.least⟩, fun e x hx => ?_⟩
  rw [h4 e (by rw [← h.len]; exact (List.getElem?_eq_some_iff.mp hx).1), hx]; rfl

theorem opAssignScalar_eq (op : α → α → Option α) (w : Nat) (m : VMem α) (h : MemOk w m) (x : α) :
    m.opAssignScalar op w x = m.opAssign op w (fun _ => List.replicate (m.vecs * w) x) := by
  unfold VMem.opAssignScalar VMem.opAssign
  have key : ∀ (d lo : Nat) (mem : List α), m.vecs - lo = d →
      forLoop (fun i mem => do
        let a ← vectorRead w mem i
        let r ← lanesM op a (List.replicate w x)
        vectorWrite w mem i r) lo m.vecs mem =
      forLoop (fun i mem => do
        let a ← vectorRead w mem i
        let b ← vectorRead w (List.replicate (m.vecs * w) x) i
        let r ← lanesM op a b
        vectorWrite w mem i r) lo m.vecs mem := by
    intro d
    induction d with
    | zero => intro lo mem hd; rw [forLoop_ge _ (by omega), forLoop_ge _ (by omega)]
    | succ d ih =>
      intro lo mem hd
      have hlt : lo < m.vecs := by omega
      rw [forLoop_lt _ hlt, forLoop_lt _ hlt]
      have hb : vectorRead w (List.replicate (m.vecs * w) x) lo = some (List.replicate w x) := by
        obtain ⟨h1, h2⟩ := wrap_index hlt h.fits h.pos
        unfold vectorRead vecLoad
        rw [h1, if_pos (by simpa using h2)]
        simp only [List.drop_replicate, List.take_replicate]
        congr 2; omega
      rw [hb]
      simp only [Option.bind_eq_bind, Option.bind_some]
      congr 1
      funext mem'
      simpa only [Option.bind_eq_bind] using ih (lo + 1) mem' (by omega)
  rw [key _ 0 m.mem rfl]

/-- `m op= x`: every entry becomes `e_i op x`. -/
theorem C09_op_scalar_partial (op : α → α → Option α) (w : Nat) (m : VMem α) (h : MemOk w m) (x : α)
    (hdef : ∀ (e : Nat) u, m.mem[e]? = some u → (op u x).isSome = true) :
    ∃ r, m.opAssignScalar op w x = some r ∧ r.entries = m.entries ∧ r.vecs = m.vecs ∧ MemOk w r ∧
      ∀ (e : Nat) u, m.mem[e]? = some u → r.mem[e]? = op u x := by
  rw [opAssignScalar_eq op w m h x]
  obtain ⟨r, e, h1, h2, h3, h4⟩ := opAssign_spec op w m h (fun _ => List.replicate (m.vecs * w) x)
    (fun e => (List.replicate (m.vecs * w) x)[e]?)
    (fun j mem _ => ⟨by simp, fun _ _ _ => rfl⟩)
    (fun e u y he hx hy => by
      rw [List.getElem?_replicate, if_pos he] at hy
      cases hy; exact hdef e u hx)
  refine ⟨r, e, h1, h2, ⟨h.pos, by rw [h2]; exact h.fits, by rw [h3, h2]; exact h.len,
    by rw [h1, h2]; exact h.least⟩, fun e u hx => ?_⟩
  have he : e < m.vecs * w := by rw [← h.len]; exact (List.getElem?_eq_some_iff.mp hx).1
  rw [h4 e he, hx, List.getElem?_replicate, if_pos he]; rfl

example : MemOk 4 exMem ∧ (∀ (e : Nat) x y, exMem.mem[e]? = some x → exMem.mem[e]? = some y →
    ((fun a b => some (a + b) : Nat → Nat → Option Nat) x y).isSome = true) :=
  ⟨exMem_ok, fun _ _ _ _ _ => rfl⟩

/-- If the operation is undefined for one stored pair, the whole operation is, even if that pair
is padding. -/
theorem C09_op_undefined (op : α → α → Option α) (w : Nat) (m rhs : VMem α) (h : MemOk w m)
    (h' : MemOk w rhs) (hv : m.vecs = rhs.vecs) (e : Nat) (x y : α) (hx : m.mem[e]? = some x)
    (hy : rhs.mem[e]? = some y) (hop : op x y = none) :
    m.opAssign op w (fun _ => rhs.mem) = none := by
  have he : e < m.vecs * w := by rw [← h.len]; exact (List.getElem?_eq_some_iff.mp hx).1
  have hk : e / w < m.vecs := (Nat.div_lt_iff_lt_mul h.pos).mpr he
  have hml := Nat.mod_lt e h.pos
  have hdm := Nat.div_add_mod' e w
  unfold VMem.opAssign
  rw [forLoop_none (fun i mem => do
      let a ← vectorRead w mem i
      let b ← vectorRead w rhs.mem i
      let r ← lanesM op a b
      vectorWrite w mem i r)
    (fun j mem => mem.length = m.mem.length ∧ ∀ t, j * w ≤ t → mem[t]? = m.mem[t]?) m.vecs (e / w) hk
    ?_ ?_ (e / w - 0) 0 rfl (Nat.zero_le _) m.mem ⟨rfl, fun _ _ => rfl⟩]
  · rfl
  · intro i mem mem' hi ⟨hl, hI⟩ hb
    have hi' : i < m.vecs := by omega
    obtain ⟨a, ea, la, va⟩ := vectorRead_some (mem := mem) h.pos hi' h.fits (by rw [hl, h.len]; omega)
    obtain ⟨b, eb, lb, vb⟩ := vectorRead_some (mem := rhs.mem) h.pos hi' h.fits
      (by rw [h'.len, hv]; omega)
    rw [ea, eb] at hb
    simp only [Option.bind_eq_bind, Option.bind_some] at hb
    cases er : lanesM op a b with
    | none => rw [er] at hb; cases hb
    | some r =>
      rw [er] at hb
      simp only [Option.bind_some] at hb
      have lr : r.length = w := by
        have := er
        unfold lanesM at this
        have hlen : ∀ {γ δ : Type _} (f : γ → Option δ) (l : List γ) (r : List δ), l.mapM f = some r →
            r.length = l.length := by
          intro γ δ f l
          induction l with
          | nil => intro r h; simp at h; subst h; rfl
          | cons c l ih =>
            intro r h
            simp only [List.mapM_cons, Option.pure_def, Option.bind_eq_bind, Option.bind_eq_some_iff,
              Option.some.injEq] at h
            obtain ⟨_, _, t, ht, rfl⟩ := h
            simp [ih t ht]
        rw [hlen _ _ _ this]; simp [la, lb]
      obtain ⟨mem'', e'', hl'', hc''⟩ := vectorWrite_some (mem := mem) h.pos hi' h.fits
        (by rw [hl, h.len]; omega) lr
      rw [e''] at hb
      cases hb
      refine ⟨by rw [hl'', hl], fun t ht => ?_⟩
      rw [Nat.add_mul, Nat.one_mul] at ht
      rw [hc'', if_neg (by omega), hI t (by omega)]
  · intro mem ⟨hl, hI⟩
    obtain ⟨a, ea, la, va⟩ := vectorRead_some (mem := mem) h.pos hk h.fits (by rw [hl, h.len]; omega)
    obtain ⟨b, eb, lb, vb⟩ := vectorRead_some (mem := rhs.mem) h.pos hk h.fits
      (by rw [h'.len, hv]; omega)
    simp only [ea, eb, Option.bind_eq_bind, Option.bind_some]
    rw [lanesM_none (e % w) x y (by rw [va _ hml, hdm, hI e (by omega)]; exact hx)
      (by rw [vb _ hml, hdm]; exact hy) hop]
    rfl

/-- The claim for all operations: it suffices that the operation is defined for the entries. -/
def opIsEntrywise : Prop :=
  ∀ (op : Int → Int → Option Int) (w : Nat) (m rhs : VMem Int), MemOk w m → MemOk w rhs →
    m.vecs = rhs.vecs → m.entries = rhs.entries →
    (∀ (e : Nat) x y, e < m.entries → m.mem[e]? = some x → rhs.mem[e]? = some y →
      (op x y).isSome = true) →
    ∃ r, m.opAssign op w (fun _ => rhs.mem) = some r ∧
      ∀ (e : Nat) x y, e < m.entries → m.mem[e]? = some x → rhs.mem[e]? = some y → r.mem[e]? = op x y

theorem ok4i (x p q r : Int) : MemOk 4 (⟨1, 1, [x, p, q, r]⟩ : VMem Int) where
  pos := by decide
  fits := by show 1 * 4 ≤ 2 ^ 64; decide
  len := rfl
  least := ⟨⟨1, rfl⟩, (by show 1 ≤ 1 * 4; decide), fun q ⟨c, hc⟩ hq => by simp only at hq ⊢; omega⟩

/-- Integer `m /= rhs` divides the padding, which construction sets to zero, by zero. -/
theorem C09_division_violated : ¬ opIsEntrywise ∧
    VMem.fromList 0 4 1 (fun i => (i : Int) + 100) [8] = some ⟨1, 1, [8, 0, 0, 0]⟩ ∧
    VMem.fromList 0 4 1 (fun i => (i : Int) + 100) [2] = some ⟨1, 1, [2, 0, 0, 0]⟩ := by
  refine ⟨?_, by decide +kernel, by decide +kernel⟩
  intro h
  obtain ⟨r, e, _⟩ := h (fun x y => if y = 0 then none else some (x / y)) 4 ⟨1, 1, [8, 0, 0, 0]⟩
    ⟨1, 1, [2, 0, 0, 0]⟩ (ok4i 8 0 0 0) (ok4i 2 0 0 0) rfl rfl (by
      intro e x y he hx hy
      simp only at he
      have : e = 0 := by omega
      subst this
      simp at hx hy
      subst hx; subst hy; decide)
  rw [C09_op_undefined _ 4 ⟨1, 1, [8, 0, 0, 0]⟩ ⟨1, 1, [2, 0, 0, 0]⟩ (ok4i 8 0 0 0) (ok4i 2 0 0 0)
    rfl 1 0 0 rfl rfl rfl] at e
  cases e

/-- The claim for equality: `a == b` holds exactly if all entries agree. -/
def eqIsEntrywise : Prop :=
  ∀ (w : Nat) (a b : VMem Nat), MemOk w a → MemOk w b → a.vecs = b.vecs → a.entries = b.entries →
    ∃ r, a.cmpAll (· == ·) w b = some r ∧
      (r = true ↔ AllEntries (· == ·) a.entries a.mem b.mem)

/-- `Memory {1}` after `+= 1` has the same single entry as `Memory {2}` but is not `==` to it,
because the padding has been incremented, too. -/
theorem C08_eq_violated : ¬ eqIsEntrywise ∧
    VMem.fromList 0 4 1 (fun i => i + 100) [1] = some ⟨1, 1, [1, 0, 0, 0]⟩ ∧
    VMem.opAssignScalar (fun x y => some (x + y)) 4 ⟨1, 1, [1, 0, 0, 0]⟩ 1 = some ⟨1, 1, [2, 1, 1, 1]⟩ ∧
    VMem.fromList 0 4 1 (fun i => i + 100) [2] = some ⟨1, 1, [2, 0, 0, 0]⟩ := by
  refine ⟨?_, by decide +kernel, ?_, by decide +kernel⟩
  · intro h
    obtain ⟨r, e, g⟩ := h 4 ⟨1, 1, [2, 1, 1, 1]⟩ ⟨1, 1, [2, 0, 0, 0]⟩ (ok4 2 1 1 1) (ok4 2 0 0 0) rfl rfl
    obtain ⟨r1, f1, g1⟩ := C08_compare_stored (· == ·) 4 ⟨1, 1, [2, 1, 1, 1]⟩
      ⟨1, 1, [2, 0, 0, 0]⟩ (ok4 2 1 1 1) (ok4 2 0 0 0) rfl
    rw [f1] at e
    cases e
    have hr : r = true := g.mpr (by
      intro e u v he hu hv
      simp only at he
      have : e = 0 := by omega
      subst this
      simp at hu hv
      subst hu; subst hv; decide)
    have := g1.mp hr 1 1 0 (by decide) rfl rfl
    simp at this
  · unfold VMem.opAssignScalar
    rw [forLoop_lt _ (by decide)]
    have : (vectorWrite 4 [1, 0, 0, 0] 0 [2, 1, 1, 1]) = some [2, 1, 1, 1] := by decide +kernel
    have h2 : (vectorRead 4 [1, 0, 0, 0] 0) = some [1, 0, 0, 0] := by decide +kernel
    have h3 : lanesM (fun x y => some (x + y)) [1, 0, 0, 0] (List.replicate 4 1) = some [2, 1, 1, 1] := by
      decide +kernel
    simp only [h2, h3, this, Option.bind_eq_bind, Option.bind_some]
    rw [forLoop_ge _ (by decide)]
    rfl

/-! ## C49 -/

/-- `m = v` and `setZero()`: every entry `e` becomes lane `e mod Size` of `v`. -/
theorem C49_fill (w : Nat) (m : VMem α) (h : MemOk w m) (v : List α) (hv : v.length = w) :
    ∃ r, m.fill w v = some r ∧ r.entries = m.entries ∧ MemOk w r ∧
      ∀ e, e < m.mem.length → r.mem[e]? = v[e % w]? := by
  obtain ⟨mem', e, hu⟩ := forLoop_vectors (w := w) (N := m.vecs) (L := m.mem.length)
    (old := fun e => m.mem[e]?) (new := fun e => v[e % w]?)
    h.pos h.fits (by rw [h.len]; omega) (fun i mem => vectorWrite w mem i v) 0 (Nat.zero_le _) (by
    intro j mem hj hu
    refine ⟨v, hv, fun l hl => ?_, rfl⟩
    rw [Nat.mul_comm, Nat.mul_add_mod, Nat.mod_eq_of_lt hl]) m.mem ⟨rfl, fun e => by simp⟩
  refine ⟨{ m with mem := mem' }, by unfold VMem.fill; rw [e]; rfl, rfl,
    ⟨h.pos, h.fits, by rw [← h.len]; exact hu.1, h.least⟩, fun x hx => ?_⟩
  show mem'[x]? = _
  rw [hu.2, if_pos (by rw [← h.len]; exact hx)]

example : MemOk 4 exMem ∧ ([1, 2, 3, 4] : List Nat).length = 4 := ⟨exMem_ok, rfl⟩

/-- `m = ptr` copies `entriesCount()` entries and leaves the padding alone; it is defined exactly
if so many entries exist behind `ptr`. -/
theorem C49_copy_in (w : Nat) (m : VMem α) (h : MemOk w m) (src : List α)
    (hs : m.entries ≤ src.length) :
    ∃ r, m.copyIn src = some r ∧ r.entries = m.entries ∧ MemOk w r ∧
      ∀ e, r.mem[e]? = if e < m.entries then src[e]? else m.mem[e]? := by
  have hge := h.least.2.1
  have hl : (src.take m.entries).length = m.entries := by simp; omega
  obtain ⟨mem', e, hl', hc⟩ := vecStore_some (mem := m.mem) (v := src.take m.entries) (off := 0)
    (by rw [h.len]; omega)
  refine ⟨{ m with mem := mem' }, by unfold VMem.copyIn; rw [if_pos hs, e]; rfl, rfl,
    ⟨h.pos, h.fits, by rw [← h.len]; exact hl', h.least⟩, fun x => ?_⟩
  show mem'[x]? = _
  rw [hc x, hl]
  by_cases c : x < m.entries
  · rw [if_pos (by omega), if_pos c, Nat.sub_zero, List.getElem?_take_of_lt c]
  · rw [if_neg (by omega), if_neg c]

example : MemOk 4 exMem ∧ exMem.entries ≤ (List.range 6).length := ⟨exMem_ok, by decide⟩

end Vc.Prop
