import Verif.Lemma.Store
import Verif.Prop.Load

/-!
C69: stores of native vectors, with and without mask.
-/

namespace Vc.Prop

open Vc.Model Vc.Spec Vc.Lemma

private theorem allOnes_msb {n : Nat} {j : Nat} (h : 8 * (j + 1) ≤ n) :
    (Model.lane 8 (BitVec.allOnes n) j).msb = true := by
  rw [lane_allOnes h]; rfl

private theorem sseStore_eq {fl : LFlags} (m : ByteMem) {a : Int} (x : M128)
    (hal : fl.unaligned = false → a % 16 = 0) :
    sseStore fl m a x = storeBytes m a 16 (fun _ => true) (Model.lane 8 x) := by
  unfold sseStore
  rcases fl with ⟨u, s⟩
  cases u
  · show storea m a x = _
    unfold storea storeu
    exact if_pos (hal rfl)
  · cases s
    · rfl
    · exact storeBytes_congr (fun j hj => allOnes_msb (by omega)) fun _ _ => rfl

private theorem avxStore_eq {fl : LFlags} (m : ByteMem) {a : Int} (x : M256)
    (hal : fl.unaligned = false → a % 32 = 0) :
    avxStore fl m a x = storeBytes m a 32 (fun _ => true) (Model.lane 8 x) := by
  unfold avxStore
  rcases fl with ⟨u, s⟩
  cases u
  · show storea m a x = _
    unfold storea storeu
    exact if_pos (hal rfl)
  · cases s
    · rfl
    · show streamStore256 m a x _ = _
      rw [streamStore256_eq]
      exact storeBytes_congr (fun j hj => allOnes_msb (by omega)) fun _ _ => rfl

private theorem bytes_facts {T : ETy} : T.bits = 8 * T.bytes ∧ 0 < T.bytes ∧ 16 = T.bytes * (128 / T.bits) ∧
    32 = T.bytes * (256 / T.bits) := by
  cases T <;> decide

/-- Storing a vector overwrites exactly its `Size` entries, for SSE and AVX and every combination of
`Vc::Unaligned` and `Vc::Streaming`. -/
theorem C69_store {T : ETy} (_ : T ∈ vecTypes) (fl : LFlags) (m : ByteMem) (a : Int) :
    (∀ x : M128, (fl.unaligned = false → a % 16 = 0) →
      (∀ i, i < 128 / T.bits → Readable m (a + T.bytes * i) T.bytes) →
      ∃ m', sseStore fl m a x = some m' ∧ Stored m m' a (128 / T.bits) (fun _ => true) (Model.lane T.bits x)) ∧
    (∀ x : M256, (fl.unaligned = false → a % 32 = 0) →
      (∀ i, i < 256 / T.bits → Readable m (a + T.bytes * i) T.bytes) →
      ∃ m', avxStore fl m a x = some m' ∧ Stored m m' a (256 / T.bits) (fun _ => true) (Model.lane T.bits x)) := by
  obtain ⟨b1, b2, b3, b4⟩ := bytes_facts (T := T)
  refine ⟨fun x hal hr => ?_, fun x hal hr => ?_⟩
  · rw [sseStore_eq m x hal]
    exact store_entries b1 b2 b3 (en := fun _ => true) (fun _ _ => rfl) x fun i hi _ => hr i hi
  · rw [avxStore_eq m x hal]
    exact store_entries b1 b2 b4 (en := fun _ => true) (fun _ _ => rfl) x fun i hi _ => hr i hi

/-- Storing a vector with a mask overwrites exactly the entries whose mask entry is set.  Neither the alignment nor
the entries whose mask entry is clear matter: they may even belong to memory that must not be accessed. -/
theorem C69_masked {T : ETy} (_ : T ∈ vecTypes) (fl : LFlags) (m : ByteMem) (a : Int) (en : Nat → Bool) :
    (∀ x k : M128, IsMask T.bits k en →
      (∀ i, i < 128 / T.bits → en i = true → Readable m (a + T.bytes * i) T.bytes) →
      ∃ m', sseStoreMasked m a x k = some m' ∧ Stored m m' a (128 / T.bits) en (Model.lane T.bits x)) ∧
    (∀ x k : M256, IsMask T.bits k en →
      (∀ i, i < 256 / T.bits → en i = true → Readable m (a + T.bytes * i) T.bytes) →
      ∃ m', avxStoreMasked T.bits fl m a x k = some m' ∧
        Stored m m' a (256 / T.bits) en (Model.lane T.bits x)) := by
  obtain ⟨b1, b2, b3, b4⟩ := bytes_facts (T := T)
  have room : ∀ {N j : Nat}, 8 * (T.bytes * (N / T.bits)) = N → 8 * j < N → T.bits * (j / T.bytes + 1) ≤ N := by
    intro N j hN hj
    have : j / T.bytes < N / T.bits := by
      rw [Nat.div_lt_iff_lt_mul b2, Nat.mul_comm]; omega
    have h2 : T.bytes * (j / T.bytes + 1) ≤ T.bytes * (N / T.bits) := Nat.mul_le_mul_left _ this
    rw [b1, Nat.mul_assoc]; omega
  have r128 : ∀ {j : Nat}, j < 16 → T.bits * (j / T.bytes + 1) ≤ 128 := fun hj =>
    room (by rw [← b3]) (by omega)
  have r256 : ∀ {j : Nat}, j < 32 → T.bits * (j / T.bytes + 1) ≤ 256 := fun hj =>
    room (by rw [← b4]) (by omega)
  refine ⟨fun x k hk hr => store_entries b1 b2 b3 (fun j hj => mask_byte b1 hk b2 (r128 hj)) x hr,
    fun x k hk hr => ?_⟩
  have stream : ∃ m', streamStore256 m a x k = some m' ∧
      Stored m m' a (256 / T.bits) en (Model.lane T.bits x) := by
    rw [streamStore256_eq]
    exact store_entries b1 b2 b4 (fun j hj => mask_byte b1 hk b2 (r256 hj)) x hr
  unfold avxStoreMasked
  cases fl.streaming
  · rw [if_neg Bool.false_ne_true]
    unfold maskstore256
    by_cases h16 : T.bits = 16
    · rw [if_pos h16]
      exact stream
    · rw [if_neg h16]
      unfold maskstoreIntr
      refine store_entries b1 b2 b4 (fun j hj => ?_) x hr
      have hw : 0 < T.bits := by omega
      have h8 : T.bits / 8 = T.bytes := rfl
      rw [h8]
      exact mask_lane hw hk (r256 hj)
  · rw [if_pos rfl]
    exact stream

/-- What has been stored can be loaded again, with any flags the pointer is aligned enough for. -/
theorem C69_roundtrip {T : ETy} (hT : T ∈ vecTypes) (I : Isa) (avx avx2 : Bool) (fl fl' : LFlags) (m : ByteMem)
    (a : Int) :
    (∀ x : M128, (fl.unaligned = false ∨ fl'.unaligned = false → a % 16 = 0) →
      (∀ i, i < 128 / T.bits → Readable m (a + T.bytes * i) T.bytes) →
      (sseStore fl m a x).bind (fun m' => sseLoad I avx fl' m' a T T) = some x) ∧
    (∀ x : M256, (fl.unaligned = false ∨ fl'.unaligned = false → a % 32 = 0) →
      (∀ i, i < 256 / T.bits → Readable m (a + T.bytes * i) T.bytes) →
      (avxStore fl m a x).bind (fun m' => avxLoad avx2 fl' m' a T T) = some x) := by
  have hself : ∀ {e r : BitVec T.bits}, Converts T T e r → r = e := fun {e r} h => by
    unfold Converts at h; rw [if_pos rfl] at h; exact BitVec.eq_of_toNat_eq h
  refine ⟨fun x hal hr => ?_, fun x hal hr => ?_⟩
  · obtain ⟨m', hs, h1, -⟩ := (C69_store hT fl m a).1 x (fun h => hal (.inl h)) hr
    obtain ⟨r, hl, h2⟩ := C68_sse_load_partial I avx fl' m' a (dst := T) (src := T) hT (.inl rfl)
      (fun h => hal (.inr h)) (by rintro - rfl h; cases h) (fun i => Model.lane T.bits x i)
      (fun i hi => h1 i hi rfl)
    rw [hs, Option.bind_some, hl]
    refine congrArg some (reg_ext T.bits (by cases T <;> decide) (by cases T <;> decide) fun i hi => ?_)
    exact hself (h2 i hi)
  · obtain ⟨m', hs, h1, -⟩ := (C69_store hT fl m a).2 x (fun h => hal (.inl h)) hr
    obtain ⟨r, hl, h2⟩ := C68_avx_load_partial avx2 fl' m' a (dst := T) (src := T) hT (.inl rfl)
      (fun h => hal (.inr h)) (fun i => Model.lane T.bits x i)
      (fun i hi => h1 i hi rfl) (by rintro rfl; decide) (by rintro rfl h; cases h)
    rw [hs, Option.bind_some, hl]
    refine congrArg some (reg_ext T.bits (by cases T <;> decide) (by cases T <;> decide) fun i hi => ?_)
    exact hself (h2 i hi)

/-! ### Stores to arrays of another type -/

/-- `int_v::store(short *)` compiles, and writes the four ints: memory behind the four shorts is overwritten. -/
theorem C69_store_overrun_violated :
    ¬ ∀ (fl : LFlags) (m m' : ByteMem) (a : Int) (x : M128), (fl.unaligned = false → a % 16 = 0) →
      (∀ i : Nat, i < 4 → Readable m (a + (2 : Nat) * i) 2) → sseStore fl m a x = some m' →
      ∀ y, (∀ i, i < 4 → ¬ InEntry 2 a i y) → m' y = m y := by
  intro h
  have hs : sseStore ⟨true, false⟩ (fun _ => some 0) 0 (BitVec.allOnes 128) =
      some (fun x => if (0 : Int) ≤ x ∧ x < 0 + (16 : Nat) ∧ true = true then
        some (Model.lane 8 (BitVec.allOnes 128) (x - 0).toNat) else some 0) := by
    rw [sseStore_eq _ _ (by intro h; cases h)]
    obtain ⟨m', hm⟩ := (storeBytes_some (m := fun _ => some 0) (a := 0) (k := 16) (en := fun _ => true)
      (b := Model.lane 8 (BitVec.allOnes 128))).mp fun j _ _ => ⟨0, rfl⟩
    rw [hm, storeBytes_eq hm]
  have := h ⟨true, false⟩ (fun _ => some 0) _ 0 (BitVec.allOnes 128) (by intro h; cases h)
    (fun i _ j _ => ⟨0, rfl⟩) hs 8 (fun i hi hc => by unfold InEntry at hc; omega)
  revert this
  decide +kernel

/-- `int_v::store(float *)` compiles, and writes the integers without converting them. -/
theorem C69_store_convert_violated :
    ¬ ∀ (fl : LFlags) (m m' : ByteMem) (a : Int) (x : M128), (fl.unaligned = false → a % 16 = 0) →
      (∀ i : Nat, i < 4 → Readable m (a + (4 : Nat) * i) 4) → sseStore fl m a x = some m' →
      ∀ i : Nat, i < 4 → ∃ r : BitVec ETy.float.bits, EntryAt m' (a + (4 : Nat) * i) r ∧
        Converts .int .float (Model.lane 32 x i) r := by
  intro h
  obtain ⟨m', hs, h1, -⟩ := (C69_store (T := .int) (by decide) ⟨true, false⟩ (fun _ => some 0) 0).1
    (1#128) (by intro h; cases h) (fun i _ j _ => ⟨0, rfl⟩)
  obtain ⟨r, hr, hc⟩ := h _ _ _ _ _ (by intro h; cases h) (fun i _ j _ => ⟨0, rfl⟩) hs 0 (by decide)
  have h0 := h1 0 (by decide) rfl
  have hr1 : r = 1#32 := by
    have e : ∀ j : Nat, j < 4 → r.extractLsb' (8 * j) 8 = (1#32).extractLsb' (8 * j) 8 := fun j hj => by
      have a1 := hr j (show 8 * j < 32 by omega)
      have a2 := h0 j (show 8 * j < 32 by omega)
      have a3 := a1.symm.trans a2
      have a4 := Option.some.inj a3
      rw [a4]
      have : ∀ j : Fin 4, (Model.lane 32 (1#128) 0).extractLsb' (8 * j.1) 8 = (1#32).extractLsb' (8 * j.1) 8 := by
        decide +kernel
      exact this ⟨j, hj⟩
    refine reg_ext (n := 32) 8 (by decide) (by decide) fun i hi => ?_
    exact e i (by omega)
  have hc' : RoundedInt f32 (val true (Model.lane 32 (1#128) 0)) r := hc
  rw [hr1] at hc'
  have hv : val true (Model.lane 32 (1#128) 0) = 1 := by decide +kernel
  rw [hv] at hc'
  have h3 := (hc'.2 0x3f800000#32 (by decide)).1
  revert h3
  decide +kernel

/-! ### Examples -/

/-- The hypotheses of the theorems: four ints at an address that is not aligned; with a mask, the two entries that
are not written need not exist. -/
example : (∀ i : Nat, i < 128 / ETy.int.bits → Readable (bytesAt 3 (List.replicate 16 7)) (3 + ETy.int.bytes * i)
    ETy.int.bytes) ∧
    ((sseStore ⟨true, true⟩ (bytesAt 3 (List.replicate 16 7)) 3 (ofLanes 32 fun i => BitVec.ofNat 32 i)).map fun m' =>
      (List.range 17).map fun j => m' (3 + j)) =
      some [some 0, some 0, some 0, some 0, some 1, some 0, some 0, some 0, some 2, some 0, some 0, some 0,
        some 3, some 0, some 0, some 0, none] := by
  refine ⟨fun i hi j hj => ?_, by decide +kernel⟩
  have : ∀ i j : Fin 4, bytesAt 3 (List.replicate 16 7) (3 + (ETy.int.bytes : Nat) * (i.1 : Int) + (j.1 : Nat)) =
      some 7#8 := by decide +kernel
  exact ⟨_, this ⟨i, hi⟩ ⟨j, hj⟩⟩

example : (∀ i : Nat, i < 128 / ETy.int.bits → (i == 1) = true →
      Readable (bytesAt 4 (List.replicate 4 7)) (0 + ETy.int.bytes * i) ETy.int.bytes) ∧
    IsMask ETy.int.bits (BitVec.ofNat 128 0xffffffff00000000) (fun i => i == 1) ∧
    ((sseStoreMasked (bytesAt 4 (List.replicate 4 7)) 0 (set1 32 0x01020304) (BitVec.ofNat 128 0xffffffff00000000)).map
      fun m' => (List.range 10).map fun j => m' j) =
      some [none, none, none, none, some 4, some 3, some 2, some 1, none, none] := by
  refine ⟨fun i hi he j hj => ?_, fun i hi => ?_, by decide +kernel⟩
  · have hi1 : i = 1 := by simpa using he
    subst hi1
    have : ∀ j : Fin 4, bytesAt 4 (List.replicate 4 7) (0 + (ETy.int.bytes : Nat) * ((1 : Nat) : Int) + (j.1 : Nat)) =
        some 7#8 := by decide +kernel
    exact ⟨_, this ⟨j, hj⟩⟩
  · have : ∀ i : Fin 4, (BitVec.ofNat 128 0xffffffff00000000).extractLsb' (32 * i.1) 32 =
        boolLane 32 (i.1 == 1) := by decide +kernel
    exact this ⟨i, by have : 32 * (i + 1) ≤ 128 := hi; omega⟩

end Vc.Prop
