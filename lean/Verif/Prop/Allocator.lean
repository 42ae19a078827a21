import Verif.Lemma.Allocator

/-!
C70: `Vc::Allocator`.
-/

namespace Vc.Prop

open Vc.Model Vc.Spec Vc.Lemma

/-- Whatever a program allocates, deallocates and writes, with `Vc::Allocator` for any types: every array it holds is
aligned for its type and for vectors, all its bytes can be accessed, no two arrays have a byte in common, and what has
been written is still there.  There is one block from `operator new` for every array, and none when everything has been
deallocated. -/
theorem C70_arrays {P : AllocPlatform} (hP : PlatformOK P) {h : Heap} {v : View} (R : Reach P h v) :
    (∀ r ∈ v.live, r.1.align ∣ r.2.2 ∧ P.simd ∣ r.2.2) ∧
    (∀ r ∈ v.live, ∀ x, InArray r x → ∃ b, h.mem x = some b) ∧
    (v.live.Pairwise fun r s => ∀ x, ¬ (InArray r x ∧ InArray s x)) ∧
    (∀ x b, v.bytes x = some b → h.mem x = some b) ∧
    h.blocks.length = v.live.length := by
  obtain ⟨E, I⟩ := reach_inv hP R
  refine ⟨fun r hr => ?_, fun r hr x hx => ?_, ?_, fun x b hb => (I.bytes x b hb).1, ?_⟩
  · rw [I.live, List.mem_map] at hr
    obtain ⟨e, he, rfl⟩ := hr
    exact (I.ok e he).al
  · rw [I.live, List.mem_map] at hr
    obtain ⟨e, he, rfl⟩ := hr
    obtain ⟨h1, h2, -⟩ := (I.ok e he).inBlock hx
    exact (I.ok e he).acc x h1 h2
  · rw [I.live, List.pairwise_map]
    refine I.apart.imp_of_mem fun {e f} he hf ha x hx => ?_
    obtain ⟨h1, h2, -⟩ := (I.ok e he).inBlock hx.1
    obtain ⟨h3, h4, -⟩ := (I.ok f hf).inBlock hx.2
    exact ha.not_both h1 h2 h3 h4
  · rw [I.live, I.blocks, List.length_map, List.length_map]

/-- `deallocate` of an array the program holds is always defined: it passes a pointer from `operator new` to
`operator delete`, whatever the program wrote. -/
theorem C70_deallocate {P : AllocPlatform} (hP : PlatformOK P) {h : Heap} {v : View} (R : Reach P h v) {T : ObjTy}
    {n q : Nat} (hl : (T, n, q) ∈ v.live) : ∃ h', deallocate P T h q = .ok h' ∧ Reach P h' (v.dealloc T n q) := by
  obtain ⟨E, I⟩ := reach_inv hP R
  obtain ⟨h', E', h1, -, -⟩ := deallocate_inv I hl
  exact ⟨h', h1, .dealloc R hl h1⟩

/-- Writing to an array the program holds is always defined. -/
theorem C70_write {P : AllocPlatform} (hP : PlatformOK P) {h : Heap} {v : View} (R : Reach P h v)
    {r : ObjTy × Nat × Nat} (hr : r ∈ v.live) {a : Int} (ha : InArray r a) (b : BitVec 8) :
    ∃ h', writeByte h a b = .ok h' ∧ Reach P h' (v.write a b) := by
  obtain ⟨E, I⟩ := reach_inv hP R
  obtain ⟨h', h1, -⟩ := writeByte_inv I hr ha b
  exact ⟨h', h1, .write R hr ha h1⟩

/-- `allocate(n)`: `std::bad_alloc` if `n > max_size()` or if `operator new` throws, else an array.  Missing from the
full statement: the number of bytes, with the extra bytes, has to be less than 2 ^ 64. -/
theorem C70_allocate_partial {P : AllocPlatform} (hP : PlatformOK P) {h : Heap} {v : View} (R : Reach P h v) {T : ObjTy}
    (hT : T.OK) (n : Nat) :
    (n > allocMaxSize T → ∀ new, allocate P T h n new = .badAlloc) ∧
    allocate P T h n none = .badAlloc ∧
    (n * T.size + extraBytes P T < 2 ^ 64 → ∀ p junk, NewOK P h (allocRequest P T n) p →
      ∃ h' q, allocate P T h n (some (p, junk)) = .ok (h', q) ∧ Reach P h' (v.alloc T n q)) := by
  refine ⟨fun hn new => if_pos hn, ?_, fun hn p junk hnew => ?_⟩
  · unfold allocate
    by_cases hn : n > allocMaxSize T
    · rw [if_pos hn]
    · rw [if_neg hn]
  · obtain ⟨E, I⟩ := reach_inv hP R
    obtain ⟨h', q, h1, -⟩ := allocate_inv hP I hT junk hn hnew
    exact ⟨h', q, h1, .alloc R hT hn hnew h1⟩

/-- For types that need no more than the natural alignment there are no extra bytes, and `n ≤ max_size()` is
enough. -/
theorem C70_natural {P : AllocPlatform} {h : Heap} {v : View} (R : Reach P h v) {T : ObjTy}
    (hT : T.OK) (ha : T.align ≤ P.natural) (hs : P.simd ≤ P.natural) {n : Nat} (hn : n ≤ allocMaxSize T) (p : Nat)
    (junk : Nat → BitVec 8) (hnew : NewOK P h (n * T.size) p) :
    ∃ h', allocate P T h n (some (p, junk)) = .ok (h', p) ∧ Reach P h' (v.alloc T n p) := by
  have h0 : extraBytes P T = 0 := by
    unfold extraBytes allocAlignment
    by_cases h1 : T.align > P.simd
    · rw [if_pos h1, if_neg (by omega)]
    · rw [if_neg h1, if_neg (by omega)]
  have hlt : n * T.size < 2 ^ 64 := by
    unfold allocMaxSize at hn
    rw [Nat.le_div_iff_mul_le hT.1] at hn
    omega
  have hreq : allocRequest P T n = n * T.size := by
    unfold allocRequest wrap64
    rw [h0, Nat.add_zero, Nat.mod_eq_of_lt (a := n * T.size) hlt, Nat.mod_eq_of_lt hlt]
  have hq : ∃ h', allocate P T h n (some (p, junk)) = .ok (h', p) := by
    unfold allocate
    rw [if_neg (by omega)]
    simp only
    rw [if_neg (by omega)]
    exact ⟨_, rfl⟩
  obtain ⟨h', hq⟩ := hq
  exact ⟨h', hq, .alloc R hT (by rw [h0]; exact hlt) (by rw [hreq]; exact hnew) hq⟩

/-- No leak: `operator new` has no block left exactly when the program holds no array. -/
theorem C70_no_leak {P : AllocPlatform} (hP : PlatformOK P) {h : Heap} {v : View} (R : Reach P h v) :
    v.live = [] ↔ h.blocks = [] := by
  have := (C70_arrays hP R).2.2.2.2
  rw [← List.length_eq_zero_iff, ← List.length_eq_zero_iff (l := h.blocks), this]

/-- AVX vectors (32 bytes, alignment 32): 2 ^ 59 - 1 objects are not more than `max_size()`, but
with the 32 extra bytes the size wraps around to 0.  `operator new(0)` succeeds, and `allocate` writes the pointer to
memory that was not allocated. -/
theorem C70_overflow_violated :
    ¬ ∀ (P : AllocPlatform) (T : ObjTy) (h : Heap) (n p : Nat) (junk : Nat → BitVec 8), PlatformOK P → T.OK →
      n ≤ allocMaxSize T → NewOK P h (allocRequest P T n) p →
      ∃ h' q, allocate P T h n (some (p, junk)) = .ok (h', q) := by
  intro h
  obtain ⟨h', q, hq⟩ := h ⟨32, 16⟩ ⟨32, 32⟩ ⟨[], fun _ => none⟩ (2 ^ 59 - 1) 16 (fun _ => 0)
    ⟨⟨5, rfl⟩, ⟨4, rfl⟩, by decide⟩ ⟨by decide, 5, rfl⟩ (by decide +kernel)
    ⟨by decide, by decide, by decide +kernel, fun b hb => absurd hb (by simp)⟩
  have : allocate ⟨32, 16⟩ ⟨32, 32⟩ ⟨[], fun _ => none⟩ (2 ^ 59 - 1) (some (16, fun _ => 0)) = .ub := rfl
  rw [this] at hq
  exact absurd hq (by simp)

/-! ### Examples -/

/-- AVX on x86-64. -/
def avxPlatform : AllocPlatform := ⟨32, 16⟩

theorem avxPlatform_ok : PlatformOK avxPlatform := ⟨⟨5, rfl⟩, ⟨4, rfl⟩, by decide⟩

/-- Three objects of 64 bytes in the block at 0x1010 (16 mod 32): the array is at 0x1020. -/
example : ∃ h, Reach avxPlatform h ⟨[(⟨64, 32⟩, 3, 0x1020)], fun _ => none⟩ := by
  obtain ⟨h', q, h1, h2⟩ := (C70_allocate_partial avxPlatform_ok .start (T := ⟨64, 32⟩) ⟨by decide, 5, rfl⟩ 3).2.2
    (by decide) 0x1010 (fun _ => 0) ⟨by decide, by decide, by decide, fun b hb => absurd hb (by simp)⟩
  have hq : q = 0x1020 := by
    have : ∃ h'', allocate avxPlatform ⟨64, 32⟩ ⟨[], fun _ => none⟩ 3 (some (0x1010, fun _ => 0)) = .ok (h'', 0x1020) :=
      ⟨_, rfl⟩
    obtain ⟨h'', h3⟩ := this
    rw [h3] at h1
    injection h1 with h1
    injection h1 with _ h1
    exact h1.symm
  subst hq
  exact ⟨h', h2⟩

end Vc.Prop
