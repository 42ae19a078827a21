import Verif.Lemma.Util

/-!
# C01, C02, C03: sizes and allocation
-/

namespace Vc.Prop
open Vc.Model Vc.Spec Vc.Lemma

/-! ## C01 -/

/-- `NextPowerOfTwo<x>` is the least power of two not below `x`. -/
theorem C01_nextPow2_least (x : Nat) (hx : 1 ≤ x) : IsLeastPow2 x (nextPow2 x) :=
  nextPow2_isLeast hx

example : nextPow2 21 = 32 := by
  obtain ⟨⟨k, hk⟩, h1, h2⟩ := C01_nextPow2_least 21 (by decide)
  have := h2 32 ⟨5, rfl⟩ (by decide)
  have : nextPow2 21 ≠ 2 ^ 4 := by omega
  rcases Nat.lt_or_ge k 5 with h | h
  · have : 2 ^ k ≤ 2 ^ 4 := Nat.pow_le_pow_right (by decide) (by omega)
    omega
  · have : 2 ^ 5 ≤ 2 ^ k := Nat.pow_le_pow_right (by decide) h
    omega

/-- The template instantiations `NextPowerOfTwo<x>` causes: `y` is instantiated from `x`. -/
inductive Instantiates : Nat → Nat → Prop
  | self (x) : Instantiates x x
  | step {x y} : (x &&& (x - 1)) ≠ 0 → Instantiates (nextPow2Step x) y → Instantiates x y

/-- No template argument in the recursion exceeds `2^63`, so the `size_t` arithmetic of the
C++ code agrees with the `Nat` model, as long as the first argument is at most `2^63`. -/
theorem C01_nextPow2_no_wrap (x y : Nat) (hx : x ≤ 2 ^ 63) (h : Instantiates x y) :
    y ≤ 2 ^ 63 := by
  induction h with
  | self x => exact hx
  | step hn _ ih =>
    exact ih (or_shifts_lt (Nat.lt_of_le_of_ne hx (ne_two_pow_of_and hn)))

example : Instantiates 5 8 :=
  .step (by decide) (.self 8)

/-- Splitting of `SimdArray<T,N>`: for every `N ≥ 2` both halves are nonempty, they cover
exactly `N` lanes, the first is a power of two and the second is not larger. -/
theorem C01_split_covers (n : Nat) (hn : 2 ≤ n) :
    1 ≤ leftSize n ∧ 1 ≤ rightSize n ∧ leftSize n + rightSize n = n ∧
      IsPow2 (leftSize n) ∧ rightSize n ≤ leftSize n :=
  ⟨one_le_leftSize (by omega), one_le_rightSize hn, leftSize_add_rightSize hn,
    isPow2_nextPow2 (by omega), rightSize_le_leftSize n⟩

example : leftSize 11 = 8 ∧ rightSize 11 = 3 := by
  have h := C01_split_covers 11 (by decide)
  obtain ⟨_, _, h3, ⟨k, hk⟩, h5⟩ := h
  rcases Nat.lt_or_ge k 3 with h | h
  · have : 2 ^ k ≤ 2 ^ 2 := Nat.pow_le_pow_right (by decide) (by omega)
    omega
  · rcases Nat.lt_or_ge 3 k with h' | h'
    · have : 2 ^ 4 ≤ 2 ^ k := Nat.pow_le_pow_right (by decide) (by omega)
      omega
    · have : k = 3 := by omega
      subst this
      omega

/-- The first half is as large as possible: the largest power of two strictly below `N`. -/
theorem C01_left_is_largest (n : Nat) (hn : 2 ≤ n) (q : Nat) (hq : IsPow2 q) (hlt : q < n) :
    q ≤ leftSize n := by
  obtain ⟨k, rfl⟩ := hq
  obtain ⟨_, _, h3, ⟨j, hj⟩, h5⟩ := C01_split_covers n hn
  rw [hj]
  rcases Nat.lt_or_ge j k with h | h
  · have : 2 ^ (j + 1) ≤ 2 ^ k := Nat.pow_le_pow_right (by decide) h
    rw [Nat.pow_succ] at this
    omega
  · exact Nat.pow_le_pow_right (by decide) h

example : IsPow2 4 ∧ 4 < 7 := ⟨⟨2, rfl⟩, by decide⟩

/-- `BoundedAlignment` of a power of two is the alignment itself, capped at `mask + 1` (256
with AVX, 128 without, 32 with MSVC). -/
theorem C01_boundedAlignment (a m : Nat) :
    boundedAlignment (2 ^ m - 1) (2 ^ a) = min (2 ^ a) (2 ^ m) := by
  unfold boundedAlignment
  rw [Nat.and_two_pow_sub_one_eq_mod]
  have ha := Nat.two_pow_pos a
  have hm := Nat.two_pow_pos m
  rcases Nat.le_total a m with h | h
  · have : 2 ^ a ≤ 2 ^ m := Nat.pow_le_pow_right (by decide) h
    rw [Nat.mod_eq_of_lt (by omega)]; omega
  · have hd : 2 ^ a = 2 ^ m * 2 ^ (a - m) := by rw [← Nat.pow_add]; congr 1; omega
    have : (2 ^ a - 1) % 2 ^ m = 2 ^ m - 1 := by
      have e : 2 ^ a - 1 = (2 ^ m - 1) + 2 ^ m * (2 ^ (a - m) - 1) := by
        rw [Nat.mul_sub, ← hd]
        have : 2 ^ m ≤ 2 ^ a := Nat.pow_le_pow_right (by decide) h
        omega
      rw [e, Nat.add_mul_mod_self_left, Nat.mod_eq_of_lt (by omega)]
    have : 2 ^ m ≤ 2 ^ a := Nat.pow_le_pow_right (by decide) h
    omega

example : boundedAlignment (2 ^ 8 - 1) (2 ^ 10) = 256 ∧ boundedAlignment 127 64 = 64 := by decide

/-! ## C02 -/

theorem nextMultipleOf_isLeast (g v : Nat) (hg : 0 < g) (hnw : v + g ≤ 2 ^ 64) :
    IsLeastMultiple g v (nextMultipleOf g v) := by
  have hmod := Nat.mod_lt v hg
  have hdm := Nat.div_add_mod v g
  unfold nextMultipleOf
  by_cases h : v % g > 0
  · rw [if_pos h]
    have hw : wrap64 (v + g - v % g) = v + g - v % g := Nat.mod_eq_of_lt (by omega)
    rw [hw]
    have e : v + g - v % g = g * (v / g + 1) := by rw [Nat.mul_add]; omega
    refine ⟨⟨_, e⟩, by omega, ?_⟩
    rintro q ⟨c, rfl⟩ hq
    rw [e]
    apply Nat.mul_le_mul_left
    rcases Nat.lt_or_ge (v / g) c with h' | h'
    · exact h'
    · have := Nat.mul_le_mul_left g h'
      omega
  · rw [if_neg h]
    refine ⟨Nat.dvd_of_mod_eq_zero (by omega), Nat.le_refl _, fun q _ hq => hq⟩

/-- `nextMultipleOf<g>(v)` is the least multiple of `g` not below `v`, whenever `v + g` does
not exceed the range of `size_t`. -/
theorem C02_nextMultipleOf_least (g v : Nat) (hg : 0 < g) (hnw : v + g ≤ 2 ^ 64) :
    IsLeastMultiple g v (nextMultipleOf g v) :=
  nextMultipleOf_isLeast g v hg hnw

example : (0 < 64 ∧ 84 + 64 ≤ 2 ^ 64) ∧ nextMultipleOf 64 84 = 128 := by decide

/-- Without the range hypothesis the rounding wraps to a value smaller than requested. -/
theorem C02_nextMultipleOf_wraps_violated :
    ∃ g v, 0 < g ∧ v < 2 ^ 64 ∧ nextMultipleOf g v < v :=
  ⟨64, 2 ^ 64 - 1, by decide⟩

/-! ## C03 -/

/-- What `Vc::malloc<T,A>(n)` asks for is aligned and big enough, and it is a multiple of the
alignment (so reading a full vector / cache line / page at the end is in bounds), provided the
byte count does not overflow `size_t`. -/
theorem C03_malloc_partial (va : Nat) (hva : IsPow2 va) (a : MallocAlignment) (sizeofT n : Nat)
    (hnw : n * sizeofT + a.bytes va ≤ 2 ^ 64) :
    (vcMalloc va a sizeofT n).bytes ≥ n * sizeofT ∧
      a.bytes va ∣ (vcMalloc va a sizeofT n).bytes ∧
      a.bytes va ∣ (vcMalloc va a sizeofT n).alignment ∧
      IsPow2 (vcMalloc va a sizeofT n).alignment := by
  have hp : IsPow2 (a.bytes va) := by
    cases a
    · exact hva
    · exact ⟨6, rfl⟩
    · exact ⟨12, rfl⟩
  obtain ⟨k, hk⟩ := hp
  have hpos : 0 < a.bytes va := by rw [hk]; exact Nat.two_pow_pos k
  have hw : wrap64 (n * sizeofT) = n * sizeofT := Nat.mod_eq_of_lt (by omega)
  have hm := C02_nextMultipleOf_least (a.bytes va) (n * sizeofT) hpos hnw
  simp only [vcMalloc, alignedMalloc, hw]
  refine ⟨hm.2.1, hm.1, ?_, ?_⟩
  · split
    · rename_i h
      rw [hk] at h ⊢
      exact Nat.pow_dvd_pow (m := k) (n := 3) 2 (by
        rcases Nat.lt_or_ge k 3 with h' | h'
        · omega
        · have : 2 ^ 3 ≤ 2 ^ k := Nat.pow_le_pow_right (by decide) h'
          omega)
    · exact Nat.dvd_refl _
  · split
    · exact ⟨3, rfl⟩
    · exact ⟨k, hk⟩

example : IsPow2 32 ∧ 21 * 4 + MallocAlignment.bytes 32 .onCacheline ≤ 2 ^ 64 ∧
    vcMalloc 32 .onCacheline 4 21 = ⟨64, 128⟩ := ⟨⟨5, rfl⟩, by decide, by decide⟩

/-- The full claim fails: `Vc::malloc<double, AlignOnVector>(2^61 + 1)` requests 16 bytes. -/
theorem C03_malloc_violated :
    ∃ va a sizeofT n, IsPow2 va ∧ n < 2 ^ 64 ∧ (vcMalloc va a sizeofT n).bytes < n * sizeofT :=
  ⟨16, .onVector, 8, 2 ^ 61 + 1, ⟨4, rfl⟩, by decide, by decide⟩

end Vc.Prop
