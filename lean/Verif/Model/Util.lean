/-!
# Size arithmetic (Vc/common/utility.h, Vc/common/malloc.h)

`size_t` is modelled by `Nat`; where 64-bit wrap-around can be observed the
reduction modulo `2^64` is written out.
-/

namespace Vc.Model

/-- The step of the template recursion: `(x | (x >> 1) | (x >> 2) | (x >> 5)) + 1`.
Models Vc/common/utility.h:47-51. -/
def nextPow2Step (x : Nat) : Nat := (x ||| (x >>> 1) ||| (x >>> 2) ||| (x >>> 5)) + 1

theorem or_shifts_lt {x k : Nat} (h : x < 2 ^ k) :
    (x ||| (x >>> 1) ||| (x >>> 2) ||| (x >>> 5)) < 2 ^ k := by
  have hs : ∀ s, x >>> s < 2 ^ k := fun s =>
    Nat.lt_of_le_of_lt (by rw [Nat.shiftRight_eq_div_pow]; exact Nat.div_le_self _ _) h
  exact Nat.or_lt_two_pow (Nat.or_lt_two_pow (Nat.or_lt_two_pow h (hs 1)) (hs 2)) (hs 5)

theorem lt_nextPow2Step (x : Nat) : x < nextPow2Step x := by
  unfold nextPow2Step
  have h1 : x ≤ x ||| (x >>> 1) := Nat.left_le_or
  have h2 : x ||| (x >>> 1) ≤ x ||| (x >>> 1) ||| (x >>> 2) := Nat.left_le_or
  have h3 : x ||| (x >>> 1) ||| (x >>> 2) ≤ x ||| (x >>> 1) ||| (x >>> 2) ||| (x >>> 5) :=
    Nat.left_le_or
  omega

/-- If `x & (x-1)` is not zero then `x` is not a power of two. -/
theorem ne_two_pow_of_and {x k : Nat} (h : (x &&& (x - 1)) ≠ 0) : x ≠ 2 ^ k := by
  intro e
  apply h
  rw [e, Nat.and_two_pow_sub_one_eq_mod, Nat.mod_self]

/-- `Common::NextPowerOfTwo<x>::value`. Models Vc/common/utility.h:42-51: the primary
template dispatches on `(x & (x - 1)) == 0`. Simplification: unbounded `Nat` instead of
`size_t`; `C01_nextPow2_no_wrap` shows that for `x ≤ 2^63` no intermediate value wraps. -/
def nextPow2 (x : Nat) : Nat :=
  if (x &&& (x - 1)) = 0 then x else nextPow2 (nextPow2Step x)
termination_by if (x &&& (x - 1)) = 0 then 0 else 2 ^ (x.log2 + 1) - x
decreasing_by
  rename_i h
  have hx : x ≠ 0 := by intro e; subst e; simp at h
  have hlt : x < 2 ^ (x.log2 + 1) := Nat.lt_log2_self
  have h1 : x < nextPow2Step x := lt_nextPow2Step x
  have h2 : nextPow2Step x ≤ 2 ^ (x.log2 + 1) := or_shifts_lt hlt
  rw [if_neg h]
  by_cases hp : (nextPow2Step x &&& (nextPow2Step x - 1)) = 0
  · rw [if_pos hp]; omega
  · rw [if_neg hp]
    have he : nextPow2Step x ≠ 2 ^ (x.log2 + 1) := ne_two_pow_of_and hp
    have h3 : nextPow2Step x < 2 ^ (x.log2 + 1) := Nat.lt_of_le_of_ne h2 he
    have h4 : (nextPow2Step x).log2 = x.log2 := by
      apply Nat.le_antisymm
      · exact Nat.lt_succ_iff.mp ((Nat.log2_lt (by omega)).mpr h3)
      · exact (Nat.le_log2 (by omega)).mpr (Nat.le_trans (Nat.log2_self_le hx) (Nat.le_of_lt h1))
    rw [h4]; omega

/-- `Common::left_size<N>()`. Models Vc/common/utility.h:78-81. -/
def leftSize (n : Nat) : Nat := nextPow2 ((n + 1) / 2)

/-- `Common::right_size<N>()`. Models Vc/common/utility.h:86-89 (the subtraction is on
`size_t`; `C01_split_covers` shows that it does not wrap for `N ≥ 1`). -/
def rightSize (n : Nat) : Nat := n - leftSize n

/-- `Common::BoundedAlignment<A>` with the given mask: 255 (GCC with AVX), 127 (GCC without
AVX), 31 (MSVC). Models Vc/common/utility.h:58-73. -/
def boundedAlignment (mask a : Nat) : Nat := ((a - 1) &&& mask) + 1

/-- Reduction of a mathematical result to a 64-bit `size_t`. -/
def wrap64 (x : Nat) : Nat := x % 2 ^ 64

/-- `nextMultipleOf<X>(value)` on 64-bit `size_t`. Models Vc/common/malloc.h:48-51:
`(value % X) > 0 ? value + X - (value % X) : value`. -/
def nextMultipleOf (x value : Nat) : Nat :=
  if value % x > 0 then wrap64 (value + x - value % x) else value

/-- The request handed to `posix_memalign`: alignment and byte count. -/
structure AllocRequest where
  alignment : Nat
  bytes : Nat
deriving Repr, DecidableEq

/-- `Common::aligned_malloc<alignment>(n)`, POSIX branch. Models Vc/common/malloc.h:53-71:
`posix_memalign(&ptr, alignment < sizeof(void*) ? sizeof(void*) : alignment,
nextMultipleOf<alignment>(n))` on a 64-bit system. -/
def alignedMalloc (alignment n : Nat) : AllocRequest :=
  { alignment := if alignment < 8 then 8 else alignment
    bytes := nextMultipleOf alignment n }

/-- `Vc::MallocAlignment`. Models Vc/global.h:452-470. -/
inductive MallocAlignment
  | onVector | onCacheline | onPage
deriving Repr, DecidableEq

/-- The alignment constant selected by the switch in `Common::malloc<A>`. Models
Vc/common/malloc.h:73-86; `va` is `Vc::VectorAlignment`. -/
def MallocAlignment.bytes (va : Nat) : MallocAlignment → Nat
  | .onVector => va
  | .onCacheline => 64
  | .onPage => 4096

/-- `Vc::malloc<T, A>(n)`: `Common::malloc<A>(n * sizeof(T))`, the product taken in
`size_t`. Models Vc/common/malloc.h:134-138. -/
def vcMalloc (va : Nat) (a : MallocAlignment) (sizeofT n : Nat) : AllocRequest :=
  alignedMalloc (a.bytes va) (wrap64 (n * sizeofT))

/-- `Common::select_best_vector_type<T, N>`: the width of the first candidate not wider
than `N`; the last candidate is taken unconditionally. Models
Vc/common/simdarray.h:58-81. -/
def bestWidth (n : Nat) : List Nat → Nat
  | [] => 1
  | [w] => w
  | w :: w' :: ws => if n < w then bestWidth n (w' :: ws) else w

end Vc.Model
