# Vc formal model: design

The project under study is the C++ SIMD library Vc (`/repo`). Nothing of it is
compiled or run; the model below was written by reading the sources. The model
and the theorems are Lean 4 modules under `lean/Verif/`.

## Approach

* **Native vectors** are modelled twice. At the *lane level* a vector is a list
  of lanes over an arbitrary type. At the *bit level* the SSE emulation code is
  modelled on `BitVec` lanes or on lists of bytes, one definition per intrinsic
  used, following the published instruction semantics.
* **SimdArray / SimdMaskArray** are binary trees whose leaves are native
  vectors, exactly as the class templates store `data0` and `data1`. Each
  member function is modelled by the same recursion the templates perform, with
  the compile-time overload conditions as `if`s on sizes. The specification is
  always a plain list of N lanes.
* **Memory** is a list of cells with an explicit failure outcome (`none`) for
  any access out of bounds. A theorem that claims safety states that the
  outcome is `some`.
* **C++ integers** (`size_t`, `int`, `unsigned`) are `Nat`/`Int` with explicit
  reduction modulo 2^64 or 2^32 when wrap-around matters, `BitVec` where bit
  patterns matter.
* **Undefined behaviour** is a separate outcome, never a default value.
* **Real defects**: where the code does not have the property, a theorem proves
  the negation for a concrete witness (suffix `_violated`), and a theorem with
  suffix `_partial` proves the part that does hold.

## Trusted base

* The Lean 4.33.0 kernel.
* Axioms: at most `propext`, `Classical.choice`, `Quot.sound` (the standard
  axioms of Lean). No axiom is added, no `sorry`, no `native_decide`, no
  `bv_decide`. `decide` / `decide +kernel` is used only on closed finite facts
  (a complete finite table, or a concrete counterexample witness).
* Mathlib (compiled with the same kernel) for the real numbers and the real
  exponential function and logarithm, in the properties about `exp` and the
  like (from C72 on).
* For those properties: every `+ - * /` on floating-point numbers is rounded
  once. Compilers that contract `a * b + c` into a fused operation where FMA
  instructions are available compute something else.
* The transcription of the C++ sources into Lean definitions. Each definition
  names the file and lines it models. The sources are not parsed by a tool.
* The meaning of compiler intrinsics (`_mm_unpacklo_epi16` and so on), which
  follows Intel's published descriptions and is written down once per intrinsic.
* Template metaprogramming (overload resolution, SFINAE) is resolved by hand;
  the model contains the overload that is selected.

## Properties: what is modelled and how it is proved

### C01 SimdArray<T,N> splits into two nonempty halves that cover exactly N lanes

`Verif/Prop/Util.lean` models the template recursion of NextPowerOfTwo on 64-bit size_t and left/right size; spec = least power of two not below x; well-founded induction. The tree shape is `Verif/Prop/SimdArray.lean`.

*Status*: proved. Theorems: `Vc.Prop.C01_nextPow2_least`, `Vc.Prop.C01_nextPow2_no_wrap`, `Vc.Prop.C01_split_covers`, `Vc.Prop.C01_left_is_largest`, `Vc.Prop.C01_boundedAlignment`. For all N; size_t wrap-around excluded only above 2^63 (C01_nextPow2_no_wrap).

### C02 Padded memory sizes are the least multiple that holds the data

`Verif/Prop/Util.lean`; arithmetic on Nat with an explicit 2^64 wrap for the size_t computation.

*Status*: partial. Theorems: `Vc.Prop.C02_memory_padded_least`, `Vc.Prop.C02_nextMultipleOf_least`, `Vc.Prop.C02_nextMultipleOf_wraps_violated`. C02_nextMultipleOf_least holds whenever v + g fits size_t; the unrestricted claim is false (C02_nextMultipleOf_wraps_violated).

### C03 Vc::malloc returns a block that is large enough and aligned

`Verif/Prop/Util.lean`: 64-bit size_t model of the multiplication; proved when n*sizeof(T)+align does not exceed 2^64; a witness shows the request is too small otherwise.

*Status*: partial. Theorems: `Vc.Prop.C03_malloc_partial`, `Vc.Prop.C03_malloc_violated`. Holds when n*sizeof(T)+alignment fits size_t; the unrestricted claim is false (C03_malloc_violated).

### C04 Memory<V,N>: vector access stays inside the allocation and tiles it

`Verif/Model/Memory.lean`, `Verif/Prop/Memory.lean`: storage as a list of entries with explicit out-of-bounds outcome; vector(i) modelled as a slice.

*Status*: partial. Theorems: `Vc.Prop.C04_construct_partial`, `Vc.Prop.C04_width_violated`, `Vc.Prop.C04_vector_read`, `Vc.Prop.C04_tiling`, `Vc.Prop.C04_scalar_is_lane`, `Vc.Prop.C04_vector_write`, `Vc.Prop.C04_vector_bounds`, `Vc.Prop.C04_vectorAt`, `Vc.Prop.C04_vector_shifted`, `Vc.Prop.C04_vector_shifted_write`, `Vc.Prop.C04_aligned`, `Vc.Prop.C04_iteration`. Vector access, tiling, scalar/lane correspondence and alignment hold for every consistent Memory (MemOk); construction establishes MemOk for power-of-two vector sizes and n >= 1. The static assertion also admits sizes such as 12, for which entries are in no vector (C04_width_violated).

### C05 Memory<V>(n) construction zeroes the padding and nothing is written out of bounds

Proved for n>0; for n=0 the model reaches the out-of-bounds outcome (witness theorem).

*Status*: partial. Theorems: `Vc.Prop.C05_construct_partial`, `Vc.Prop.C05_zero_violated`, `Vc.Prop.C05_claim_violated`, `Vc.Prop.C05_fromList_partial`. Proved for n >= 1 and power-of-two vector size; Memory<V>(0) writes out of bounds (C05_zero_violated).

### C06 2-D Memory rows are disjoint, in bounds and independently padded

`Verif/Model/Memory.lean`, `Verif/Prop/Memory.lean`: address function and injectivity.

*Status*: proved. Theorems: `Vc.Prop.C06_cells_disjoint`, `Vc.Prop.C06_in_bounds`, `Vc.Prop.C06_row_vectors`, `Vc.Prop.C06_flat_vectors`. All vector sizes for disjointness and bounds; flat vector numbering for power-of-two sizes.

### C07 Copying a Memory copies every vector exactly once for every vector count

`Verif/Model/Memory.lean`, `Verif/Prop/Memory.lean`: the loop is modelled step by step (index i starting at 3, step 4, i-=3, tail); invariant by induction.

*Status*: proved. Theorems: `Vc.Prop.C07_assign`, `Vc.Prop.C07_assign_self`, `Vc.Prop.C07_copy_construct`, `Vc.Prop.C07_copyVectors`, `Vc.Prop.C07_swap`. 

### C08 Memory comparison operators

`Verif/Model/Memory.lean`, `Verif/Prop/Memory.lean`; the real != is 'all entries differ': negation proved by witness, the other operators proved.

*Status*: partial. Theorems: `Vc.Prop.C08_compare_partial`, `Vc.Prop.C08_compare_stored`, `Vc.Prop.C08_ne_stored`, `Vc.Prop.C08_ne_violated`, `Vc.Prop.C08_lt_violated`, `Vc.Prop.C08_eq_violated`. Proved if the relation holds in the padding. == also compares the padding (C08_eq_violated), != is not the negation of == (C08_ne_violated), < and > also compare the padding (C08_lt_violated).

### C09 Memory compound arithmetic is entry-wise

`Verif/Model/Memory.lean`, `Verif/Prop/Memory.lean`: vector loop refines the entry-wise map.

*Status*: partial. Theorems: `Vc.Prop.C09_op_partial`, `Vc.Prop.C09_op_self_partial`, `Vc.Prop.C09_op_scalar_partial`, `Vc.Prop.C09_op_undefined`, `Vc.Prop.C09_division_violated`. Proved whenever the operation is defined in the padding as well; integer /= by a memory divides padding zeros (C09_division_violated).

### C10 simd_for_each equals std::for_each in order

`Verif/Prop/Algorithms.lean`: loops as fuel-free recursion over positions; induction on length. Pointer `last - Size + 1` computed before the array start is modelled as an Int position.

*Status*: proved. Theorems: `Vc.Prop.C10_for_each_const`, `Vc.Prop.C10_for_each_mut`, `Vc.Prop.C10_equals_std_for_each`. Pointer range; every vector width, length and alignment. The functor may have state and is called as a vector functor and as a scalar functor.

### C11 simd_for_each_n covers exactly n elements

`Verif/Prop/Algorithms.lean`.

*Status*: proved. Theorems: `Vc.Prop.C11_for_each_n_const`, `Vc.Prop.C11_for_each_n_mut`, `Vc.Prop.C11_equals_std_for_each`. Counts up to 2^63 - 1 (difference_type).

### C12 Iterating over where(mask) visits exactly the active lanes, ascending, once each

`Verif/Prop/Iterators.lean`: 64-bit mask, ctz / clear-lowest-bit loop; proved for up to 31 lanes, witness for a 32-lane mask where lanes 32..63 are visited.

*Status*: partial. Theorems: `Vc.Prop.C12_where_partial`, `Vc.Prop.C12_where_32_violated`. Proved for up to 31 lanes and for 32 lanes with lane 31 inactive; with lane 31 of 32 active the loop also visits 32..63 (C12_where_32_violated). For more than 32 lanes toInt() is undefined (C27_toInt_wide).

### C13 Vector iterators: comparison operators

`Verif/Prop/Iterators.lean`: != is not the negation of == across containers (witness), proved inside one container.

*Status*: partial. Theorems: `Vc.Prop.C13_eq`, `Vc.Prop.C13_order`, `Vc.Prop.C13_ne_partial`, `Vc.Prop.C13_ne_violated`, `Vc.Prop.C13_arithmetic`, `Vc.Prop.C13_loop`. Everything for iterators of the same vector; iterators of different vectors are neither == nor != (C13_ne_violated).

### C14 SimdArray lane access, load and store agree with a plain array

`Verif/Prop/SimdArray.lean`: binary tree of native vectors; refinement to List.

*Status*: proved. Theorems: `Vc.Prop.C14_load_get`, `Vc.Prop.C14_load_reads_exactly`, `Vc.Prop.C14_get_bounds`, `Vc.Prop.C14_set_get`, `Vc.Prop.C14_store`, `Vc.Prop.C14_store_load`, `Vc.Prop.C14_generate`, `Vc.Prop.C14_generator`, `Vc.Prop.C14_broadcast`, `Vc.Prop.C14_indexesFromZero`. For every element count and every width configuration (C.Valid). The state of a generator is state that its copies share; for generators that change their own data members see C96.

### C15 SimdArray element-wise operations are lane-wise

`Verif/Prop/SimdArray.lean`: map/zipWith over trees refines map/zipWith on lanes.

*Status*: proved. Theorems: `Vc.Prop.C15_unary`, `Vc.Prop.C15_binary`, `Vc.Prop.C15_width_independent`. Lane functions are arbitrary; the result does not depend on the way the array is split.

### C16 SimdArray reductions equal the scalar fold

`Verif/Prop/SimdArray.lean`: tree reduction with pairwise halves vs. fold.

*Status*: proved. Theorems: `Vc.Prop.C16_reduce`, `Vc.Prop.C16_reduce_masked`. For associative and commutative operations; floating-point addition is outside (not associative).

### C17 partialSum is the inclusive prefix sum

`Verif/Prop/SimdArray.lean`; the SSE doubling algorithm in `Verif/Sse/Lanes.lean`.

*Status*: proved. Theorems: `Vc.Prop.C17_partialSum`. For associative and commutative operations; floating-point addition is outside (not associative).

### C18 reversed() reverses

`Verif/Prop/SimdArrayMove.lean`.

*Status*: proved. Theorems: `Vc.Prop.C18_reversed`. 

### C19 rotated(k) rotates by k modulo N

`Verif/Prop/SimdArrayMove.lean`: full case analysis; result depends on shifted(); where the real code is wrong a witness is proved.

*Status*: proved. Theorems: `Vc.Prop.C19_rotated`. All amounts, including negative and larger than N.

### C20 shifted(k) shifts in zeros

`Verif/Prop/SimdArrayMove.lean`: proved for equal halves all the way down and for all k>=0 where defined; witness of a wrong lane for unequal halves and k<0.

*Status*: partial. Theorems: `Vc.Prop.C20_shifted_pow2_partial`, `Vc.Prop.C20_shifted_partial`, `Vc.Prop.C20_shifted_violated`. Proved for power-of-two N (all amounts) and for every N whenever the amount satisfies ShiftOk; the unrestricted claim is false (C20_shifted_violated: N = 6, amount -1).

### C21 shifted(k, y) shifts in the lanes of y

`Verif/Prop/SimdArrayMove.lean`.

*Status*: partial. Theorems: `Vc.Prop.C21_shiftedIn_partial`, `Vc.Prop.C21_shiftedIn_all_partial`, `Vc.Prop.C21_shiftedIn_other_partial`, `Vc.Prop.C21_shiftedIn_violated`. Proved for |k| <= N for every N, and beyond that except for a single native vector with k > N and for Scalar leaves with k <= -2N, where the claim is false (C21_shiftedIn_violated). Second operand with a different element count: C21_shiftedIn_other_partial.

### C22 interleaveLow/High give the two halves of the zipped sequence

`Verif/Prop/SimdArrayMove.lean`.

*Status*: proved. Theorems: `Vc.Prop.C22_interleave`. 

### C23 sorted() returns the ascending permutation

`Verif/Lemma/SimdArraySort.lean`: bitonic split lemma by induction, for any linear order with top.

*Status*: proved. Theorems: `Vc.Prop.C23_sorted`. For total orders. Signed zeros and NaN of floating-point types are outside (min/max are then not a linear order).

### C24 SimdArray gather and scatter

`Verif/Prop/Gather.lean`.

*Status*: partial. Theorems: `Vc.Prop.C24_gather_partial`, `Vc.Prop.C24_gather_reads`, `Vc.Prop.C24_gather_masked_partial`, `Vc.Prop.C24_gather_masked_reads`, `Vc.Prop.C24_scatter_masked_partial`, `Vc.Prop.C24_scatter_masked_writes`, `Vc.Prop.C24_scatter_partial`, `Vc.Prop.C24_longer_index_violated`. Proved for index vectors with as many entries as the array and for pointers to indexes: values, reads/writes of active lanes only, later lane wins. The interface also admits longer index vectors; for these the claim is false (C24_longer_index_violated).

### C25 Masked assignment changes exactly the active lanes

`Verif/Prop/SimdArray.lean`.

*Status*: partial. Theorems: `Vc.Prop.C25_assign`, `Vc.Prop.C25_iif`, `Vc.Prop.C25_apply`, `Vc.Prop.C25_op_partial`, `Vc.Prop.C25_op_inactive_violated`, `Vc.Prop.C25_increment_partial`, `Vc.Prop.C25_increment_violated`. Plain assignment, iif and apply: all cases. Compound assignment: proved if the operation is defined in all lanes; a zero divisor in an inactive lane is undefined behaviour (C25_op_inactive_violated). Masked ++/--: proved if x + 0 = x; for floating point an inactive -0.0 becomes 0.0 (C25_increment_violated).

### C26 simd_cast between SimdArray shapes preserves lanes

`Verif/Prop/SimdCast.lean`.

*Status*: partial. Theorems: `Vc.Prop.C26_cast`, `Vc.Prop.C26_cast_native`, `Vc.Prop.C26_cast_offset_partial`, `Vc.Prop.C26_cast_offset_native`, `Vc.Prop.C26_cast_offset_violated`. Casts without offset: all sizes. With offset: power-of-two source or target, or no wrong shift needed; otherwise false (C26_cast_offset_violated).

### C27 SimdMaskArray queries

`Verif/Prop/SimdMask.lean`.

*Status*: proved. Theorems: `Vc.Prop.C27_index`, `Vc.Prop.C27_set`, `Vc.Prop.C27_is`, `Vc.Prop.C27_count`, `Vc.Prop.C27_firstOne`, `Vc.Prop.C27_toInt`, `Vc.Prop.C27_toInt_wide`, `Vc.Prop.C27_compare`, `Vc.Prop.C27_shifted`. toInt for N <= 32; for larger N it is undefined (C27_toInt_wide).

### C28 All masked gather strategies agree

`Verif/Prop/GatherScatter.lean`: each loop modelled with explicit bad-address outcome.

*Status*: proved. Theorems: `Vc.Prop.C28_gather`, `Vc.Prop.C28_gather_reads`, `Vc.Prop.C28_zeroed_reads_first`, `Vc.Prop.C28_strategies_agree`. All strategies, vector sizes 2, 4, 8, 16, all masks, indexes and memories.

### C29 All masked scatter strategies agree for distinct indexes

`Verif/Prop/GatherScatter.lean`; the zeroed-index scatter never writes (witness).

*Status*: partial. Theorems: `Vc.Prop.C29_scatter_partial`, `Vc.Prop.C29_scatter_writes`, `Vc.Prop.C29_zeroed_violated`, `Vc.Prop.C29_zeroed_witness_violated`. All strategies but the zeroed-index one, which reads memory instead of writing to it (C29_zeroed_violated, C29_zeroed_witness_violated).

### C30 Duplicate scatter indexes: the highest lane wins

Proved for the simple loop; witness that the bit-scan strategy disagrees.

*Status*: partial. Theorems: `Vc.Prop.C30_simpleLoop_partial`, `Vc.Prop.C30_unmasked`, `Vc.Prop.C30_lowest_bit_loop`, `Vc.Prop.C30_some_lane_partial`, `Vc.Prop.C30_bitScanLoop_violated`, `Vc.Prop.C30_popcntSwitch_violated`. Highest lane wins for the simple loop (default), the lowest-bit loop and the unmasked scatter; false for the bit-scan loop and the popcount switch (C30_bitScanLoop_violated, C30_popcntSwitch_violated), which store one of the lanes (C30_some_lane_partial).

### C31 Native sorted() sorting networks sort every input

`Model/SortNet.lean`: all instruction sequences on registers, including the early exits of the AVX2 int sort. `Lemma/SortNet*.lean`: each result lane is an expression of minima and maxima of the input lanes (`Rep`), derived instruction by instruction; 0-1 principle proved once, the Boolean network compared with the threshold functions by truth tables over all 2^n Boolean inputs (kernel computation), lifted to all integers; permutation from the counts above every threshold.

*Status*: proved. Theorems: `Vc.Prop.C31_sse_short`, `Vc.Prop.C31_sse_int`, `Vc.Prop.C31_avx_short`, `Vc.Prop.C31_avx_int`, `Vc.Prop.C31_sse_float`, `Vc.Prop.C31_sse_double`, `Vc.Prop.C31_avx_float`, `Vc.Prop.C31_avx_double`, `Vc.Prop.C31_zero_nan`. All twelve networks, all inputs. C31_zero_nan shows the limits for signed zeros and NaN.

### C32 Interleaved memory access: gather/scatter of structs round-trips and has the right frame

`Model/Interleave.lean` (every `interleave`/`deinterleave` overload of Scalar, SSE, AVX, index vectors and SuccessiveEntries), `Spec/Interleave.lean`, `Lemma/Interleave{,W,R,P}.lean`, `Prop/Interleave.lean`.

*Status*: proved. Theorems: `Vc.Prop.C32_write`, `Vc.Prop.C32_write_fault`, `Vc.Prop.C32_write_successive`, `Vc.Prop.C32_write_successive_fault`, `Vc.Prop.C32_read`, `Vc.Prop.C32_read_successive`, `Vc.Prop.C32_write_read`, `Vc.Prop.C32_write_read_successive`, `Vc.Prop.C32_read_write`, `Vc.Prop.C32_read_write_successive`. All vector types, 2 to 8 members, index vectors and wrapper[first]; the values of reads are stated for reads that do not fault (C33 says which do).

### C33 Interleaved reads stay inside the addressed structs

`Prop/Interleave.lean`: exact number of entries accessed per struct (`C33_accessed_entries`); inside the structs where that number is at most the struct size; fault theorem for the last struct of an array otherwise (3 and 7 members of 32-bit, 3, 5, 6, 7 members of 16-bit entries).

*Status*: partial. Theorems: `Vc.Prop.C33_accessed_entries`, `Vc.Prop.C33_accessed_entries_successive`, `Vc.Prop.C33_inside_structs_partial`, `Vc.Prop.C33_inside_structs_successive_partial`, `Vc.Prop.C33_inside_array_partial`, `Vc.Prop.C33_last_struct_violated`, `Vc.Prop.C33_last_struct_successive_violated`. Exact characterisation of the accessed entries. The claim holds if that number is at most the struct size; otherwise a read that addresses the last struct of an array accesses memory behind the array (violated theorems).

### C34 Unsigned comparison and min/max on signed hardware instructions

`Model/Reg.lean` (registers as BitVec, intrinsics by lanes), `Model/SseInt.lean`, `Prop/SseInt.lean`; for every combination of instruction set extensions. AVX: `Model/AvxInt.lean`, `Prop/AvxInt.lean`.

*Status*: proved. Theorems: `Vc.Prop.C34_avx_eq`, `Vc.Prop.C34_avx_ne`, `Vc.Prop.C34_avx_gt`, `Vc.Prop.C34_avx_lt`, `Vc.Prop.C34_avx_ge`, `Vc.Prop.C34_avx_le`, `Vc.Prop.C34_avx_min`, `Vc.Prop.C34_avx_max`, `Vc.Prop.C34_eq`, `Vc.Prop.C34_ne`, `Vc.Prop.C34_gt`, `Vc.Prop.C34_lt`, `Vc.Prop.C34_ge`, `Vc.Prop.C34_le`, `Vc.Prop.C34_max`, `Vc.Prop.C34_min`, `Vc.Prop.C34_minmax8`, `Vc.Prop.C34_cmp64`. short, ushort, int, uint vectors of SSE, every instruction set; plus the 8 bit minimum/maximum and 64 bit comparison helpers. The same vectors of AVX, with and without AVX2 and XOP.

### C35 32-bit vector multiplication without SSE4.1 is exact modulo 2^32

`Model/SseInt.lean`, `Prop/SseInt.lean`, for AVX (also sums and differences) `Prop/AvxInt.lean`.

*Status*: proved. Theorems: `Vc.Prop.C35_avx_mul`, `Vc.Prop.C35_avx_add_sub`, `Vc.Prop.C35_mul`, `Vc.Prop.C35_mul_unsigned`, `Vc.Prop.C35_mul_signed_fits`. 

### C36 Mask conversions: toInt, count, load/store of bool arrays, casts between lane widths

`Model/SseMask.lean`, `Spec/Mask.lean` (a register represents a function from lanes to Bool), `Prop/SseMask.lean`; SSE masks of 8, 16, 32 and 64 bit lanes.

*Status*: proved. Theorems: `Vc.Prop.C36_toInt`, `Vc.Prop.C36_count`, `Vc.Prop.C36_generate`, `Vc.Prop.C36_store`, `Vc.Prop.C36_load`, `Vc.Prop.C36_store_load`, `Vc.Prop.C36_equal`, `Vc.Prop.C36_queries`, `Vc.Prop.C36_subscript`, `Vc.Prop.C36_firstOne`, `Vc.Prop.C36_logic`, `Vc.Prop.C36_shifted`, `Vc.Prop.C36_cast`, `Vc.Prop.C36_cast_join`, `Vc.Prop.C36_cast_offset`. SSE masks; for every combination of instruction set extensions.

### C37 Blend and permute helpers select the lanes their template arguments name

`Model/SseShuffle.lean`, `Spec/LaneMove.lean`, `Prop/SseShuffle.lean`; witness for the double permutation immediate. For AVX `Model/AvxShuffle.lean`, `Prop/AvxShuffle.lean`.

*Status*: partial. Theorems: `Vc.Prop.C37_avx_permute`, `Vc.Prop.C37_avx_permute_epi16`, `Vc.Prop.C37_avx_permute4x64`, `Vc.Prop.C37_avx_permute128`, `Vc.Prop.C37_avx_shuffle128`, `Vc.Prop.C37_avx_shuffle`, `Vc.Prop.C37_avx_blend`, `Vc.Prop.C37_blend_pd`, `Vc.Prop.C37_blend_ps`, `Vc.Prop.C37_blend_epi16`, `Vc.Prop.C37_shuffle`, `Vc.Prop.C37_shuffle_pd`, `Vc.Prop.C37_blend_pos`, `Vc.Prop.C37_permute`, `Vc.Prop.C37_permute_epi16`, `Vc.Prop.C37_permute_pd_partial`, `Vc.Prop.C37_permute_pd_violated`. All blend emulations, shuffles and permutations: proved, except Mem::permute of a double register with second destination X1, whose immediate is wrong (C37_permute_pd_violated). The AVX helpers: proved (C37_avx_*); the eight-position permute and the 16-selector blend of avx/shuffle.h are not used and not modelled.

### C38 Native shifted/rotated/reversed move lanes correctly

`Model/SseShuffle.lean`, `Spec/LaneMove.lean`, `Prop/SseShuffle.lean`: byte-level alignr model; witness for wrap-around at k >= 2*Size. Also interleaveLow/High, broadcast, permutation subscript and the 4x4 transpose. For AVX `Model/AvxShuffle.lean`, `Lemma/AvxShuffle.lean`, `Prop/AvxShuffle.lean`; the undefined upper half that `zeroExtend` leaves with GCC is a parameter.

*Status*: partial. Theorems: `Vc.Prop.C38_avx_shifted_partial`, `Vc.Prop.C38_avx_shifted_violated`, `Vc.Prop.C38_avx_shiftedIn_partial`, `Vc.Prop.C38_avx_shiftedIn_violated`, `Vc.Prop.C38_avx_rotated`, `Vc.Prop.C38_avx_interleave`, `Vc.Prop.C38_avx_reversed`, `Vc.Prop.C38_avx_broadcast`, `Vc.Prop.C38_avx_permuted_violated`, `Vc.Prop.C38_shifted`, `Vc.Prop.C38_shiftedIn_partial`, `Vc.Prop.C38_shiftedIn_violated`, `Vc.Prop.C38_rotated`, `Vc.Prop.C38_reversed`, `Vc.Prop.C38_interleave`, `Vc.Prop.C38_broadcast_partial`, `Vc.Prop.C38_broadcast_violated`, `Vc.Prop.C38_permuted_partial`, `Vc.Prop.C38_permuted_violated`, `Vc.Prop.C38_transpose`. shifted(k), rotated, reversed, interleaveLow/High, transpose: proved for all amounts. Violated: shifted(k,y) for 2*Size <= k <= 15, double_v broadcast<1>, float_v permutation subscript without AVX. AVX: rotated, reversed, interleaveLow/High, float broadcast proved; shifted(k) and shifted(k,y) proved for all k except the upper half of the lanes that zeroExtend leaves undefined with GCC (witnesses); the float_v permutation subscript ignores its argument (witness).

### C39 Integer vector division and remainder equal the scalar operations

`Spec/Float.lean`, `Model/Float.lean`, `Model/SseDiv.lean`, `Prop/SseDiv.lean`, for AVX2 `Model/AvxDiv.lean`, `Lemma/FloatDiv.lean` (any format), `Lemma/AvxDiv.lean`, `Prop/AvxDiv.lean`: single-precision quotient as correctly rounded rational; proof that truncation is exact for 16-bit operands; witness for -32768/-1; division and remainder of int and uint.

*Status*: partial. Theorems: `Vc.Prop.C39_avx_div`, `Vc.Prop.C39_avx_mod`, `Vc.Prop.C39_div_ushort`, `Vc.Prop.C39_mod_ushort`, `Vc.Prop.C39_div_short_partial`, `Vc.Prop.C39_mod_short_partial`, `Vc.Prop.C39_short_min_by_minus_one`, `Vc.Prop.C39_div_short_violated`, `Vc.Prop.C39_mod_short_violated`, `Vc.Prop.C39_div32`. ushort / and %, int and uint / and %: proved. short / and %: proved but for -32768 / -1, which gives 32767 and remainder -1 (C39_*_violated). AVX2: all four types proved without exception.

### C40 Population count and bit-scan helpers

`Verif/Prop/Bits.lean`.

*Status*: proved. Theorems: `Vc.Prop.C40_popcnt4`, `Vc.Prop.C40_popcnt8`, `Vc.Prop.C40_popcnt16`, `Vc.Prop.C40_popcnt32`, `Vc.Prop.C40_no_overflow`, `Vc.Prop.C40_bit_scan`. 

### C41 Masked reductions of native vectors

`Model/SseReduce.lean`, `Model/Float.lean`, `Prop/SseReduce.lean`: unmasked and masked reductions of the six SSE vector types, for AVX `Model/AvxInt.lean`, `Lemma/AvxReduce.lean`, `Prop/AvxReduce.lean`; witnesses for floating-point min/max(mask) when the start value is not neutral.

*Status*: partial. Theorems: `Vc.Prop.C41_avx_sum`, `Vc.Prop.C41_avx_product`, `Vc.Prop.C41_avx_sum_masked`, `Vc.Prop.C41_avx_product_masked`, `Vc.Prop.C41_avx_minmax`, `Vc.Prop.C41_avx_minmax_masked`, `Vc.Prop.C41_avx_float_minmax`, `Vc.Prop.C41_avx_float_minmax_masked_partial`, `Vc.Prop.C41_avx_double_minmax_masked_partial`, `Vc.Prop.C41_avx_float_max_masked_violated`, `Vc.Prop.C41_avx_float_min_masked_violated`, `Vc.Prop.C41_avx_partialSum`, `Vc.Prop.C41_sum`, `Vc.Prop.C41_sum_masked`, `Vc.Prop.C41_product_partial`, `Vc.Prop.C41_product_defined_partial`, `Vc.Prop.C41_product_violated`, `Vc.Prop.C41_product_masked_partial`, `Vc.Prop.C41_minmax`, `Vc.Prop.C41_minmax_masked`, `Vc.Prop.C41_float_minmax`, `Vc.Prop.C41_float_min_masked_partial`, `Vc.Prop.C41_float_max_masked_partial`, `Vc.Prop.C41_double_minmax_masked_partial`, `Vc.Prop.C41_float_min_masked_violated`, `Vc.Prop.C41_float_max_masked_violated`, `Vc.Prop.C41_partialSum`. Sums, minima, maxima, masked and unmasked, of the integer vectors and the unmasked floating-point minima/maxima: proved. Violated: floating-point min(mask)/max(mask), whose start values come from the unspecialised numeric_limits (0) or numeric_limits::min; integer product without SSE4.1 multiplies in int (overflow undefined). partialSum of the integer vectors: proved. AVX vectors: the same, products included (their product always uses the vector multiplication). How the rounding errors of floating-point sums and products add up is the subject of C86.

### C42 Reported best implementation is supported

`Verif/Model/Cpuid.lean`, `Verif/Prop/Cpuid.lean`.

*Status*: proved. Theorems: `Vc.Prop.C42_best_supported`, `Vc.Prop.C42_best_maximal`, `Vc.Prop.C42_above_best`, `Vc.Prop.C42_feature_bits`. For every CPUID/XCR0 content; C42_feature_bits ties the answers to the bits.

### C43 CPU family and model are decoded per the CPUID specification

`Verif/Model/Cpuid.lean`, `Verif/Spec/Cpuid.lean`, `Verif/Prop/Cpuid.lean`; the family extension is shifted by 16 instead of 20: witness; model proved.

*Status*: partial. Theorems: `Vc.Prop.C43_model_partial`, `Vc.Prop.C43_family_partial`, `Vc.Prop.C43_init_partial`, `Vc.Prop.C43_family_violated`, `Vc.Prop.C43_family_wrong_violated`, `Vc.Prop.C43_model_violated`. Family proved for extended family 0, model unless base family is 11 with non-zero extended model. The extended family is shifted by 16 instead of 20 (C43_family_violated, C43_family_wrong_violated).

### C44 AMD cache associativity comes from the matching register

`Verif/Model/Cpuid.lean`, `Verif/Spec/Cpuid.lean`, `Verif/Prop/Cpuid.lean`; L3 uses ECX: witness, L2 proved.

*Status*: partial. Theorems: `Vc.Prop.C44_table`, `Vc.Prop.C44_L2`, `Vc.Prop.C44_L1`, `Vc.Prop.C44_L3_size`, `Vc.Prop.C44_L3_partial`, `Vc.Prop.C44_L3_violated`, `Vc.Prop.C44_L3_witness_violated`. L2 proved. The L3 associativity is decoded from ECX instead of EDX (C44_L3_violated, C44_L3_witness_violated).

### C45 Random() values lie in [0,1)

`Verif/Model/Random.lean`, `Verif/Spec/Float.lean`, `Verif/Prop/Random.lean`: bit patterns decoded into exact dyadic rationals.

*Status*: proved. Theorems: `Vc.Prop.C45_float`, `Vc.Prop.C45_double`, `Vc.Prop.C45_scalar`, `Vc.Prop.C45_value`, `Vc.Prop.C45_state_sse`, `Vc.Prop.C45_state_avx2`, `Vc.Prop.C45_avx_same_as_avx2`, `Vc.Prop.C45_state_scalar`, `Vc.Prop.C45_bounds`, `Vc.Prop.C45_call`, `Vc.Prop.C45_run`. SSE, AVX, AVX2 and Scalar; every state and every history of calls; also the exact update of the state.

### C46 Floating-point bit operations

`Verif/Model/FloatOps.lean`, `Verif/Spec/Float.lean`, `Verif/Prop/FloatBits.lean`.

*Status*: proved. Theorems: `Vc.Prop.C46_abs`, `Vc.Prop.C46_copysign`, `Vc.Prop.C46_negate`, `Vc.Prop.C46_negate_negate`, `Vc.Prop.C46_isnegative_float`, `Vc.Prop.C46_isnegative_double`, `Vc.Prop.C46_isnan`, `Vc.Prop.C46_isfinite`, `Vc.Prop.C46_isinf`, `Vc.Prop.C46_isinf_sse_double`, `Vc.Prop.C46_scalar_copysign`, `Vc.Prop.C46_scalar_isnegative`. SSE and AVX vectors, scalar copysign and isnegative, every bit pattern.

### C47 Index scaling of interleaved memory access

`Model/Interleave.lean`, `Model/Subscript.lean`, `Prop/Subscript.lean`; the uniqueness check on the SimdArray model with C23 and C19.

*Status*: proved. Theorems: `Vc.Prop.C47_interleaved_scaling`, `Vc.Prop.C47_successive_scaling`, `Vc.Prop.C47_unique_check`. Shift and multiplication paths, successive entries, and the uniqueness check for SimdArray indexes of every size.

### C48 simdize: scattering objects into lanes and extracting them round-trips

`Verif/Model/Simdize.lean`, `Verif/Lemma/Simdize.lean`, `Verif/Prop/Simdize.lean`; members are SimdArray / SimdMaskArray trees, so that C14 and C27 give the member level.

*Status*: proved. Theorems: `Vc.Prop.C48_assign_extract`, `Vc.Prop.C48_extract_exists`, `Vc.Prop.C48_swap`, `Vc.Prop.C48_swap_lanes`, `Vc.Prop.C48_broadcast`, `Vc.Prop.C48_generator`, `Vc.Prop.C48_load`, `Vc.Prop.C48_store`, `Vc.Prop.C48_load_homogeneous`, `Vc.Prop.C48_store_homogeneous`, `Vc.Prop.C48_shifted_members`, `Vc.Prop.C48_shifted`, `Vc.Prop.C48_where`, `Vc.Prop.C48_where_op`. Over-reads of the homogeneous load are C33. Not covered because they do not compile: operator[] of nested adapters, conditional assignment of mask members, Interface::load/store.

### C49 Memory: filling and copying from raw memory

`Verif/Model/Memory.lean`, `Verif/Prop/Memory.lean`.

*Status*: proved. Theorems: `Vc.Prop.C49_fill`, `Vc.Prop.C49_copy_in`. 

### C50 Supported extra instructions

`Verif/Model/Cpuid.lean`, `Verif/Prop/Cpuid.lean`.

*Status*: proved. Theorems: `Vc.Prop.C50_current_supported`, `Vc.Prop.C50_feature_bits`. 

### C51 Intel cache parameters

`Verif/Model/Cpuid.lean`, `Verif/Prop/Cpuid.lean`.

*Status*: proved. Theorems: `Vc.Prop.C51_leaf4`, `Vc.Prop.C51_L2`. Sizes of 2^31 bytes and more overflow int (undefined behaviour) and are excluded.

### C52 Integer conversions between native vectors

`Verif/Model/SseInt.lean`, `Verif/Prop/SseInt.lean`; AVX: `Verif/Model/AvxCast.lean`, `Verif/Prop/AvxCast.lean` with the conversion specified in `Verif/Spec/IntCast.lean`.

*Status*: partial. Theorems: `Vc.Prop.C52_avx_cast`, `Vc.Prop.C52_avx_cast2`, `Vc.Prop.C52_avx_fromSse`, `Vc.Prop.C52_avx_fromSse2`, `Vc.Prop.C52_avx_fromSse34`, `Vc.Prop.C52_avx_toSse`, `Vc.Prop.C52_sse_cast`, `Vc.Prop.C52_avx_offset_move`, `Vc.Prop.C52_avx_offset_move_sse`, `Vc.Prop.C52_avx_offset`, `Vc.Prop.C52_avx_offset_sse`, `Vc.Prop.C52_avx_narrow`, `Vc.Prop.C52_avx_widen`, `Vc.Prop.C52_widen`, `Vc.Prop.C52_cvt`, `Vc.Prop.C52_simdCast_narrow`, `Vc.Prop.C52_simdCast_offset`, `Vc.Prop.C52_narrow_ushort`, `Vc.Prop.C52_narrow_short_partial`, `Vc.Prop.C52_narrow_short_violated`. simd_cast (one, two arguments, offset), implicit conversions and the extension helpers: proved. The deprecated explicit conversion int_v/uint_v to short_v saturates instead (C52_narrow_short_violated). AVX2 and AVX2/SSE casts from 1 to 4 vectors and with offset (C52_avx_*): proved; entries without source are zero unless the compiler leaves the upper half of zeroExtend undefined.

### C53 Negation and absolute value of integer vectors

`Verif/Model/SseInt.lean`, `Verif/Prop/SseInt.lean`; AVX: `Verif/Model/AvxInt.lean`, `Verif/Prop/AvxInt.lean`.

*Status*: proved. Theorems: `Vc.Prop.C53_avx_negate`, `Vc.Prop.C53_avx_abs`, `Vc.Prop.C53_negate`, `Vc.Prop.C53_abs`. 

### C54 Floating-point comparisons, minimum and maximum

`Verif/Model/FloatOps.lean`, `Verif/Spec/Float.lean`, `Verif/Prop/FloatBits.lean`.

*Status*: partial. Theorems: `Vc.Prop.C54_eq_ne`, `Vc.Prop.C54_lt_le`, `Vc.Prop.C54_gt_ge_partial`, `Vc.Prop.C54_ge_gt_violated`, `Vc.Prop.C54_min_max`. >= (SSE and AVX compiled with intrinsics) and > (AVX with intrinsics) are implemented by the negated predicates and are true with NaN (C54_ge_gt_violated); without NaN, and all other operators, proved.

### C56 trunc, floor, ceil and round

`Verif/Model/FloatRound.lean`, `Verif/Spec/FloatInt.lean`, `Verif/Prop/FloatRound.lean`.

*Status*: partial. Theorems: `Vc.Prop.C56_instruction`, `Vc.Prop.C56_scalar`, `Vc.Prop.C56_float`, `Vc.Prop.C56_sign_violated`, `Vc.Prop.C56_double_partial`, `Vc.Prop.C56_double_sign`, `Vc.Prop.C56_double_violated`, `Vc.Prop.C56_round_partial`, `Vc.Prop.C56_round_violated`, `Vc.Prop.C56_scalar_round_partial`, `Vc.Prop.C56_scalar_round_violated`. trunc, floor, ceil: proved for float (all instruction sets), and for double except numbers of 2^52 and more without SSE4.1, where trunc(2^52+1) = 2^52 (C56_double_violated). The sign of a zero result is lost by float trunc without SSE4.1 (C56_sign_violated). round: proved with SSE4.1/AVX and for results that fit int without (C56_round_violated); scalar round: proved if no operation rounds, false for 0.49999997f and 8388609.f (C56_scalar_round_violated).

### C59 Subscript expressions with index vectors address the named objects

`Model/Subscript.lean`, `Spec/Subscript.lean` (addresses by C++ rules), `Lemma/Subscript.lean` (invariant over the steps), `Prop/Subscript.lean`; witnesses for rounded quotients and for unsigned indexes with AVX2.

*Status*: partial. Theorems: `Vc.Prop.C59_gather_address_partial`, `Vc.Prop.C59_scatter_address_partial`, `Vc.Prop.C59_defined`, `Vc.Prop.C59_nested_size_violated`, `Vc.Prop.C59_scale_violated`, `Vc.Prop.C59_unsigned_index_violated`. Holds if the element size divides the distance of nested arrays and offsets fit the index type; violated by the unchecked quotient in applyScaleAndAdd, for unsigned indexes from 2^31 on with AVX2 gather instructions, and for strides that are not 1, 2, 4 or 8 bytes with them (does not compile).

### C61 simdize<T>: types with consistent number of lanes

`Verif/Spec/Simdize.lean`, `Verif/Model/SimdizeType.lean` (the metaprogram as a function on type terms), `Verif/Prop/SimdizeType.lean` (mutual induction).

*Status*: partial. Theorems: `Vc.Prop.C61_same_width`, `Vc.Prop.C61_first_width`, `Vc.Prop.C61_defined_partial`, `Vc.Prop.C61_defined_flat_partial`, `Vc.Prop.C61_nested_bool_violated`. Same width and round trip: proved for all types; without N the width is that of the first vectorizable type (C61_first_width; types with a static member Size of their own excepted). Definedness: proved if N or the mask type is given, or without nested class templates; simdize<tuple<tuple<t>,bool>> does not compile (C61_nested_bool_violated).

### C62 Simdized iterators traverse the sequence in vectors

`Verif/Model/SimdizeIter.lean`, `Verif/Prop/SimdizeIter.lean`.

*Status*: partial. Theorems: `Vc.Prop.C62_dereference`, `Vc.Prop.C62_dereference_vector`, `Vc.Prop.C62_dereference_contiguous`, `Vc.Prop.C62_write_back`, `Vc.Prop.C62_arithmetic`, `Vc.Prop.C62_compare`, `Vc.Prop.C62_le_partial`, `Vc.Prop.C62_le_violated`, `Vc.Prop.C62_trichotomy`, `Vc.Prop.C62_loop`, `Vc.Prop.C62_loop_less`, `Vc.Prop.C62_reference_assign`, `Vc.Prop.C62_subscript_assign_violated`, `Vc.Prop.C62_reference_follows_violated`. Violated: it <= it is false with more than one lane (C62_le_violated); it[i] = x uses a reference to a destroyed temporary iterator (C62_subscript_assign_violated); a reference follows the iterator it was obtained from (C62_reference_follows_violated).

### C57 frexp, ldexp and exponent

`Verif/Model/FloatExp.lean`, `Verif/Model/Avx.lean`, `Verif/Spec/FloatExp.lean`, `Verif/Lemma/FloatExp*.lean` (each platform lane equals a common function, which meets the specification), `Verif/Prop/FloatExp.lean`.

*Status*: partial. Theorems: `Vc.Prop.C57_frexp_sse_float_partial`, `Vc.Prop.C57_frexp_sse_double_partial`, `Vc.Prop.C57_frexp_avx_float_partial`, `Vc.Prop.C57_frexp_avx_double_partial`, `Vc.Prop.C57_frexp_avx2_double8_partial`, `Vc.Prop.C57_frexp_denormal_violated`, `Vc.Prop.C57_ldexp_sse_float_partial`, `Vc.Prop.C57_ldexp_sse_double_partial`, `Vc.Prop.C57_ldexp_avx_float_partial`, `Vc.Prop.C57_ldexp_avx_double_partial`, `Vc.Prop.C57_ldexp_violated`, `Vc.Prop.C57_roundtrip`, `Vc.Prop.C57_roundtrip_inf_violated`, `Vc.Prop.C57_exponent_float_partial`, `Vc.Prop.C57_exponent_double_partial`, `Vc.Prop.C57_exponent_denormal_violated`. frexp: proved for everything but denormal numbers, wrong for every denormal number (C57_frexp_denormal_violated). ldexp: proved where argument and result are normal or zero; violated for infinities, overflow, gradual underflow. ldexp(frexp(x)) == x: proved for all finite x. exponent: proved for positive normal numbers, violated for denormal ones. The scalar frexp/ldexp call the C library.

### C55 Conversions between floating-point and integer vectors, and between float and double

`Verif/Model/FloatCvt.lean`, `Verif/Spec/FloatCvt.lean` (nearest number by distance over all bit patterns), `Verif/Lemma/FloatNearest.lean` (the rounding of the model is the nearest number), `Verif/Lemma/FloatCvt*.lean`, `Verif/Prop/FloatCvt.lean`.

*Status*: partial. Theorems: `Vc.Prop.C55_offset_sse`, `Vc.Prop.C55_offset_avx`, `Vc.Prop.C55_offset_avx_sse`, `Vc.Prop.C55_offset_sse_avx`, `Vc.Prop.C55_float_int`, `Vc.Prop.C55_double_int`, `Vc.Prop.C55_float_uint`, `Vc.Prop.C55_double_uint_avx`, `Vc.Prop.C55_double_uint_sse_partial`, `Vc.Prop.C55_double_uint2_sse_partial`, `Vc.Prop.C55_double_uint_sse_violated`, `Vc.Prop.C55_short_sse`, `Vc.Prop.C55_short_avx`, `Vc.Prop.C55_short_avx2`, `Vc.Prop.C55_from_int`, `Vc.Prop.C55_from_uint`, `Vc.Prop.C55_from_short`, `Vc.Prop.C55_double_float`, `Vc.Prop.C55_float_double`. Proved for all conversions but one: double_v to uint_v compiled for SSE2/SSE3 takes the decision of lane 0 for lane 1 ({1, 3e9} becomes {1, 2147483648}, C55_double_uint_sse_violated); lane 0, equal decisions, and SSE4.1 proved. Casts with an offset convert exactly the selected group of entries (SSE, AVX2, and between them). Scalar vectors (conversions by the compiler) are not modelled here.

### C58 Masked compound assignment

`Verif/Spec/IntOp.lean` (operators on numbers), `Verif/Model/Masked.lean`, `Verif/Lemma/Masked.lean`, `Verif/Prop/Masked.lean`.

*Status*: partial. Theorems: `Vc.Prop.C58_sse_partial`, `Vc.Prop.C58_avx_partial`, `Vc.Prop.C58_sse_violated`, `Vc.Prop.C58_avx_violated`, `Vc.Prop.C58_incr`, `Vc.Prop.C58_float`, `Vc.Prop.C58_float_incr_partial`, `Vc.Prop.C58_float_incr_violated`, `Vc.Prop.C58_scalar_where`, `Vc.Prop.C58_scalar_partial`, `Vc.Prop.C58_scalar_violated`. Results in active lanes and unchanged inactive lanes: proved for all operators and types (-32768 / -1 of SSE short_v: C39). Operands of inactive lanes do matter for /= and %= of SSE int_v/uint_v (division by zero traps, C58_sse_violated), for shifts by a vector that are evaluated entry by entry (C58_avx_violated) and for x(mask) op= y of Scalar vectors (C58_scalar_violated; where(mask) | is right). ++ of float_v, double_v turns -0.0 in inactive lanes into +0.0 (C58_float_incr_violated).

### C64 fma rounds once

`Verif/Model/Fma.lean`, `Verif/Spec/Fma.lean` (exact value as an integer, nearest number), `Verif/Lemma/FloatArith.lean`, `Verif/Lemma/Fma*.lean` (product exact in double precision; double rounding is harmless unless the middle of two floats is hit inexactly), `Verif/Prop/Fma.lean`.

*Status*: partial. Theorems: `Vc.Prop.C64_float_partial`, `Vc.Prop.C64_float_violated`, `Vc.Prop.C64_double_partial`, `Vc.Prop.C64_double_violated`, `Vc.Prop.C64_int`. float: special values, no float between exact and returned result, and the fused result unless the sum in double precision is inexact and midway between two floats; violated there (C64_float_violated). double: fused result if the low 27 mantissa bits of both factors are zero and the product is a double, NaN operands; violated otherwise, inf * 1 + 0 is NaN (C64_double_violated). Integers: proved. Targets with FMA instructions and std::fma of the scalar vectors are single calls and not modelled.

### C63 AVX masks agree with their lanes

`Verif/Model/AvxMask.lean` (masks as 256-bit registers, `zeroExtend` with the undefined half as a parameter), `Verif/Spec/Mask.lean`, `Verif/Lemma/AvxMask.lean`, `Verif/Prop/AvxMask.lean`.

*Status*: partial. Theorems: `Vc.Prop.C63_toInt`, `Vc.Prop.C63_count`, `Vc.Prop.C63_generate`, `Vc.Prop.C63_init`, `Vc.Prop.C63_firstOne`, `Vc.Prop.C63_subscript`, `Vc.Prop.C63_toScalar`, `Vc.Prop.C63_store`, `Vc.Prop.C63_load`, `Vc.Prop.C63_store_load`, `Vc.Prop.C63_equal`, `Vc.Prop.C63_queries`, `Vc.Prop.C63_logic`, `Vc.Prop.C63_shifted_partial`, `Vc.Prop.C63_shifted_violated`, `Vc.Prop.C63_cast_partial`, `Vc.Prop.C63_cast_violated`, `Vc.Prop.C63_cast_128_partial`, `Vc.Prop.C63_join2_partial`, `Vc.Prop.C63_join4`, `Vc.Prop.C63_fromSse_partial`, `Vc.Prop.C63_fromSse_violated`, `Vc.Prop.C63_fromSse2_partial`, `Vc.Prop.C63_fromSse4_partial`, `Vc.Prop.C63_fromScalar`, `Vc.Prop.C63_toSse`, `Vc.Prop.C63_toSse2`, `Vc.Prop.C63_cast_offset`, `Vc.Prop.C63_fromSse_offset`, `Vc.Prop.C63_toSse_offset`. Proved in full for compilers whose zeroExtend clears the upper half (clang, MSVC). With the others (GCC) zeroExtend is a cast that leaves it undefined: lanes with a source are right (the _partial theorems), lanes without a source can be true after shifted(n) by at least half a register and after casts that go through zeroExtend (C63_shifted_violated, C63_cast_violated, C63_fromSse_violated). Conversions of masks of 16 lanes to an integer are modelled for BMI2 (pext) only, which is the only version in the source.

### C65 transpose

`Verif/Model/Transpose.lean` (arrays as trees), `Verif/Prop/Transpose.lean`. The version for four SSE registers is part of C38.

*Status*: proved. Theorems: `Vc.Prop.C65_transpose`, `Vc.Prop.C65_involution`, `Vc.Prop.C65_scalar`. The two instantiations that exist: arrays of one native vector of four entries and arrays of four scalars, and single scalars. The function returns references to its by-value parameters; the model assumes that these are still alive when the assignment reads them (implementation-defined). SSE registers: C38_transpose.

### C66 deinterleave

`Verif/Model/Deinterleave.lean`, `Verif/Spec/Deinterleave.lean` (also: there is no result if and only if one of the entries is not readable), `Verif/Lemma/Deinterleave.lean`, `Verif/Prop/Deinterleave.lean`.

*Status*: partial. Theorems: `Vc.Prop.C66_sse`, `Vc.Prop.C66_avx`, `Vc.Prop.C66_scalar`, `Vc.Prop.C66_sse_convert`, `Vc.Prop.C66_avx_convert`, `Vc.Prop.C66_avx_uint_partial`, `Vc.Prop.C66_avx_uint_violated`. Proved for all documented combinations but one: AVX2 uint_v from unsigned short sign-extends, entries of 32768 and more come out with the upper 16 bits set (C66_avx_uint_violated); smaller entries proved.

### C60 Gathers with AVX2 instructions

`Verif/Model/GatherAvx2.lean` (byte-addressed memory with unreadable bytes), `Verif/Spec/ByteMem.lean`, `Verif/Lemma/GatherAvx2.lean`, `Verif/Prop/GatherAvx2.lean`.

*Status*: partial. Theorems: `Vc.Prop.C60_masked_partial`, `Vc.Prop.C60_gather_partial`, `Vc.Prop.C60_reads`, `Vc.Prop.C60_index_violated`, `Vc.Prop.C60_sse16_masked_partial`, `Vc.Prop.C60_sse16_partial`, `Vc.Prop.C60_avx16_masked_partial`, `Vc.Prop.C60_avx16_partial`, `Vc.Prop.C60_sse16_reads`, `Vc.Prop.C60_avx16_reads`, `Vc.Prop.C60_sse16_violated`, `Vc.Prop.C60_avx16_violated`. 32- and 64-bit entries: proved, including that exactly the bytes of the selected entries are read, for indexes that fit into int; larger unsigned indexes address another entry (C60_index_violated). 16-bit vectors: values and masks proved if the 4 bytes from every selected entry on are readable; the gather reads all of them, so gathering the last entry of an array reads 2 or 3 bytes behind it (C60_sse16_violated, C60_avx16_violated).

### C67 Position of the minimum and maximum

`Verif/Model/AvxInt.lean`, `Verif/Spec/Index.lean` (first position of the minimum), `Verif/Prop/AvxIndex.lean`: the integer vectors from C41, C34 and C63; for `float_v::minIndex` an invariant of the three exchange steps (each lane holds the least of a set of lanes and its index).

*Status*: partial. Theorems: `Vc.Prop.C67_int_minIndex`, `Vc.Prop.C67_int_maxIndex`, `Vc.Prop.C67_double_minIndex_partial`, `Vc.Prop.C67_double_maxIndex_partial`, `Vc.Prop.C67_float_maxIndex_partial`, `Vc.Prop.C67_float_minIndex_partial`, `Vc.Prop.C67_float_minIndex_violated`, `Vc.Prop.C67_double_violated`. Integer vectors: proved. double_v and float_v::maxIndex: proved without NaN; with NaN in every lane firstOne is called for an empty mask (C67_double_violated). float_v::minIndex returns the bit pattern of the position as a float, e.g. 0x3f800000 for 1, for every vector whose minimum is not in lane 0 (C67_float_minIndex_violated); proved: the vector of the minimum is right and the pattern is that of a position of the minimum (not always the first one).

### C68 Loads with conversion

`Verif/Model/LoadStore.lean` (on the byte-addressed memory of C60), `Verif/Spec/LoadStore.lean` (arrays of entries, what `static_cast` does), `Verif/Lemma/LoadStore.lean`, `Verif/Prop/Load.lean`; the values follow from C52 and C55.

*Status*: partial. Theorems: `Vc.Prop.C68_sse_load_partial`, `Vc.Prop.C68_avx_load_partial`, `Vc.Prop.C68_sse_load_aligned_violated`, `Vc.Prop.C68_avx_load_overread_violated`, `Vc.Prop.C68_avx_load_value_violated`, `Vc.Prop.C68_avx_load_uint_violated`. Proved for every pair of types that compiles, all flags and all memories in which the entries are readable, except: SSE::float_v from double in code compiled for AVX needs a multiple of 32 with Vc::Aligned (C68_sse_load_aligned_violated); AVX::double_v from 16- and 8-bit integers reads 16 bytes and takes them for four ints (C68_avx_load_overread_violated, C68_avx_load_value_violated); AVX::float_v from unsigned int rounds twice for entries above 2^31 + 2^24 (C68_avx_load_uint_violated).

### C69 Stores

`Verif/Model/LoadStore.lean`, `Verif/Spec/LoadStore.lean` (`Stored`: which bytes change, and to what), `Verif/Lemma/Store.lean`, `Verif/Prop/Store.lean`.

*Status*: partial. Theorems: `Vc.Prop.C69_store`, `Vc.Prop.C69_masked`, `Vc.Prop.C69_roundtrip`, `Vc.Prop.C69_store_overrun_violated`, `Vc.Prop.C69_store_convert_violated`. Stores to arrays of the entry type, masked stores and the round trip: proved. The model assumes that the masked store instructions do not touch bytes that are not selected (for maskmovdqu the manual leaves exceptions implementation dependent). Integer vectors accept pointers to any arithmetic type but write the register unconverted: int_v::store(short *) writes 8 bytes too many (C69_store_overrun_violated), int_v::store(float *) stores the bits of the integers (C69_store_convert_violated).

### C70 Vc::Allocator

`Verif/Model/Allocator.lean` (heap of blocks and bytes, executions as an inductive relation), `Verif/Spec/Allocator.lean` (what the program knows), `Verif/Lemma/Allocator.lean` (invariant: every array lies in its block, behind the stored address of the block), `Verif/Prop/Allocator.lean`.

*Status*: partial. Theorems: `Vc.Prop.C70_arrays`, `Vc.Prop.C70_deallocate`, `Vc.Prop.C70_write`, `Vc.Prop.C70_allocate_partial`, `Vc.Prop.C70_natural`, `Vc.Prop.C70_no_leak`, `Vc.Prop.C70_overflow_violated`. Proved for all executions in which no request is so large that n * sizeof(T) plus the extra bytes reaches 2^64; beyond that, for n <= max_size(), the size wraps around and allocate writes to memory it did not allocate (C70_overflow_violated). For types of natural alignment n <= max_size() is enough (C70_natural). Assumes operator new as the standard describes it and alignof(max_align_t) >= sizeof(void *).

### C71 makeContainer

`Verif/Model/MakeContainer.lean` (iterators as positions, accesses outside are undefined), `Verif/Spec/MakeContainer.lean`, `Verif/Prop/MakeContainer.lean` (loop invariant: the vectors written so far are the beginning of the list).

*Status*: partial. Theorems: `Vc.Prop.C71_vector_partial`, `Vc.Prop.C71_array_partial`, `Vc.Prop.C71_empty_violated`. Proved for every list with at least one number (std::array: if its size is the length of the list). For the empty list size - 1 wraps around and the loop reads and writes out of bounds (C71_empty_violated).

### C72 exp

`Verif/Spec/FloatReal.lean` (the real number of a pattern), `Verif/Model/Exp.lean`, rounding errors in `Verif/Lemma/FloatReal.lean` (every operation adds half a unit), argument reduction and polynomial in `Verif/Lemma/ExpF.lean` (float), `Verif/Lemma/ExpD.lean` (double), `Verif/Prop/Exp.lean`. The real functions and their bounds come from Mathlib.

*Status*: partial. Theorems: `Vc.Prop.C72_float_partial`, `Vc.Prop.C72_float_special`, `Vc.Prop.C72_float_nan_violated`, `Vc.Prop.C72_float_denormal_violated`, `Vc.Prop.C72_double_partial`, `Vc.Prop.C72_double_special`, `Vc.Prop.C72_double_nan_violated`, `Vc.Prop.C72_double_overflow_violated`. float: relative error at most 2^-22 whenever the exponential is in the range of normal numbers, infinity exactly from 2^128 on; below the range the result is only known to be between 0 and the smallest normal number, and wrong (C72_float_denormal_violated). double: relative error at most 2^-50 between 2^-1022 and 2^1022, zero below; infinity already from 2^1022 on, e.g. exp(709) (C72_double_overflow_violated). NaN gives infinity with AVX compiled with intrinsics (C72_float_nan_violated, C72_double_nan_violated), otherwise NaN. Assumes that the compiler does not contract multiplications and additions. The Scalar version calls the C library.

### C73 log, log2, log10

`Verif/Model/Log.lean`; polynomials are bounded on intervals with Chebyshev expansions evaluated by the kernel (`Verif/Lemma/Cheb.lean`), rounding errors relative to a scale in `Verif/Lemma/RelApx.lean`, argument reduction in `Verif/Lemma/LogRed.lean`, series in `Verif/Lemma/LogSeries.lean`, `LogF.lean`, `LogD.lean`; `Verif/Prop/Log.lean`.

*Status*: partial. Theorems: `Vc.Prop.C73_double_avx_defined`, `Vc.Prop.C73_float_partial`, `Vc.Prop.C73_float_inf_violated`, `Vc.Prop.C73_double_partial`, `Vc.Prop.C73_double_inf_violated`. Every finite argument: relative error at most 2^-22 (float, base e), 2^-21 (float, bases 2 and 10), 2^-50 and 2^-49 (double); -infinity for zeros, NaN for negative arguments including -infinity; log2 of powers of two is exact. Positive infinity and NaNs without sign bit give a finite number (C73_float_inf_violated, C73_double_inf_violated). The Scalar version calls the C library; the Vc_LOG_ILP variants, which only some tests enable, are not modelled. Assumes that the compiler does not contract multiplications and additions.

### C74 sin, cos, sincos: symmetry, special values, consistency

`Verif/Model/Trig.lean`, one entry at a time in `Verif/Lemma/TrigLane.lean`, signs in `Verif/Lemma/TrigSign.lean`, `Verif/Prop/Trig.lean`.

*Status*: partial. Theorems: `Vc.Prop.C74_symmetry_double`, `Vc.Prop.C74_symmetry_float`, `Vc.Prop.C74_sincos_double`, `Vc.Prop.C74_sincos_float_partial`, `Vc.Prop.C74_sincos_float_violated`, `Vc.Prop.C74_nan`, `Vc.Prop.C74_zero`, `Vc.Prop.C74_inf_partial`, `Vc.Prop.C74_inf_violated`, `Vc.Prop.C74_quadrant_violated`, `Vc.Prop.C74_range_violated`, `Vc.Prop.C74_lanes_violated`. Proved for all arguments: symmetry, sincos of double, NaN, zeros, infinities with SSE4.1 or AVX. Violated: sincos of float uses the double version where sin does not (C74_sincos_float_violated), cos(infinity) is infinity without SSE4.1 (C74_inf_violated), wrong signs from 2^31 quadrants on (C74_quadrant_violated), results outside of [-1, 1] (C74_range_violated), results depend on other entries (C74_lanes_violated). The Scalar version calls the C library and is not modelled.

### C75 sin, cos, sincos: accuracy

Fifty digits of pi by Machin's formula (`Verif/Lemma/PiDigits.lean`), Taylor polynomials (`TrigReal.lean`), rounding errors of the series (`TrigSerF.lean`, `TrigSerD.lean`), argument reduction with exact operations (`TrigRed.lean`, `TrigFoldD.lean`, `TrigFoldD2.lean`, `TrigFoldF.lean`), quadrants and signs (`TrigEnd.lean`); `Verif/Prop/TrigAcc.lean`.

*Status*: proved. Theorems: `Vc.Prop.C75_double`, `Vc.Prop.C75_float`. Absolute errors. Assumes that the compiler does not contract multiplications and additions. The Scalar version calls the C library and is not modelled; with Vc_HAVE_LIBMVEC the functions of that library are used instead.

### C76 sin, cos: documented precision in units in the last place

False near multiples of pi/2: witnesses for float and double. For arguments up to 0.785 the fold is exact in every mode (`Verif/Lemma/TrigSmall.lean`) and the series have small relative errors (`TrigRel.lean`); unit in the last place defined in `Verif/Spec/Ulp.lean`; `Verif/Prop/TrigDoc.lean`.

*Status*: partial. Theorems: `Vc.Prop.C76_small_double`, `Vc.Prop.C76_small_float_partial`, `Vc.Prop.C76_double_violated`, `Vc.Prop.C76_float_violated`. False as documented: the double sine of 1457.698991265664 is wrong by more than 100000 ulp, the float sine of 4476.76953125 and the float cosine of 2238.384765625 by more than 50. Proved for arguments up to 0.785: double 2 (sine) and 3 (cosine) ulp, float 2.5 and 3.2. Between 0.785 and 8192, away from the multiples of pi/2, only the absolute bounds of C75.

### C77 atan, atan2: special values and symmetry

`Verif/Model/Arc.lean` written in an arithmetic that is that of a vector or of one number, `Verif/Lemma/ArcLane.lean` relates the two, `Verif/Spec/Arc.lean` is the table of C99, `Verif/Lemma/ArcSpecial.lean`, `Verif/Prop/Arc.lean`.

*Status*: partial. Theorems: `Vc.Prop.C77_atan_float_partial`, `Vc.Prop.C77_atan_float_violated`, `Vc.Prop.C77_atan2_float`, `Vc.Prop.C77_atan_double_partial`, `Vc.Prop.C77_atan_double_violated`, `Vc.Prop.C77_atan2_double`, `Vc.Prop.C77_constants`. atan2: everything. atan: NaN, +0, infinities, symmetry for every other argument; atan(-0) is +0 instead of -0 (C77_atan_float_violated, C77_atan_double_violated). The Scalar version calls the C library and is not modelled.

### C78 atan: documented precision in units in the last place

Taylor polynomials and addition theorem of the arcus tangens (`Verif/Lemma/AtanReal.lean`), the polynomial and the rational function with their rounding errors (`AtanSerF.lean`, `AtanSerD.lean`, `RelBound.lean`), the ranges (`AtanF.lean`, `AtanF2.lean`, `AtanD.lean`); where the result is just below 1/2 the last addition is treated separately, as it is exact or rounds to 1/2; `Verif/Prop/ArcAcc.lean`.

*Status*: proved. Theorems: `Vc.Prop.C78_float`, `Vc.Prop.C78_double`. For all finite arguments. Assumes that the compiler does not contract multiplications and additions. The Scalar version calls the C library and is not modelled.

### C79 atan2: precision for all finite points

The arcus tangens is concave, so a relative error of the quotient is no larger in the result (`Verif/Lemma/Atan2Real.lean`, with the argument of complex numbers in Mathlib); quotients above 2^100 stay above or become infinite, both give the number next to π/2; sum with π and the last rounding (`Atan2Acc.lean`), precision of `atan` from C78; `Verif/Prop/ArcAcc2.lean`.

*Status*: proved. Theorems: `Vc.Prop.C79_float`, `Vc.Prop.C79_double`. Assumes that the compiler does not contract multiplications and additions. The Scalar version calls the C library and is not modelled.

### C80 asin: special values and symmetry

`Verif/Model/Asin.lean`: the two functions and the square root instruction; `Verif/Lemma/AsinLane.lean`: entry by entry; `AsinSpecial.lean`: comparisons of magnitudes; `Verif/Prop/Asin.lean`.

*Status*: partial. Theorems: `Vc.Prop.C80_float_partial`, `Vc.Prop.C80_float_violated`, `Vc.Prop.C80_double`, `Vc.Prop.C80_constants`. double: everything. float: everything but asin(-0), which is +0 instead of -0 (C80_float_violated). The Scalar version calls the C library and is not modelled.

### C81 asin: documented precision in units in the last place

Power series of the arcus sinus with remainder (`Verif/Lemma/AsinReal.lean`), halving of the angle and the error of the square root (`AsinBase.lean`, `Sqrt.lean`), polynomial and rational functions with rounding errors (`AsinSerF.lean`, `AsinSerD.lean`), the ranges (`AsinF.lean`, `AsinD.lean`); `Verif/Prop/AsinAcc.lean`.

*Status*: partial. Theorems: `Vc.Prop.C81_float_partial`, `Vc.Prop.C81_float_half`, `Vc.Prop.C81_float_violated`, `Vc.Prop.C81_double`. double: 8 units in the last place for every argument in [-1, 1] (36 are documented). float: 3 units for every argument and 2 for arguments up to 1/2; the documented 2 are exceeded just above 1/2, e.g. for 0.50024599 by an error of 2.4 units (C81_float_violated). Assumes that the compiler does not contract multiplications and additions. The Scalar version calls the C library and is not modelled.

### C82 log, log2, log10: documented precision in units in the last place

Interval boxes (value range and rounding error) for every operation of the program, evaluated by the kernel on a finite partition of the reduced argument (`Verif/Lemma/Enc.lean`, `LogCell.lean`, `LogTwo.lean`), approximation error of polynomial and rational function from C73 with Chebyshev bounds per region (`LogAccF.lean`, `LogAccD.lean`, `LogTwoI.lean`), the last multiplication of `log10` (`LogTen.lean`); counterexamples with the Taylor series of the logarithm; `Verif/Prop/LogAcc.lean`.

*Status*: partial. Theorems: `Vc.Prop.C82_float_log`, `Vc.Prop.C82_float_partial`, `Vc.Prop.C82_double_partial`, `Vc.Prop.C82_float_log10_violated`, `Vc.Prop.C82_float_log2_violated`, `Vc.Prop.C82_double_log_violated`, `Vc.Prop.C82_double_log2_violated`. float log: the documented 1 unit in the last place, for every positive finite argument (C82_float_log). float log10 3.2 and log2 3.25 units; double log 1.2, log10 3.5 and log2 3.6 units. The documented precision is exceeded by float log2 (an error of 1.88 instead of 1), double log2 (1.97 instead of 1), float log10 (2.03 instead of 2) and double log (1.002 instead of 1): witnesses C82_*_violated; the last two are so close that the distance from the correctly rounded result is still 2 and 1. Whether double log10 keeps its 2 units is open. Assumes that the compiler does not contract multiplications and additions. The Scalar version calls the C library and is not modelled.

### C83 operators between a vector and a scalar of another type

`Verif/Model/MixedOp.lean`: the metaprograms and the conversion of operands; `Verif/Spec/Cpp.lean`: integer conversions and the usual arithmetic conversions as in the C++ standard; case distinction over the (finitely many) types and congruences for the values; `Verif/Prop/MixedOp.lean`.

*Status*: partial. Theorems: `Vc.Prop.C83_type`, `Vc.Prop.C83_type16`, `Vc.Prop.C83_exists`, `Vc.Prop.C83_vectors`, `Vc.Prop.C83_value`, `Vc.Prop.C83_swapped`, `Vc.Prop.C83_assign`, `Vc.Prop.C83_bits`, `Vc.Prop.C83_compare_partial`, `Vc.Prop.C83_division_partial`, `Vc.Prop.C83_division_violated`, `Vc.Prop.C83_compare_violated`, `Vc.Prop.C83_enum_partial`, `Vc.Prop.C83_enum_violated`. Types: exactly the common type of C++ for vectors of 32 and 64 bits per entry (C83_type). Vectors of 16 bits per entry keep the size (C83_type16); sums, differences, products and bitwise operations are then the C++ result converted to 16 bits, but comparisons are only right if both operands fit: short_v(0) == 65536 is true, ushort_v(5) < -1 is true (C83_compare_violated). Enumerations with an underlying type larger than int are converted to the type of the entries (C83_enum_violated). Quotients and remainders: the C++ value for 32 bits per entry, for 16 bits if operands and quotient fit (C83_division_partial); short_v(1) / 65536 divides by zero, ushort_v(5) / -1 is 0 (C83_division_violated). Shifts, which do not use these operators, are C91; the values for floating-point vectors are not either (only their type).

### C84 sqrt, reciprocal, rsqrt: rounding and special values

`Verif/Model/Recip.lean`; the root is the nearest number (`Verif/Lemma/Sqrt.lean`), so is the quotient; relative errors of both roundings for `rsqrt` (`Verif/Lemma/Recip.lean`); `Verif/Spec/Recip.lean`, `Verif/Prop/Recip.lean`.

*Status*: proved. Theorems: `Vc.Prop.C84_sqrt`, `Vc.Prop.C84_reciprocal`, `Vc.Prop.C84_rsqrt`, `Vc.Prop.C84_scalar`. sqrt of float_v and double_v, reciprocal and rsqrt of double_v, and all of the Scalar implementation. Outside of the statement: reciprocal and rsqrt of float_v (SSE, AVX), which are the approximating instructions rcpps and rsqrtps whose results differ between processors. std::sqrt is assumed to be correctly rounded.

### C85 span: parts, entries, iteration, comparison

`Verif/Model/Span.lean`: a span as position and size, results of calls with assertion failures and ill-formed calls as separate outcomes; the entries of a span as a list; induction over sequences of calls and over the ranges; `Verif/Prop/Span.lean`.

*Status*: partial. Theorems: `Vc.Prop.C85_part_partial`, `Vc.Prop.C85_accepted`, `Vc.Prop.C85_chain_partial`, `Vc.Prop.C85_subspan_violated`, `Vc.Prop.C85_at`, `Vc.Prop.C85_iterate`, `Vc.Prop.C85_compare`, `Vc.Prop.C85_construct`, `Vc.Prop.C85_convert`, `Vc.Prop.C85_swap`. Everything but subspan<Offset, Count>() with an explicit Count, whose sum with the offset (static extent) or whose sign (dynamic extent) is not checked: subspan<3, 4>() of a span of five entries is accepted and goes beyond the array (C85_subspan_violated); it is right if the arguments are in range. The conversions of element types and as_bytes are not part of the model.

### C86 Rounding errors of floating-point sums and products

`Verif/Model/FloatSum.lean` over the models of the native reductions; every result is a tree of operations over the (active) entries (`Combines`), and the error of a tree follows by induction from the error of one operation; small sums are exact, so no term for underflow is needed; the entries of partialSum are sums over windows of 2^d entries after d steps; `Verif/Prop/FloatSum.lean`.

*Status*: proved. Theorems: `Vc.Prop.C86_sum`, `Vc.Prop.C86_exact`, `Vc.Prop.C86_product`, `Vc.Prop.C86_partialSum`, `Vc.Prop.C86_partialSum_exact`, `Vc.Prop.C86_simdarray_combines`, `Vc.Prop.C86_simdarray`, `Vc.Prop.C86_simdarray_native`. The addition and multiplication of single entries are the correctly rounded operations of the floating-point model. Entries of integer type are the subject of C41. Sums between a quarter of the largest number and the largest number (where intermediate overflow is possible) are not part of the claim; sum(m) and partialSum of a SimdArray neither.

### C87 call, apply, fill and callWithValuesSorted with any functor

`Verif/Model/Apply.lean`: functors as functions that also transform a state of any type, the loops over registers; invariant of the loop that replaces lanes, `where(mask)` from C12, C36, C63, template induction for SimdArray; the calls of callWithValuesSorted as a list that ascends iff the entries do; `Verif/Spec/Apply.lean`, `Verif/Prop/Apply.lean`.

*Status*: partial. Theorems: `Vc.Prop.C87_call`, `Vc.Prop.C87_apply`, `Vc.Prop.C87_apply_pure`, `Vc.Prop.C87_fill_index`, `Vc.Prop.C87_fill`, `Vc.Prop.C87_call_masked_sse`, `Vc.Prop.C87_call_masked_avx`, `Vc.Prop.C87_apply_masked_sse`, `Vc.Prop.C87_apply_masked_avx`, `Vc.Prop.C87_scalar`, `Vc.Prop.C87_array_apply`, `Vc.Prop.C87_array_apply_masked`, `Vc.Prop.C87_callWithValuesSorted_int_partial`, `Vc.Prop.C87_callWithValuesSorted_float_partial`, `Vc.Prop.C87_callWithValuesSorted_violated`. All but callWithValuesSorted, which does not sort: it calls f in the order of the lanes and only skips an entry equal to the one before. It does what is documented if and only if the entries are in ascending order (C87_callWithValuesSorted_int_partial, C87_callWithValuesSorted_float_partial); {2, 1, 1, 1} is a counterexample (C87_callWithValuesSorted_violated). Functors that throw are not part of the model; SimdArray has no call and fill.

### C88 v[i] behaves like a reference to a variable

`Verif/Spec/Reference.lean`: a small language of statements and its meaning over independent variables; `Verif/Model/ElementRef.lean`: the proxy over an accessor; simulation by induction over the program from two laws of get and set, which hold for each class (C14, C27, C36, C63); `Verif/Prop/ElementRef.lean`.

*Status*: proved. Theorems: `Vc.Prop.C88_vector`, `Vc.Prop.C88_vector_view`, `Vc.Prop.C88_mask_sse`, `Vc.Prop.C88_mask_avx`, `Vc.Prop.C88_mask_view`, `Vc.Prop.C88_scalar`, `Vc.Prop.C88_array`, `Vc.Prop.C88_mask_array`. The values that operators compute (conversions and promotions of the entry type included) are parameters of the program. The strategies of Storage to access single entries (union, vector extension, casts) are all modelled as replacing one lane. Exceptions and the lifetime of proxies are not modelled.

### C89 Stream output shows the contents

`Verif/Model/Io.lean`: the text as a list of characters, with escape sequences; `Verif/Spec/Io.lean`: a reader that removes escape sequences and finds numbers; induction over the entries and over the digits of a number; `Verif/Prop/Io.lean`.

*Status*: partial. Theorems: `Vc.Prop.C89_colors`, `Vc.Prop.C89_vector`, `Vc.Prop.C89_array`, `Vc.Prop.C89_mask`, `Vc.Prop.C89_memory_partial`, `Vc.Prop.C89_memory2`, `Vc.Prop.C89_memory_violated`, `Vc.Prop.C89_injective`. All but the documented text of one-dimensional memory objects, whose vectors are not separated by a space (C89_memory_violated, C89_memory_partial). Entries are integers; the text of floating-point numbers depends on the precision of the stream. The conversion of integers to decimal notation by the stream is assumed.

### C90 Logical operators, complement, increment and decrement

`Verif/Model/Logical.lean`: the three operations the generic operators are made of, for every kind of vector; comparisons with zero from C34, C54 and C63, one theorem for all kinds (`LogicVec`); the constant one and addition per entry from C35 and the floating-point model; `Verif/Spec/Logical.lean`, `Verif/Prop/Logical.lean`.

*Status*: proved. Theorems: `Vc.Prop.C90_not`, `Vc.Prop.C90_and_or`, `Vc.Prop.C90_scalar`, `Vc.Prop.C90_scalar_abi`, `Vc.Prop.C90_complement`, `Vc.Prop.C90_step_sse`, `Vc.Prop.C90_step_avx`, `Vc.Prop.C90_step_float`, `Vc.Prop.C90_returned`, `Vc.Prop.C90_step_scalar`. Entries of integer type are those of 16 and 32 bits that Vc has vectors of. Signed overflow of ++ and -- on the Scalar vector of int is undefined and excluded; narrower types and the native vectors wrap around. The mixed forms of && and || between two vector types are modelled by the overload for one type, which has the same body.

### C91 Shift operators multiply and divide by powers of two

`Verif/Model/Shift.lean`: the shift instructions, the variants that are compiled for each instruction set, C++ shifts with integral promotion and undefined counts as a separate outcome; `Verif/Spec/Shift.lean`: multiplication and division of numbers; `Verif/Prop/Shift.lean`.

*Status*: partial. Theorems: `Vc.Prop.C91_sse`, `Vc.Prop.C91_avx`, `Vc.Prop.C91_sse_vector`, `Vc.Prop.C91_avx_vector_partial`, `Vc.Prop.C91_avx_vector_violated`, `Vc.Prop.C91_assign`, `Vc.Prop.C91_scalar`. All but shifts of AVX vectors by vectors without AVX2: there the definition in the class is used, which has no return statement, so that the result is undefined (C91_avx_vector_violated; with AVX2 C91_avx_vector_partial). Left shifts of negative numbers are taken as two's complement, as in C++20; counts outside 0 to 31 are undefined in C++ and excluded; what XOP computes for counts of w and more bits is left open.

### C92 Objects created with new are aligned and inside of their memory

`Verif/Model/NewDelete.lean`: the operators on top of the model of aligned_malloc (C03), new expressions with the array cookie of the Itanium ABI, the layout of SimdArray (C14); a condition that is equivalent to alignment for all addresses, by template induction; `Verif/Spec/NewDelete.lean`, `Verif/Prop/NewDelete.lean`.

*Status*: partial. Theorems: `Vc.Prop.C92_new`, `Vc.Prop.C92_classes`, `Vc.Prop.C92_alignedBase`, `Vc.Prop.C92_simdarray_partial`, `Vc.Prop.C92_simdarray_violated`, `Vc.Prop.C92_failure_violated`, `Vc.Prop.C92_native`. All classes but SimdArrays of several native vectors, whose operator new asks for the alignment of the first half only: C92_simdarray_partial is the exact condition, C92_simdarray_violated a SimdArray<float, 8> of alignof 32 at a multiple of 16 (the native vectors inside are aligned, C92_native). Without memory the result of new is undefined instead of std::bad_alloc (C92_failure_violated). POSIX branch with 64-bit pointers and the array cookie of the Itanium ABI; masks are assumed to have the size of vectors; Scalar vectors use the global operators, which are not modelled.

### C93 Version numbers and the check at program start

`Verif/Model/Version.lean`, `Verif/Prop/Version.lean`: the encoding as a sum of disjoint bit fields, lexicographic order; induction over the translation units.

*Status*: partial. Theorems: `Vc.Prop.C93_order`, `Vc.Prop.C93_number`, `Vc.Prop.C93_range_violated`, `Vc.Prop.C93_start_partial`, `Vc.Prop.C93_start_violated`. The order of versions is proved for minor < 256 and patch < 128 (C93_range_violated outside). The start check only rejects other ABI versions and headers newer than the library, older headers are accepted, contrary to the documentation (C93_start_violated); C93_start_partial is the exact condition.

### C94 Vc::array behaves like an array

`Verif/Model/VcArray.lean`: the storage of at least one entry, statements and programs on it; `Verif/Spec/VcArray.lean`: what a statement does to the sequence of entries; induction over programs, iteration and comparisons from C85; `Verif/Prop/VcArray.lean`.

*Status*: partial. Theorems: `Vc.Prop.C94_access`, `Vc.Prop.C94_modify`, `Vc.Prop.C94_program`, `Vc.Prop.C94_iterate`, `Vc.Prop.C94_compare`, `Vc.Prop.C94_swap_partial`, `Vc.Prop.C94_swap_violated`. All but the member function swap, which does not compile (C94_swap_violated); std::swap uses the general template. Constructors and conversions of entries are not modelled.

### C95 Containers in gather and scatter expressions; deprecated gathers and scatters

`Verif/Model/Containers.lean`: the traits as functions of container types, containers as address functions; the model of subscript expressions and its theorems (C59); `Verif/Prop/Containers.lean`.

*Status*: partial. Theorems: `Vc.Prop.C95_accepted`, `Vc.Prop.C95_documented`, `Vc.Prop.C95_gather_partial`, `Vc.Prop.C95_deque_violated`, `Vc.Prop.C95_debug_partial`, `Vc.Prop.C95_debug_violated`, `Vc.Prop.C95_nested`, `Vc.Prop.C95_deprecated_partial`, `Vc.Prop.C95_pointer_violated`. Not for std::deque below AdaptSubscriptOperator, which is accepted although its storage is not contiguous, and which the assertion does not detect (C95_deque_violated); the assertion dereferences the end of containers with one element (C95_debug_violated); the deprecated forms with a pointer member do not compile (C95_pointer_violated). Hypotheses on sizes and indexes as in C59. Container types are a fixed list; user-defined containers are not modelled.

### C96 Constants, generated vectors and initializer lists

`Verif/Model/Constants.lean`: tables of constants at an arbitrary address, functors with own and shared state, copies of functors; `Verif/Spec/Constants.lean`: a sequence of calls of one object; `Verif/Prop/Constants.lean`: induction over calls and template induction.

*Status*: partial. Theorems: `Vc.Prop.C96_zero_one`, `Vc.Prop.C96_indexes_sse`, `Vc.Prop.C96_indexes_avx_partial`, `Vc.Prop.C96_indexes_avx_violated`, `Vc.Prop.C96_generate_native`, `Vc.Prop.C96_generate_partial`, `Vc.Prop.C96_callSeq_unique`, `Vc.Prop.C96_generate_violated`, `Vc.Prop.C96_convert_partial`, `Vc.Prop.C96_convert_violated`, `Vc.Prop.C96_list`, `Vc.Prop.C96_list_long`, `Vc.Prop.C96_list_short_violated`. All but: short_v::IndexesFromZero() with AVX2, whose table need not be aligned as the load requires (C96_indexes_avx_violated; exact condition in C96_indexes_avx_partial); SimdArray::generate with functors that change their own data members, which are copied for each native vector (C96_generate_violated, C96_generate_partial); generate of unsigned vectors with functors that return floating-point numbers above the signed range (C96_convert_violated, C96_convert_partial); initializer lists with too few values, which are read past the end before the assertion (C96_list_short_violated). Where a linker puts the tables is an arbitrary address that alignas allows.

### C97 Caches of Intel processors from CPUID leaf 2

`Verif/Model/CpuidLeaf2.lean`: interpret and the loops over bytes and executions; `Verif/Spec/CpuidLeaf2.lean`: the table of the manual, which bytes are descriptors, the last descriptor of a kind; `Verif/Prop/CpuidLeaf2.lean`: induction over descriptors and executions; leaf 4 from C51.

*Status*: partial. Theorems: `Vc.Prop.C97_descriptors_partial`, `Vc.Prop.C97_leaf4`, `Vc.Prop.C97_instruction_violated`, `Vc.Prop.C97_l2_violated`, `Vc.Prop.C97_l1_associativity_violated`. All descriptors of the table in the manual but three: 30 (an instruction cache) is entered as a data cache (C97_instruction_violated), the second-level caches 1D and 24 are unknown (C97_l2_violated). The associativity of the first level is that of the last descriptor of an instruction or data cache, so that for a Pentium Pro it is that of the instruction cache (C97_l1_associativity_violated). Several executions of CPUID (only if AL > 1) are assumed not to be merged by the compiler; the asm statement is not volatile. The table is transcribed from the manual; obsolete descriptors that are no longer in it are not part of the claim.

### C98 Load/store flags

`Verif/Model/LsFlags.lean`: lists of types, ExtractType, the EnableIf types with the specialization for no flags; `Verif/Spec/LsFlags.lean`: inductive predicates on the expression; `Verif/Prop/LsFlags.lean`: induction over expressions.

*Status*: proved. Theorems: `Vc.Prop.C98_flags`, `Vc.Prop.C98_combine`, `Vc.Prop.C98_overloads`, `Vc.Prop.C98_prefetch`, `Vc.Prop.C98_prefetch_cases`. Prefetch instructions are modelled by hint and address; the exclusive variants are the same instructions in this version. UnalignedRemoved, which nothing uses, is not modelled. The Scalar vectors do not prefetch.

### C99 index arguments of gathers and scatters

`Verif/Model/IndexArg.lean`: overloads and assertions as decisions on the kind of the argument, with rejected and undefined programs as outcomes; `Verif/Spec/IndexArg.lean`; promotions keep values by `Verif/Spec/Cpp.lean`; `Verif/Prop/IndexArg.lean`.

*Status*: partial. Theorems: `Vc.Prop.C99_conversion`, `Vc.Prop.C99_values`, `Vc.Prop.C99_accepted`, `Vc.Prop.C99_subscript_checked`, `Vc.Prop.C99_member_checked_partial`, `Vc.Prop.C99_member_checked_violated`, `Vc.Prop.C99_pointer_violated`, `Vc.Prop.C99_container_violated`. Offsets are the indexes for everything that is accepted (C99_values, C99_conversion), and subscripts reject arguments that are too small (C99_subscript_checked), as do the member functions for SIMD vectors (C99_member_checked_partial). The member functions accept arrays with too few indexes, because the assertion looks at the entry type instead of the index type (C99_member_checked_violated). Gathers reject pointers (C99_pointer_violated), arrays of 64-bit integers and classes whose subscript operator returns references (C99_container_violated), all of which are documented. Loads that convert arrays are taken to exist for all integer types; masked functions have the same checks and are not repeated.

### C100 numeric limits of vector types

`Verif/Model/Limits.lean`: register operations of the integer specializations, and which specialization a type matches; `Verif/Spec/Limits.lean`: limits as extremal values of integers and by the structure of the IEEE formats; `Verif/Prop/Limits.lean`.

*Status*: partial. Theorems: `Vc.Prop.C100_integers`, `Vc.Prop.C100_simdarray`, `Vc.Prop.C100_native_partial`, `Vc.Prop.C100_native_violated`. Integer vectors of SSE and AVX2 (C100_integers) and SimdArray (C100_simdarray) always; the other native vectors only if the header Vc/limits is included and the vector is the one the build selects for T (C100_native_partial). Otherwise, and for fixed_size_simd in any case, which the specialization of its base class SimdArray does not match, the primary template applies and all limits are zero (C100_native_violated). The constants of the standard library are those of the GNU library.

### C101 functors of simd_for_each

`Verif/Model/Functor.lean`: the trait as a decision on the type of the functor, on top of `Verif/Model/Algorithms.lean`; `Verif/Spec/Functor.lean`; the loops by C10; `Verif/Prop/Functor.lean`.

*Status*: partial. Theorems: `Vc.Prop.C101_trait_partial`, `Vc.Prop.C101_stores_partial`, `Vc.Prop.C101_rejects`, `Vc.Prop.C101_accepts_violated`, `Vc.Prop.C101_example_violated`. Functors with one call operator (a template or not) that returns void (C101_trait_partial, C101_stores_partial). Functors that return a value, functors with overloads for the two argument types, and functions are rejected although they can be called (C101_accepts_violated). The example of the documentation, which takes its argument by value, leaves the range as it is (C101_example_violated). volatile and reference-qualified call operators are not modelled.

### C102 the implementation selected at compile time

`Verif/Model/ImplSelect.lean`: the preprocessor as functions on Booleans and on the value of Vc_IMPL; `Verif/Spec/ImplSelect.lean`: best set, requested set, used sets; `Verif/Prop/ImplSelect.lean`, with C50 for the run-time check.

*Status*: partial. Theorems: `Vc.Prop.C102_default`, `Vc.Prop.C102_clang36`, `Vc.Prop.C102_requested`, `Vc.Prop.C102_requested_sse_partial`, `Vc.Prop.C102_sse_needs_sse2`, `Vc.Prop.C102_sse_fallback_violated`, `Vc.Prop.C102_mic_violated`, `Vc.Prop.C102_no_base`, `Vc.Prop.C102_two_bases_violated`, `Vc.Prop.C102_features_partial`, `Vc.Prop.C102_features_violated`, `Vc.Prop.C102_supported_partial`, `Vc.Prop.C102_supported_violated`, `Vc.Prop.C102_abi`. Proved: the default selection (C102_default, C102_clang36), every well-formed request (C102_requested, C102_requested_sse_partial), and that the default ABI and the size macros fit (C102_abi). CurrentImplementation does not name XOP without SSE4a nor FMA4 without XOP and SSE4a, so the documented -DVc_IMPL=SSE+XOP+FMA4 (and -mfma4) passes currentImplementationSupported() on a CPU without them (C102_features_violated, C102_supported_violated); everything else is named (C102_features_partial, C102_supported_partial). The documented value MIC and the documented fallback of SSE to SSE4.1 are errors (C102_mic_violated, C102_sse_fallback_violated), and SSE2+SSE4_1 silently selects AVX2 (C102_two_bases_violated). Vc_IMPL with operators other than + is not modelled.

### C103 setZero, setZeroInverted and setQnan

`Verif/Model/SetLanes.lean`: the bit operations on registers and the recursion of SimdArray; `Verif/Spec/SetLanes.lean`: quiet NaNs, entries set where a condition holds; `Verif/Prop/SetLanes.lean`: lanes of registers and template induction.

*Status*: proved. Theorems: `Vc.Prop.C103_native`, `Vc.Prop.C103_native_qnan`, `Vc.Prop.C103_scalar`, `Vc.Prop.C103_scalar_qnan`, `Vc.Prop.C103_simdarray`, `Vc.Prop.C103_simdarray_qnan`. SimdArray::setZeroInverted() without argument, which calls a function that does not exist, and setQnan of Scalar integer vectors, which converts a NaN to an integer, are not part of the claim. Masks are registers whose lanes are all ones or all zeros (C36, C63).

### C104 all_of, any_of, none_of, some_of

`Verif/Model/MaskReduce.lean`: one type of arguments for all mask classes and bool, Scalar masks; `Verif/Prop/MaskReduce.lean`: the entries a mask denotes; from C27, C36 and C63.

*Status*: proved. Theorems: `Vc.Prop.C104_reductions`, `Vc.Prop.C104_duality`, `Vc.Prop.C104_scalar`. Overload resolution (template for masks, function for bool) is not modelled; element references convert to neither.

### C105 fpclassify

`Verif/Model/Classify.lean`: std::fpclassify by fields (C library, trusted), the generator constructor; `Verif/Spec/Classify.lean`: classes by value; `Verif/Prop/Classify.lean`: fields against values, template induction.

*Status*: proved. Theorems: `Vc.Prop.C105_native`, `Vc.Prop.C105_simdarray`, `Vc.Prop.C105_unique`, `Vc.Prop.C105_agree`. std::fpclassify is the C library: it is described by the fields of the number and its macros are those of the GNU C library. The agreement with isnan, isinf and isfinite is for the native vectors of C46.

### C106 Assigning a subscript expression to a tuple of vectors

`Verif/Model/TieGather.lean`: gatherArguments without its scale, then the deinterleaving read with struct size 1; `Verif/Prop/TieGather.lean`: from C32 (reads) and C59 (addresses), with the addresses of `Verif/Spec/Subscript.lean`.

*Status*: partial. Theorems: `Vc.Prop.C106_tie_partial`, `Vc.Prop.C106_small_structs`, `Vc.Prop.C106_tie_violated`. Holds for arrays of entries and for objects more than 8 bytes apart, under the hypotheses of C59. For smaller structs the scale is a template argument of the result of gatherArguments() that the assignment ignores, so it reads other entries (C106_small_structs, C106_tie_violated). Index vectors other than of int are not modelled.

### C107 frexp and ldexp of SimdArray

`Verif/Model/ExpSplit.lean`: the recursion with segments of native vectors of exponents; `Verif/Prop/ExpSplit.lean`: induction on the template recursion, for segments with the invariant that the vector has (pieces times size) entries, with the sizes of SimdArray objects (`layout`).

*Status*: proved. Theorems: `Vc.Prop.C107_frexp`, `Vc.Prop.C107_ldexp`, `Vc.Prop.C107_roundtrip`. The functions of the components are arbitrary; frexp and ldexp of native vectors are C57. Which overload of the native function is called is not modelled. The store through the reinterpret_cast pointer is taken as a store to the bytes (no aliasing rules).

### C108 Gathers without gather instructions

`Verif/Model/GatherSet.lean`: the product of scale and index with the rules of C++, loads, conversion, packing; `Verif/Prop/GatherSet.lean`: entries by lanes, against `EntryAt` of `Verif/Spec/ByteMem.lean`.

*Status*: partial. Theorems: `Vc.Prop.C108_set`, `Vc.Prop.C108_gather_partial`, `Vc.Prop.C108_reads`, `Vc.Prop.C108_unsigned_violated`. Proved for products of scale and index that the type of the product represents (int for indexes of less than 32 bits, else the index type). Otherwise unsigned products wrap around and another entry is read (C108_unsigned_violated), signed ones overflow (undefined). The conversion is an arbitrary function. Entry types of 8 bits do not exist.

### C109 Type traits

`Verif/Spec/TypeTraits.lean`: types, vectors and masks; `Verif/Model/TypeTraits.lean`: the specializations; `Verif/Prop/TypeTraits.lean`: case analysis.

*Status*: partial. Theorems: `Vc.Prop.C109_kinds`, `Vc.Prop.C109_arithmetic`, `Vc.Prop.C109_entry_type`, `Vc.Prop.C109_size_partial`, `Vc.Prop.C109_size_violated`. All but simd_vector_size, which is not 0 for sequences of integers (std::index_sequence), because any class with a static function size() counts (C109_size_violated). The templates of Vc are taken to be instantiated for the six entry types. Simdized classes are not modelled.

## Not modelled

* Transcendental functions other than those of the properties above, and the
  Scalar versions, which call the C library.
* Compiler code generation, aliasing rules, calling conventions, ODR and the
  `Vc_ABI` mangling; alignment faults of aligned loads other than where stated.
* Intel MIC, NEON and other non-x86 paths.
* Exceptions and allocation failure, other than in C92 (operator new) and C94 (`at`).
* Stream output other than C89 (which has no formatting flags of the stream).
* Type traits and templates of simdized classes other than in C48, C61 and C109.
