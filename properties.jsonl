{"id": "C01", "title": "SimdArray<T,N> splits into two nonempty halves that cover exactly N lanes", "statement": "For every N that is not itself a native vector width, the two halves from which SimdArray<T,N> / SimdMaskArray<T,N> is built are both nonempty, the first has a power-of-two size, the second is not larger than the first, and their sizes add up to N; hence the recursive construction ends and stores exactly N lanes, no padding lane in the middle.", "quantifier": "every N >= 2 and every list of native vector widths ending in the scalar width 1", "why_tests_cant": "N is a template parameter: a test instantiates a handful of sizes; the property is about all of them.", "anchors": ["Vc/common/utility.h: NextPowerOfTwo, left_size, right_size", "Vc/common/simdarray.h: select_best_vector_type, SimdArray", "Vc/common/simdmaskarray.h: SimdMaskArray"]}
{"id": "C02", "title": "Padded memory sizes are the least multiple that holds the data", "statement": "Allocation and Memory sizes are rounded up to the least multiple of the alignment / vector size that is not below the requested amount: never less than requested, never a full vector more.", "quantifier": "every requested size and every positive granularity (within size_t)", "why_tests_cant": "Boundary arithmetic over all sizes.", "anchors": ["Vc/common/malloc.h: nextMultipleOf, aligned_malloc", "Vc/common/memory.h: Memory, calcPaddedEntriesCount"]}
{"id": "C03", "title": "Vc::malloc returns a block that is large enough and aligned", "statement": "Vc::malloc<T,A>(n) asks the system for a block aligned to at least the requested alignment (vector alignment, 64-byte cache line or 4096-byte page) whose size is at least n*sizeof(T) and a multiple of that alignment.", "quantifier": "every n, every sizeof(T), every alignment kind", "why_tests_cant": "Overflow happens only for huge n that no test allocates.", "anchors": ["Vc/common/malloc.h: malloc, aligned_malloc, nextMultipleOf"]}
{"id": "C04", "title": "Memory<V,N>: vector access stays inside the allocation and tiles it", "statement": "For Memory<V,N>/Memory<V>(n): the vectors vector(0..vectorsCount()-1) tile the padded storage: every entry index lies in exactly one of them at exactly one lane, all accesses they make are in bounds, and scalar entry i is lane i mod Size of vector i / Size.", "quantifier": "every entries count n > 0, every vector width", "why_tests_cant": "Sizes are arbitrary; out-of-bounds at the tail only shows for particular remainders.", "anchors": ["Vc/common/memory.h: Memory", "Vc/common/memorybase.h: MemoryBase::vector, vectorsCount"]}
{"id": "C05", "title": "Memory<V>(n) construction zeroes the padding and nothing is written out of bounds", "statement": "After construction of Memory<V>(n) (and Memory<V,N>) the entries past the user-visible count in the last vector are zero and no byte outside the allocation has been written.", "quantifier": "every n including 0", "why_tests_cant": "The failing size (0) corrupts memory silently before the block; a test passing on a lenient allocator proves nothing.", "anchors": ["Vc/common/memory.h: Memory<V,0u,0u>::Memory, Memory<V,Size1,0>::Memory, InitPadding"]}
{"id": "C06", "title": "2-D Memory rows are disjoint, in bounds and independently padded", "statement": "In Memory<V,R,C> entry (r,c) with r<R, c<C denotes a storage cell that is in bounds and distinct from every other (r',c') and from every padding cell; row r's vectors only touch row r.", "quantifier": "every R, C, vector width", "why_tests_cant": "Index arithmetic over all shapes.", "anchors": ["Vc/common/memory.h: Memory<V,Size1,Size2>", "Vc/common/memorybase.h: MemoryDimensionBase"]}
{"id": "C07", "title": "Copying a Memory copies every vector exactly once for every vector count", "statement": "Copy construction / assignment of Memory makes the destination equal to the source entry by entry for every number of vectors (the unrolled loop has no missed or doubled tail) and touches no vector past vectorsCount(). swap exchanges contents and sizes of two Memory objects of any sizes.", "quantifier": "every number of vectors", "why_tests_cant": "Unrolled loops fail only at particular remainders.", "anchors": ["Vc/common/memorybase.h: Detail::copyVectors"]}
{"id": "C08", "title": "Memory comparison operators", "statement": "a==b of two Memory objects holds exactly if all entries agree, a!=b is its negation, and a<b (etc.) holds exactly if the relation holds for all entries.", "quantifier": "every pair of memories with equal size", "why_tests_cant": "Disagreement of == and != only shows for partially equal contents.", "anchors": ["Vc/common/memorybase.h: MemoryBase::operator==, operator!=, operator<, operator<="]}
{"id": "C09", "title": "Memory compound arithmetic is entry-wise", "statement": "m op= rhs (scalar or Memory) changes every entry e_i into e_i op rhs_i and keeps the sizes.", "quantifier": "every size, every operation, every contents", "why_tests_cant": "Loop over vectors must cover all entries for all sizes.", "anchors": ["Vc/common/memorybase.h: operator+= ... operator/="]}
{"id": "C10", "title": "simd_for_each equals std::for_each in order", "statement": "simd_for_each(first,last,f) calls f on disjoint consecutive chunks that cover [first,last) exactly once in ascending order, full vectors first, single elements last; never reads or writes outside; the mutable version stores back each chunk so that a lane-wise f acts as std::for_each/transform.", "quantifier": "every length (including 0 and below the vector size), every vector width, every lane-wise functor", "why_tests_cant": "Off-by-one at the vector/scalar boundary.", "anchors": ["Vc/common/algorithms.h: simd_for_each"]}
{"id": "C11", "title": "simd_for_each_n covers exactly n elements", "statement": "simd_for_each_n(first,n,f) processes exactly the n elements from first on, in order, each once.", "quantifier": "every n >= 0, every width", "why_tests_cant": "same as C10", "anchors": ["Vc/common/algorithms.h: simd_for_each_n"]}
{"id": "C12", "title": "Iterating over where(mask) visits exactly the active lanes, ascending, once each", "statement": "for (int i : where(mask)) visits every lane index i with mask[i]==true exactly once in ascending order and no other index, and terminates.", "quantifier": "every mask of every size", "why_tests_cant": "2^N masks; the sign extension at 32 lanes needs a particular lane to be set.", "anchors": ["Vc/common/iterators.h: BitmaskIterator, begin, end", "Vc/common/simdmaskarray.h: toInt"]}
{"id": "C13", "title": "Vector iterators: comparison operators", "statement": "For iterators of Vc vectors, == is equality of position, != its negation, and <,<=,>,>= order positions of the same vector.", "quantifier": "every pair of iterators", "why_tests_cant": "Iterators of different vectors are compared rarely.", "anchors": ["Vc/common/iterators.h: Iterator, ConstIterator"]}
{"id": "C14", "title": "SimdArray lane access, load and store agree with a plain array", "statement": "For SimdArray<T,N>: x[i] reads lane i, x[i]=v changes lane i only, load(p) makes lane i equal p[i] reading exactly p[0..N), store(p) writes lane i to p[i] and writes nothing else; store then load is the identity; generate(g) sets lane i to g(i) calling g in order 0..N-1.", "quantifier": "every N, every ABI width list, every contents and memory", "why_tests_cant": "Recursion over odd sizes and offsets.", "anchors": ["Vc/common/simdarray.h: operator[], load, store, generate, SimdArray(gen)"]}
{"id": "C15", "title": "SimdArray element-wise operations are lane-wise", "statement": "Arithmetic, bitwise, shift, comparison and math functions on SimdArray<T,N> act lane by lane exactly as the scalar operation, independent of how N is split into native vectors.", "quantifier": "every N, width list, operation, operands", "why_tests_cant": "The split differs for every N and target.", "anchors": ["Vc/common/simdarray.h: fromOperation, binary operators", "Vc/common/simdarrayhelper.h: Segment, Split, actual_value"]}
{"id": "C16", "title": "SimdArray reductions equal the scalar fold", "statement": "sum/product/min/max of SimdArray<T,N> equal folding the operation over all lanes whenever the operation is associative and commutative (integers, min/max); the masked forms equal the fold over the active lanes whenever at least one lane is active.", "quantifier": "every N, width list, contents, mask", "why_tests_cant": "The reduction tree shape depends on N; masks are exponential.", "anchors": ["Vc/common/simdarray.h: Vc_REDUCTION_FUNCTION_"]}
{"id": "C17", "title": "partialSum is the inclusive prefix sum", "statement": "x.partialSum()[i] = x[0]+...+x[i] for all i (associative addition).", "quantifier": "every N, width list, contents", "why_tests_cant": "carry between halves for all N", "anchors": ["Vc/common/simdarray.h: partialSum", "Vc/sse/vector.tcc: partialSum"]}
{"id": "C18", "title": "reversed() reverses", "statement": "x.reversed()[i] = x[N-1-i].", "quantifier": "every N, width list, contents", "why_tests_cant": "non-bisectable N use a different code path through shifted()", "anchors": ["Vc/common/simdarray.h: reversed"]}
{"id": "C19", "title": "rotated(k) rotates by k modulo N", "statement": "x.rotated(k)[i] = x[(i+k) mod N] for every int k.", "quantifier": "every N, width list, every k (negative and beyond N)", "why_tests_cant": "seven-way case split on sizes and amounts; only sizes 1,2,3,7..16 tested", "anchors": ["Vc/common/simdarray.h: rotated", "Vc/sse/vector.tcc: rotated"]}
{"id": "C20", "title": "shifted(k) shifts in zeros", "statement": "x.shifted(k)[i] = x[i+k] if 0<=i+k<N and 0 otherwise.", "quantifier": "every N, width list, every k", "why_tests_cant": "Only native vectors are tested; the SimdArray paths for unequal halves are not.", "anchors": ["Vc/common/simdarray.h: shifted(int)", "Vc/sse/vector.tcc: shifted", "Vc/avx/vector.tcc: shifted"]}
{"id": "C21", "title": "shifted(k, y) shifts in the lanes of y", "statement": "x.shifted(k,y) yields lanes k..k+N-1 of the concatenation (y before x for negative k, y after x for positive k), zeros beyond.", "quantifier": "every N, width list, every k", "why_tests_cant": "two overload families, recursion, amounts beyond 2N", "anchors": ["Vc/common/simdarray.h: shifted(int, shiftIn)", "Vc/sse/vector.tcc: shifted(int, Vector)"]}
{"id": "C22", "title": "interleaveLow/High give the two halves of the zipped sequence", "statement": "interleaveLow(x,y) followed by interleaveHigh(x,y) is x0,y0,x1,y1,...,x(N-1),y(N-1).", "quantifier": "every N, width list, contents", "why_tests_cant": "odd N uses cross-half shifts", "anchors": ["Vc/common/simdarray.h: interleaveLow, interleaveHigh, interleaveHighImpl"]}
{"id": "C23", "title": "sorted() returns the ascending permutation", "statement": "x.sorted() is sorted ascending and a permutation of x's lanes (no NaN).", "quantifier": "every N, width list, contents", "why_tests_cant": "N! orders; merging networks of arbitrary size; non-power-of-two padding", "anchors": ["Vc/common/simdarray.h: sorted, sortedImpl"]}
{"id": "C24", "title": "SimdArray gather and scatter", "statement": "SimdArray gather loads lane i from base[index[i]]; the masked form leaves inactive lanes unchanged and does not read for them; scatter writes lane i to base[index[i]] only, active lanes only, later lanes win on duplicates.", "quantifier": "every N, width list, index vector, mask, memory", "why_tests_cant": "aliasing index patterns", "anchors": ["Vc/common/simdarray.h: gatherImplementation, scatterImplementation"]}
{"id": "C25", "title": "Masked assignment changes exactly the active lanes", "statement": "where(mask)|x op= y, x(mask) op= y and iif(mask,a,b) produce lane i from the operation where mask[i] and keep the old (or the else) value elsewhere.", "quantifier": "every N, width list, mask, operands, operator", "why_tests_cant": "2^N masks", "anchors": ["Vc/common/where.h", "Vc/common/writemaskedvector.h", "Vc/common/iif.h", "Vc/common/simdarray.h: conditional_assign, assign"]}
{"id": "C26", "title": "simd_cast between SimdArray shapes preserves lanes", "statement": "simd_cast from one vector / array shape to another converts lane i to lane i; missing lanes become zero, surplus lanes are dropped; simd_cast with an offset starts at lane offset*N.", "quantifier": "every pair of sizes, width lists, offsets", "why_tests_cant": "quadratic number of shape pairs with many overloads", "anchors": ["Vc/common/simdarray.h: simd_cast 1861-2539"]}
{"id": "C27", "title": "SimdMaskArray queries", "statement": "isFull/isEmpty/isMix/isNotEmpty/count/firstOne/toInt/operator[] of a mask array agree with the lanes: count is the number of true lanes, toInt has bit i set iff lane i, firstOne is the least true lane.", "quantifier": "every N (toInt: N <= 31), width list, mask", "why_tests_cant": "2^N masks", "anchors": ["Vc/common/simdmaskarray.h"]}
{"id": "C28", "title": "All masked gather strategies agree", "statement": "A masked gather (simple loop, bit-scan loop, popcount switch, zeroed-index) reads memory only at the indexes of active lanes (zeroed-index strategy: index 0 for inactive ones), sets active lanes to base[index] and keeps inactive ones.", "quantifier": "every mask, index vector, memory, vector width 2..16", "why_tests_cant": "exponential mask space, memory faults on inactive lanes are invisible", "anchors": ["Vc/common/gatherimplementation.h"]}
{"id": "C29", "title": "All masked scatter strategies agree for distinct indexes", "statement": "A masked scatter writes value[i] to base[index[i]] for exactly the active lanes and nothing else; for distinct active indexes the strategies give the same memory.", "quantifier": "every mask, index vector, memory", "why_tests_cant": "exponential", "anchors": ["Vc/common/scatterimplementation.h"]}
{"id": "C30", "title": "Duplicate scatter indexes: the highest lane wins", "statement": "If several active lanes of a scatter have the same index the value of the highest such lane ends up in memory.", "quantifier": "every mask and index vector", "why_tests_cant": "schedule-like dependence on strategy", "anchors": ["Vc/common/scatterimplementation.h"]}
{"id": "C31", "title": "Native sorted() sorting networks sort every input", "statement": "SSE and AVX/AVX2 Vector<T>::sorted() return the ascending permutation of the lanes; for float and double without NaN the numbers are those of the input in ascending order and every result entry is, bit for bit, an entry of the input (a +0 may come back as -0 if the input has both).", "quantifier": "every lane contents of every linear order (ints, unsigned, non-NaN floats)", "why_tests_cant": "2^128..2^256 inputs", "anchors": ["src/sse_sorthelper.cpp", "src/avx_sorthelper.cpp"]}
{"id": "C32", "title": "Interleaved memory access: gather/scatter of structs round-trips and has the right frame", "statement": "(v0,..,vk) = wrapper[idx] yields v_j[l] = data[idx[l]*StructSize+j]; wrapper[idx] = (v0,..,vk) writes exactly these cells; for distinct indexes the two are inverse.", "quantifier": "every data, index vector, number of members 2..8", "why_tests_cant": "shuffle networks over all lanes and contents", "anchors": ["Vc/sse/detail.h: InterleaveImpl", "Vc/scalar/detail.h: InterleaveImpl", "Vc/common/interleavedmemory.h"]}
{"id": "C33", "title": "Interleaved reads stay inside the addressed structs", "statement": "Reading (v0..vk) = wrapper[idx] reads only memory belonging to the addressed structs.", "quantifier": "every idx, member count", "why_tests_cant": "an over-read of one element is invisible except under a guard page", "anchors": ["Vc/sse/detail.h: InterleaveImpl::deinterleave"]}
{"id": "C34", "title": "Unsigned comparison and min/max on signed hardware instructions", "statement": "Comparisons, min and max of unsigned 16/32/64-bit vectors (and signed min/max without SSE4.1) equal the integer relation on each lane.", "quantifier": "all bit patterns", "why_tests_cant": "2^64 operand pairs per lane", "anchors": ["Vc/sse/intrinsics.h: cmpgt_epu16, cmplt_epu32, cmpgt_epi64, min_epu32, max_epi32, ...", "Vc/sse/vectorhelper.h", "Vc/avx/intrinsics.h: cmpgt_epu32, ...", "Vc/avx/vector.tcc: operator==, <, ..."]}
{"id": "C35", "title": "32-bit vector multiplication without SSE4.1 is exact modulo 2^32", "statement": "int_v/uint_v multiplication emulated with 32x32->64 multiplies gives the product modulo 2^32 in each lane in order.", "quantifier": "all operands", "why_tests_cant": "2^64 pairs per lane", "anchors": ["Vc/sse/detail.h: mul", "Vc/sse/vectorhelper.h", "Vc/avx/detail.h: mul, add, sub"]}
{"id": "C36", "title": "Mask conversions: toInt, count, load/store of bool arrays, casts between lane widths", "statement": "For native masks: toInt bit i = lane i; count = number of true lanes; storing to bool[] and loading back is the identity; casting a mask to another lane width keeps lane i; comparison, isFull/isEmpty/isMix, subscripts, firstOne, shifted and the logical operators agree with the truth values of the lanes.", "quantifier": "all masks", "why_tests_cant": "combinations of widths and masks", "anchors": ["Vc/sse/mask.h", "Vc/sse/mask.tcc", "Vc/sse/detail.h: mask_cast, mask_count, mask_to_int, mask_store, mask_load"]}
{"id": "C37", "title": "Blend and permute helpers select the lanes their template arguments name", "statement": "blend_epi16/ps/pd emulation, Mem::permute/permuteLo/permuteHi/permute128/permute4x64/shuffle/shuffle128/blend select per lane the source named by the arguments, for 128-bit and 256-bit registers.", "quantifier": "all immediates, all contents", "why_tests_cant": "256 immediates x contents", "anchors": ["Vc/sse/intrinsics.h: blend_epi16, blend_ps, blend_pd", "Vc/sse/shuffle.h", "Vc/avx/shuffle.h"]}
{"id": "C38", "title": "Native shifted/rotated/reversed move lanes correctly", "statement": "For native vectors: shifted(k), shifted(k,y), rotated(k), reversed() satisfy the same lane equations as for SimdArray.", "quantifier": "every k, every contents, every width", "why_tests_cant": "amounts outside +-2*Size are never tested", "anchors": ["Vc/sse/vector.tcc", "Vc/scalar/vector.h", "Vc/avx/vector.tcc: shifted, rotated, interleaveLow, interleaveHigh, reversed, broadcast", "Vc/avx/detail.h: shifted, rotated"]}
{"id": "C39", "title": "Integer vector division and remainder equal the scalar operations", "statement": "/ and % of short_v, ushort_v, int_v and uint_v truncate toward zero exactly like scalar division for every nonzero divisor (and -32768/-1 wraps), with SSE and AVX2.", "quantifier": "all operand pairs with nonzero divisor", "why_tests_cant": "2^32 pairs: exactness of the float path is a rounding argument", "anchors": ["Vc/sse/vector.tcc: operator/", "Vc/sse/vectorhelper.h: concat", "Vc/avx/detail.h: div", "Vc/avx/vector.tcc: operator/, operator%"]}
{"id": "C40", "title": "Population count and bit-scan helpers", "statement": "The popcount fallbacks return the number of set bits for every 4/8/16/32-bit mask.", "quantifier": "all inputs", "why_tests_cant": "2^32 inputs", "anchors": ["Vc/sse/detail.h: popcnt4, popcnt8, popcnt16, popcnt32"]}
{"id": "C41", "title": "Masked reductions of native vectors", "statement": "v.min(m)/max(m)/sum(m)/product(m) equal the fold over the active lanes (at least one active), v.min()/max()/sum()/product() the fold over all lanes, and entry i of v.partialSum() is the sum of the entries 0 to i.", "quantifier": "all contents and masks", "why_tests_cant": "tests only use non-negative values", "anchors": ["Vc/sse/vector.tcc: min/max/product/sum(MaskArg)", "Vc/avx/vector.tcc", "Vc/limits"]}
{"id": "C42", "title": "Reported best implementation is supported", "statement": "bestImplementationSupported() always names an implementation for which isImplementationSupported() is true, and no x86 implementation above it is supported unless a lower one is missing.", "quantifier": "all CPUID/XGETBV register contents", "why_tests_cant": "depends on CPU model", "anchors": ["src/support_x86.cpp"]}
{"id": "C43", "title": "CPU family and model are decoded per the CPUID specification", "statement": "processorFamily()/processorModel() equal family + extended family and model + 16*extended model as CPUID defines.", "quantifier": "all register contents", "why_tests_cant": "depends on CPU model", "anchors": ["src/cpuid.cpp: CpuId::init", "Vc/cpuid.h"]}
{"id": "C44", "title": "AMD cache associativity comes from the matching register", "statement": "L2Associativity()/L3Associativity() on AMD decode ECX resp. EDX of leaf 0x80000006.", "quantifier": "all register contents", "why_tests_cant": "depends on CPU model", "anchors": ["src/cpuid.cpp: CpuId::init, CpuIdAmdAssociativityTable"]}
{"id": "C45", "title": "Random() values lie in [0,1)", "statement": "float_v::Random()/double_v::Random() produce only values in [0,1) and never NaN/inf, from every generator state; the generator state update is total.", "quantifier": "all generator states and histories", "why_tests_cant": "2^64 states, arbitrary history", "anchors": ["Vc/scalar/vector.tcc: Random", "Vc/sse/vector.tcc: Random"]}
{"id": "C46", "title": "Floating-point bit operations", "statement": "copysign, abs, negation, isnan, isinf, isfinite, isnegative on vectors agree with the IEEE-754 meaning of the bit pattern for every bit pattern.", "quantifier": "all 2^32 / 2^64 bit patterns", "why_tests_cant": "too many patterns incl. NaN payloads and signed zeros", "anchors": ["Vc/scalar/math.h: copysign", "Vc/sse/math.h", "Vc/sse/vector.tcc: isnegative"]}
{"id": "C47", "title": "Index scaling of interleaved memory access", "statement": "wrapper[idx] addresses element idx*StructSize, whichever of the shift/multiply code paths is used; the debug uniqueness check accepts exactly duplicate-free index vectors.", "quantifier": "all struct sizes and indexes (no 32-bit overflow)", "why_tests_cant": "special cases by struct size", "anchors": ["Vc/common/interleavedmemory.h: InterleavedMemoryReadAccess, CheckIndexesUnique", "Vc/common/types.h: SuccessiveEntries"]}
{"id": "C48", "title": "simdize: scattering objects into lanes and extracting them round-trips", "statement": "For a simdized class, assign(v,i,x) followed by extract(v,i) returns x and leaves the other objects unchanged; swap exchanges two objects (also v[i] with v[j] of one vector); the broadcast and generator constructors, load_interleaved and store_interleaved place object i of the sequence in lane i of every member; where(mask) assignments change exactly the selected objects; shifted(s) applies shifted(s) to every member, so that object i becomes object i+s or the zero object (power-of-two number of lanes).", "quantifier": "all member types (vectors and masks of any width and configuration), lanes, contents", "why_tests_cant": "arbitrary user structures", "anchors": ["Vc/common/simdize.h: assign, extract, swap, shifted, Adapter, load_interleaved, store_interleaved, where"]}
{"id": "C49", "title": "Memory: filling and copying from raw memory", "statement": "m = v and m.setZero() set every stored entry e to lane e mod Size of the vector (to zero); m = pointer copies exactly entriesCount() entries from the pointer, reads nothing behind them and leaves the padding alone.", "quantifier": "all sizes, contents, vector sizes", "why_tests_cant": "Loop bounds for arbitrary sizes; over-reads are silent.", "anchors": ["Vc/common/memorybase.h: MemoryBase::operator=, setZero"]}
{"id": "C50", "title": "Supported extra instructions", "statement": "currentImplementationSupported() / isImplementationSupported<Impl>() for code compiled for a base implementation with extra instruction sets is true exactly if the base implementation is supported and the CPU has every one of the extra sets.", "quantifier": "all feature words, CPUID register contents", "why_tests_cant": "depends on CPU model", "anchors": ["Vc/support.h: isImplementationSupported", "Vc/global.h: ImplementationT::runs_on", "src/support_x86.cpp: extraInstructionsSupported"]}
{"id": "C51", "title": "Intel cache parameters", "statement": "On processors with CPUID leaf 4 the reported L1/L2/L3 sizes, line sizes and associativities are those of the enumerated caches of that level: ways*partitions*line*sets; enumeration stops at the first cache of type 0.", "quantifier": "all lists of sub-leaves whose sizes fit int", "why_tests_cant": "depends on CPU model", "anchors": ["src/cpuid.cpp: CpuId::init (leaf 4 loop)", "Vc/cpuid.h"]}
{"id": "C52", "title": "Integer conversions between native vectors", "statement": "Converting native integer vectors (simd_cast, with or without offset, from one to four vectors, within and between SSE and AVX2; implicit and explicit conversion; the extension helpers of converting loads) converts every component like the C++ conversion of the underlying types and keeps the order of the components.", "quantifier": "all bit patterns, all instruction sets", "why_tests_cant": "2^32 values per lane, different code per instruction set", "anchors": ["Vc/sse/simd_cast.h", "Vc/sse/casts.h: convert", "Vc/sse/intrinsics.h: cvtepi8_epi16, ...", "Vc/sse/vectorhelper.h: expand0, expand1", "Vc/avx/simd_cast.h", "Vc/avx/casts.h: convert"]}
{"id": "C53", "title": "Negation and absolute value of integer vectors", "statement": "-v and abs(v) give in each lane the negated number / the absolute value (modulo 2^w for the smallest number), whichever instruction set is used.", "quantifier": "all bit patterns, all instruction sets", "why_tests_cant": "2^32 values per lane, different code per instruction set", "anchors": ["Vc/sse/detail.h: negate", "Vc/sse/intrinsics.h: abs_epi8, abs_epi16, abs_epi32", "Vc/avx/detail.h: negate, abs"]}
{"id": "C54", "title": "Floating-point comparisons, minimum and maximum", "statement": "==, !=, <, <=, >, >= of float_v and double_v give in each lane the IEEE-754 result (every ordered comparison with a NaN is false, != is true); min and max return one of the operands, the smaller resp. larger number, and the second operand if there is a NaN.", "quantifier": "all bit patterns, SSE and AVX, every compiler path", "why_tests_cant": "NaN, infinities and signed zeros in every combination; the operators are implemented by different predicates per compiler and instruction set.", "anchors": ["Vc/sse/vector.h: operator== ...", "Vc/avx/vector.tcc: operator>=", "Vc/avx/intrinsics.h: cmpge_ps ...", "Vc/sse/vectorhelper.h: min, max"]}
{"id": "C56", "title": "trunc, floor, ceil and round", "statement": "trunc, floor, ceil of float_v and double_v return in each lane exactly the truncated number, the greatest integer not above and the least integer not below it, round the nearest integer with ties to even; infinities and NaNs stay; for every float and whichever instruction set is used.", "quantifier": "all bit patterns, all instruction sets, scalar implementation", "why_tests_cant": "2^32 / 2^64 inputs with special cases around powers of two and ties; code path selected at compile time.", "anchors": ["Vc/sse/math.h: trunc, floor, ceil", "Vc/sse/vectorhelper.h: round", "Vc/avx/math.h: trunc, floor, ceil", "Vc/scalar/math.h: round"]}
{"id": "C59", "title": "Subscript expressions with index vectors address the named objects", "statement": "A gather from, or scatter to, data[idx][&S::member][j][idx2]... accesses for component l the object data[idx[l]].member[j][idx2[l]]..., for every nesting of structs and arrays, whichever way the scale factor is applied (index vector arithmetic, scalar arithmetic, gather instruction).", "quantifier": "every sequence of subscripts, all struct layouts, all index vectors whose offsets fit the index type", "why_tests_cant": "unbounded family of nested types; compile-time arithmetic on sizes", "anchors": ["Vc/common/subscript.h: SubscriptOperation, applyScale, applyScaleAndAdd", "Vc/common/detail.h: convertIndexVector", "Vc/sse/vector.tcc, Vc/avx/vector.tcc, Vc/avx/vector.h: gatherImplementation"]}
{"id": "C61", "title": "simdize<T>: types with consistent number of lanes", "statement": "simdize<T, N> of every (nested) class template instance is defined, all vectors and masks that replace arithmetic types and bool have the same number of lanes, which is N if N is given and otherwise that of the native vector of the first vectorizable type, types that contain nothing vectorizable stay as they are, and replacing vectors by their scalars gives T again.", "quantifier": "every type built from arithmetic types, bool, other types and class templates", "why_tests_cant": "infinite family of types, template metaprogram", "anchors": ["Vc/common/simdize.h: ReplaceTypes, SubstituteOneByOne, determine_matching_size"]}
{"id": "C62", "title": "Simdized iterators traverse the sequence in vectors", "statement": "*it is the vector of the N objects from the position of it on; assigning to *it (or leaving the scope of it->) writes back exactly these objects; ++, --, +, - move by N objects; ==, <, <=, >, >= are a consistent order; loops with != and < visit every complete vector exactly once and access no element behind the end; it[i] = x writes the i-th vector.", "quantifier": "all sequences, positions, vector sizes and element types", "why_tests_cant": "loop bounds for arbitrary sizes; dangling references are silent", "anchors": ["Vc/common/simdize.h: IteratorDetails::Iterator, Reference, Pointer, fromIterator"]}
{"id": "C57", "title": "frexp, ldexp and exponent", "statement": "frexp splits every finite number exactly into r with 0.5 <= |r| < 1 and a power of two, leaves zeros, infinities and NaNs; ldexp(x, e) is exactly x * 2^e whenever that is representable, infinities and NaNs stay; ldexp undoes frexp; exponent(x) of a positive x is the integer e with 2^e <= x < 2^(e+1).", "quantifier": "all bit patterns, all exponents, float and double, Scalar, SSE, AVX with and without AVX2", "why_tests_cant": "2^32 / 2^64 inputs times 2^32 exponents; denormal numbers and overflow are usually not sampled", "anchors": ["Vc/sse/math.h: frexp, ldexp", "Vc/avx/math.h: frexp, ldexp", "Vc/sse/vector.tcc, Vc/avx/vector.tcc, Vc/scalar/vector.tcc: exponent"]}
{"id": "C55", "title": "Conversions between floating-point and integer vectors, and between float and double", "statement": "Converting a floating-point vector to an integer vector gives in each lane the number without its fraction, whenever the integer type can hold that; converting an integer vector gives the nearest floating-point number (ties to even), the exact number if the target format can hold it; double to float gives the nearest float, float to double the same number, infinities and NaN stay. The lanes of several source vectors keep their order. With every instruction set.", "quantifier": "all bit patterns of all source vectors, float/double from and to int/uint/short/ushort, one to four source vectors, SSE2 to AVX2", "why_tests_cant": "2^32 / 2^64 inputs per lane, the code for unsigned types splits the range and rounds twice; the path depends on the instruction set and on the compiler", "anchors": ["Vc/sse/casts.h: convert", "Vc/avx/casts.h: convert", "Vc/sse/simd_cast.h, Vc/avx/simd_cast.h: simd_cast"]}
{"id": "C58", "title": "Masked compound assignment", "statement": "x(mask) op= y and where(mask) | x op= y give in lanes whose mask entry is set the result of the operator and leave all other lanes as they are, for +=, -=, *=, /=, %=, &=, |=, ^=, <<=, >>= with a vector or an int, ++ and --; operands in lanes whose mask entry is not set do not matter.", "quantifier": "all operands and masks, all integer vectors (SSE2 to AVX2, Scalar) and float_v, double_v", "why_tests_cant": "all operand values in inactive lanes, signed zeros; the trap depends on lanes the result does not depend on", "anchors": ["Vc/common/writemaskedvector.h", "Vc/common/where.h: MaskedLValue", "Vc/sse/vector.h, Vc/avx/vector.h, Vc/scalar/vector.h: conditional_assign, assign", "Vc/sse/vector.tcc, Vc/avx/vector.tcc: operators, setZeroInverted"]}
{"id": "C64", "title": "fma rounds once", "statement": "fma(a, b, c) returns in each lane a * b + c without rounding between the multiplication and the addition: the number of the format nearest to the exact value, with infinities and NaN as IEEE-754 prescribes; for integers a * b + c modulo 2^w. Also on targets without FMA instructions.", "quantifier": "all bit patterns of the three operands, float_v, double_v and the integer vectors, SSE and AVX without FMA instructions", "why_tests_cant": "2^96 / 2^192 operand triples; wrong results are those where rounding twice differs from rounding once", "anchors": ["Vc/sse/vectorhelper.h: fma", "Vc/avx/detail.h: fma", "Vc/sse/math.h, Vc/avx/math.h: fma", "src/const.cpp: highMaskDouble"]}
{"id": "C63", "title": "AVX masks agree with their lanes", "statement": "For every AVX mask: toInt, count, firstOne, operator[], isEmpty/isNotEmpty/isFull/isMix, ==, !=, &&, ||, ^, ! describe exactly the truth values of the lanes; store writes one bool per lane and load reads them back; generate(f) has lane i equal to f(i); shifted(n) moves lane i + n to lane i and fills with false; simd_cast between masks of any lane count (AVX to AVX, SSE to AVX, AVX to SSE, scalar, several to one, with offset) keeps the lanes in order and makes lanes without a source false.", "quantifier": "all masks of 4, 8 and 16 lanes, with and without AVX2 and popcnt, all shift amounts, all pairs of lane counts, all compilers", "why_tests_cant": "2^16 masks for each of about 60 casts; the wrong lanes depend on the contents of the upper half of a register, which tests do not control", "anchors": ["Vc/avx/mask.h", "Vc/avx/mask.tcc", "Vc/avx/detail.h: mask_cast, mask_store, mask_load, mask_to_int, shifted", "Vc/avx/simd_cast.h: mask casts", "Vc/avx/casts.h: zeroExtend"]}
{"id": "C65", "title": "transpose", "statement": "tie(r0, r1, r2, r3) = transpose(x0, x1, x2, x3) makes entry j of result i the entry i of operand j; transposing twice gives the operands back.", "quantifier": "all entries, SimdArray<T, 4> that is one native vector and SimdArray<T, 4> of four scalars, Scalar vectors", "why_tests_cant": "all entry values; the data flow through the nested halves of the arrays depends on the implementation", "anchors": ["Vc/common/transpose.h", "Vc/common/vectortuple.h", "Vc/common/simdarray.h: transpose_impl", "Vc/sse/vector.tcc: transpose_impl", "Vc/scalar/vector.tcc: transpose_impl"]}
{"id": "C66", "title": "deinterleave", "statement": "Vc::deinterleave(&a, &b, memory) makes entry i of a the entry 2 * i of the memory and entry i of b the entry 2 * i + 1, converted to the entry type of the vectors without changing the number. It reads the next 2 * V::Size entries and nothing else.", "quantifier": "all memory contents, all documented combinations of vector type and memory type, Scalar, SSE, AVX2", "why_tests_cant": "all 2^16 values of the 16-bit entries at each of 16 positions; the tests use numbers from -512 to 1023", "anchors": ["Vc/common/deinterleave.h", "Vc/sse/deinterleave.tcc", "Vc/avx/deinterleave.tcc", "Vc/scalar/helperimpl.h: deinterleave"]}
{"id": "C60", "title": "Gathers with AVX2 instructions", "statement": "With AVX2, gather(mem, indexes) and gather(mem, indexes, mask) of SSE and AVX2 vectors set lane i to mem[Scale * indexes[i]] (converted to the entry type for short_v and ushort_v from 8-bit and 16-bit integers), keep the lanes that are not selected by the mask, and read only the bytes of the selected entries.", "quantifier": "all memories (readable and unreadable bytes), indexes, masks, scales, 8-, 16-, 32- and 64-bit entries", "why_tests_cant": "needs arrays that end at an unmapped page; unsigned indexes above 2^31 need arrays of several GB", "anchors": ["Vc/sse/vector.h: gatherImplementation", "Vc/avx/vector.h: gatherImplementation", "Vc/sse/intrinsics.h: gather", "Vc/avx/intrinsics.h: gather", "Vc/common/gatherinterface.h"]}
{"id": "C67", "title": "Position of the minimum and maximum", "statement": "minIndex() and maxIndex() of an AVX vector return a vector with the minimum (maximum) in every entry and the first position at which it occurs.", "quantifier": "all contents, all six entry types, with and without AVX2", "why_tests_cant": "8 or 16 entries of 2^16 to 2^64 values each, ties in all positions; there is no test of these functions", "anchors": ["Vc/avx/vector.tcc: minIndex, maxIndex", "Vc/avx/vector.h: minIndex, maxIndex"]}
{"id": "C68", "title": "Loads with conversion", "statement": "V(mem, flags) and v.load(mem, flags) set entry i of the vector to mem[i] converted to the entry type, for every memory type load accepts. Only the V::Size entries are read. Without Vc::Unaligned a pointer that is a multiple of V::MemoryAlignment is sufficient.", "quantifier": "all memories (readable and unreadable bytes), all addresses, all 2^k values of the entries, every pair of vector and memory type, every combination of Vc::Unaligned and Vc::Streaming, SSE and AVX with and without each instruction set extension", "why_tests_cant": "needs arrays that end at an unmapped page; 2^32 values per entry; the tests convert small integers only", "anchors": ["Vc/common/loadinterface.h", "Vc/sse/detail.h: load", "Vc/avx/detail.h: load", "Vc/sse/vectorhelper.h", "Vc/avx/vectorhelper.h"]}
{"id": "C69", "title": "Stores", "statement": "v.store(mem, flags) overwrites mem[i] with entry i for i < V::Size and changes no other byte. v.store(mem, mask, flags) overwrites exactly the entries whose mask entry is set, and does not access the others. A vector stored and loaded again is unchanged. Storing to an array of another arithmetic type converts.", "quantifier": "all memories, addresses, vectors and masks, every entry type, every combination of Vc::Unaligned and Vc::Streaming", "why_tests_cant": "that nothing else changes is a statement about all addresses; all 2^16 masks with inaccessible entries", "anchors": ["Vc/common/storeinterface.h", "Vc/sse/vectorhelper.h: store", "Vc/avx/vectorhelper.h: store", "Vc/avx/intrinsics.h: _mm256_maskstore, stream_store", "Vc/sse/vector.tcc: store", "Vc/avx/vector.tcc: store"]}
{"id": "C70", "title": "Vc::Allocator", "statement": "Vc::Allocator<T>::allocate(n) returns an array of n objects that is aligned for T and for vectors, can be accessed completely and shares no byte with any other array, or throws std::bad_alloc. Whatever the program writes to its arrays, deallocate is defined and returns the block to operator delete; what was written to the other arrays stays; nothing leaks.", "quantifier": "all sequences of allocations, deallocations and writes, for any mixture of types, all addresses operator new may return, all n", "why_tests_cant": "the set of executions is infinite, and the addresses are chosen by operator new; the test allocates a few vectors", "anchors": ["Vc/Allocator: allocate, deallocate, max_size"]}
{"id": "C71", "title": "makeContainer", "statement": "Vc::makeContainer<C>(list) returns a container with the smallest number of vectors that can hold the numbers of the list: entry j of vector k is number k * V::Size + j of the list, and the entries behind the last number are zero. The list can have any length.", "quantifier": "all lists of all lengths, all vector sizes, containers with an allocator (std::vector) and with a fixed size (std::array)", "why_tests_cant": "all lengths modulo the vector size on all implementations, and lists that make the loop bound wrap around", "anchors": ["Vc/common/makeContainer.h"]}
{"id": "C72", "title": "exp", "statement": "exp(x) of a float or double vector is, in every entry, the exponential function with a relative error of a few units in the last place (float: 2^-22, double: 2^-50), infinity where the exponential is beyond the format, 0 for -infinity, infinity for +infinity and NaN for NaN.", "quantifier": "all 2^32 (2^64) contents of every entry, SSE with every instruction set extension, AVX with and without AVX2", "why_tests_cant": "2^64 arguments and a result that can only be compared with the real exponential function", "anchors": ["Vc/common/exponential.h: exp", "Vc/common/math.h: exp", "src/const.cpp: c_log"]}
{"id": "C73", "title": "log, log2, log10", "statement": "log(x), log2(x) and log10(x) of a float or double vector are, in every entry with a positive argument (denormal or not), the logarithm with a relative error of a few units in the last place (float: 2^-22, double: 2^-50; twice that for the bases 2 and 10); in particular log(1) is exactly 0 and log2 of a power of two is exact. Zeros give -infinity, negative arguments NaN, +infinity gives +infinity and NaN gives NaN.", "quantifier": "all 2^32 (2^64) contents of every entry, SSE with every instruction set extension, AVX", "why_tests_cant": "2^64 arguments and a result that can only be compared with the real logarithm; near 1 the relative error is delicate", "anchors": ["Vc/common/logarithm.h: LogImpl::calc, log_series", "src/const.cpp: c_log", "Vc/common/writemaskedvector.h"]}
{"id": "C74", "title": "sin, cos, sincos: symmetry, special values, consistency", "statement": "sin is odd and cos is even, bit by bit and for every entry separately (changing the signs of some entries changes exactly these signs of the sine); sincos gives the same results as sin and cos; NaN and infinite arguments give NaN; sin(+-0) is that zero and cos(+-0) is 1; results are in [-1, 1] with the sign of the sine or cosine for every finite argument; the result of an entry does not depend on the other entries.", "quantifier": "all contents of float and double vectors, SSE with every instruction set extension, AVX, every way to compare", "why_tests_cant": "the path taken depends on all entries of the vector; the arguments where paths or signs differ are rare among 2^64", "anchors": ["src/trigonometric.cpp: Trigonometric::sin, cos, sincos", "src/trigonometric.cpp: foldInput, cosSeries, sinSeries"]}
{"id": "C75", "title": "sin, cos, sincos: accuracy", "statement": "For every finite argument of magnitude at most 2^27, sin(x), cos(x) and both results of sincos(x) differ from the sine and cosine of that number by at most 2^-22 (float) or 2^-51 (double), whatever the other entries of the vector are.", "quantifier": "all floats and doubles up to 2^27 in magnitude, all contents of the other entries, SSE with every instruction set extension, AVX, every way to compare", "why_tests_cant": "2^64 arguments and results that can only be compared with the real functions; the way the argument is reduced depends on all entries, and multiples of pi/2 are the delicate arguments", "anchors": ["src/trigonometric.cpp: foldInput, cosSeries, sinSeries", "src/trigonometric.cpp: Trigonometric::sin, cos, sincos"]}
{"id": "C76", "title": "sin, cos: documented precision in units in the last place", "statement": "As documented for arguments in [-8192, 8192], sin(x) and cos(x) differ from the sine and cosine of x by at most 2 (float) or 3 (double) units in the last place of that number.", "quantifier": "all floats and doubles up to 8192 in magnitude, all contents of the other entries, SSE with every instruction set extension, AVX", "why_tests_cant": "the distance near the zeros of sine and cosine depends on many digits of pi; tests sample a few of 2^64 arguments", "anchors": ["Vc/common/trigonometric.h: sin, cos (documentation)", "src/trigonometric.cpp: foldInput, cosSeries, sinSeries"]}
{"id": "C77", "title": "atan, atan2: special values and symmetry", "statement": "atan(x) is odd, bit by bit, gives back zeros with their sign, gives the number next to pi/2 with the sign of x for infinite x, and NaN for NaN. atan2(y, x) has the values of C99 (annex F) in all cases where an operand is zero or infinite: the sign of y, and the number next to 0, pi/4, pi/2, 3pi/4 or pi; it is NaN where an operand is NaN.", "quantifier": "all contents of float and double vectors, SSE with every instruction set extension, AVX with every way to compare, every entry whatever the others are", "why_tests_cant": "the special cases are combinations of sign, zero, infinity of two operands with 2^32 or 2^64 values of the other operand; several corrections are applied one after the other", "anchors": ["src/trigonometric.cpp: Trigonometric::atan, atan2", "src/const.cpp", "Vc/common/trigonometric.h: atan, atan2"]}
{"id": "C78", "title": "atan: documented precision in units in the last place", "statement": "atan(x) differs from the arcus tangens of x by at most 3 (float) or 2 (double) units in the last place of that number; this is documented for arguments in [-8192, 8192] and holds for every finite argument.", "quantifier": "all finite floats and doubles, whatever the other entries are, SSE with every instruction set extension, AVX with every way to compare", "why_tests_cant": "2^64 arguments and results that can only be compared with the real function; the largest errors are at a few arguments next to the limits of the ranges and just below the argument where the unit in the last place of the result changes", "anchors": ["Vc/common/trigonometric.h: atan (documentation)", "src/trigonometric.cpp: Trigonometric::atan"]}
{"id": "C79", "title": "atan2: precision for all finite points", "statement": "For finite y and x, atan2(y, x) is the angle between the positive x axis and the point (x, y), in all four quadrants, with a relative error of at most 2^-21 (float) or 2^-50 (double) and an absolute error in the range of denormal results; also where the quotient y / x is too large or too small for the type.", "quantifier": "all pairs of finite floats or doubles with y not zero or x positive (the other pairs are in C77), whatever the other entries are, SSE with every instruction set extension, AVX with every way to compare", "why_tests_cant": "2^128 pairs of arguments; the quotient can overflow, underflow or be denormal and every quadrant takes another path, and the error can only be seen against the real function", "anchors": ["Vc/common/trigonometric.h: atan2", "src/trigonometric.cpp: Trigonometric::atan2"]}
{"id": "C80", "title": "asin: special values and symmetry", "statement": "asin of a NaN, of an infinity or of a number outside [-1, 1] is a NaN; asin of a zero is that zero and asin of a number very close to zero is the number itself; asin(1) is the number next to pi/2; asin(-x) is exactly -asin(x).", "quantifier": "all bit patterns of the argument, whatever the other entries are, SSE with every instruction set extension, AVX with every way to compare", "why_tests_cant": "special values and symmetry over 2^32 and 2^64 bit patterns; unit tests compare a few arguments with a tolerance and do not see the sign of zero", "anchors": ["Vc/common/trigonometric.h: asin", "src/trigonometric.cpp: Trigonometric::asin"]}
{"id": "C81", "title": "asin: documented precision in units in the last place", "statement": "For x in [-1, 1], asin(x) differs from the arcus sinus of x by at most 2 (float) or 36 (double) units in the last place of that number.", "quantifier": "all floats and doubles in [-1, 1], whatever the other entries are, SSE with every instruction set extension, AVX with every way to compare", "why_tests_cant": "results can only be compared with the real function; near 1/2, where float switches to another formula, and near 1, where the function has no derivative, the errors of square root, polynomial and constant add up", "anchors": ["Vc/common/trigonometric.h: asin (documentation)", "src/trigonometric.cpp: Trigonometric::asin"]}
{"id": "C82", "title": "log, log2, log10: documented precision in units in the last place", "statement": "For every x in ]0, 1000], denormal numbers included, log(x) and log2(x) differ from the logarithm of x by at most 1 and log10(x) by at most 2 units in the last place of that logarithm, for float and for double.", "quantifier": "all positive finite floats and doubles (the range beyond 1000 included), whatever the other entries are, SSE with every instruction set extension, AVX", "why_tests_cant": "2^64 arguments and results that can only be compared with the real function; the largest errors occur next to the square root of two, where the argument reduction changes, and where the unit in the last place of the result changes", "anchors": ["doc/dox-math.h: log, log2, log10 (documentation)", "Vc/common/logarithm.h: LogarithmBase"]}
{"id": "C83", "title": "operators between a vector and a scalar of another type", "statement": "For a vector x and a scalar y of another arithmetic type (or an enumeration, or another vector), the type of x + y, x - y, x * y, x & y, x == y, ... is the one that C++ uses for scalars of these types, so that every entry of the result is the value of the C++ expression for that entry; the order of the operands does not matter; x += y leaves that value, converted to the type of the entries. There is no such operation if a value could lose its fraction or magnitude (an integer vector and a float, float_v and a double).", "quantifier": "all combinations of the native vector types with all arithmetic types and enumerations; all values of the entries and of the scalar", "why_tests_cant": "the rules are template metaprograms over sizes, ranks and signs for hundreds of pairs of types; tests check the resulting type of some pairs, and not that conversions of both operands leave all values as C++ has them", "anchors": ["Vc/common/operators.h: ReturnTypeImpl / FundamentalReturnType / Vc_GENERIC_OPERATOR", "Vc/traits/is_implicit_cast_allowed.h: is_implicit_cast_allowed"]}
{"id": "C84", "title": "sqrt, reciprocal, rsqrt: rounding and special values", "statement": "sqrt(x) is the correctly rounded square root: NaN for negative numbers, x itself for zeros and plus infinity, otherwise no number is closer to the root. reciprocal(x) of doubles is the correctly rounded 1/x with the sign of x: infinite for zeros (and where 1/x is too large), zero for infinities. rsqrt(x) of doubles is within 2.001 units in the last place of 1/sqrt(x) for every positive number, denormal ones included, infinite for zeros, zero for plus infinity, NaN for negative numbers.", "quantifier": "all bit patterns of the argument, whatever the other entries are, SSE and AVX of any number of entries, and the Scalar implementation", "why_tests_cant": "2^64 arguments; results are only compared with the standard library, within a tolerance, for some arguments", "anchors": ["doc/dox-math.h: sqrt, rsqrt, reciprocal (documentation)", "Vc/sse/vectorhelper.h: VectorHelper<double>::rsqrt / reciprocal", "Vc/avx/vectorhelper.h: VectorHelper<double>::rsqrt / reciprocal", "Vc/scalar/math.h: rsqrt / reciprocal"]}
{"id": "C85", "title": "span: parts, entries, iteration, comparison", "statement": "first, last and subspan of a span return exactly the requested part of its entries and never refer to memory outside of the array the span was made from, in debug builds: arguments that are out of range do not compile or fail an assertion, arguments in range are accepted. s[i] is entry i; iteration visits the entries in order (rbegin: in reverse order); == compares sizes and entries, < is the lexicographic order and the other comparisons follow from these; swap exchanges two spans.", "quantifier": "all arrays, all spans in them with static or dynamic extent, all arguments, all sequences of calls", "why_tests_cant": "arguments and sizes are unbounded and calls can be nested; a wrong check only shows with arguments that a correct program does not use", "anchors": ["Vc/common/span.h: span"]}
{"id": "C86", "title": "Rounding errors of floating-point sums and products", "statement": "sum(), sum(m) and each entry of partialSum() of float_v and double_v differ from the exact sum of the (active, preceding) entries by at most ((1 + u)^k - 1) times the sum of their absolute values, with u the relative error of one operation and k = log2 of the number of entries, as long as that sum is at most a quarter of the largest number; inactive or later entries may be anything (NaN, infinity). Sums are exact if the entries are multiples of a power of two whose factors add up to at most 2^24 (float) or 2^53 (double). product() and product(m) have a relative error of at most (1 + u)^(n - 1) - 1 if no intermediate result can overflow or underflow. sum() of a SimdArray combines every entry exactly once and has the error of n - 1 operations.", "quantifier": "all vectors of finite entries within the stated ranges, all masks; scalar, SSE and AVX vectors; SimdArrays of every size, with every way to reduce the native vectors that uses each entry once", "why_tests_cant": "the bound is about all combinations of roundings; tests compare some sums, usually of numbers whose sums are exact", "anchors": ["Vc/sse/vectorhelper.h: VectorHelper<float>::add, mul, VectorHelper<double>::add, mul", "Vc/sse/vector.tcc: sum, product, partialSum", "Vc/avx/detail.h: add, mul", "Vc/sse/detail.h: add, mul", "Vc/avx/vector.tcc: sum, product, partialSum", "Vc/scalar/vector.h: sum, product", "Vc/common/simdarray.h: sum, product"]}
{"id": "C87", "title": "call, apply, fill and callWithValuesSorted with any functor", "statement": "v.call(f) calls f once for every entry and v.apply(f) returns the vector of the results, in ascending order of the lanes, so that functors with state see the entries in that order; with a mask, exactly the active entries are used and apply keeps the others. v.fill(f) stores f(0), f(1), ... or the results of successive calls f(). apply of a SimdArray does the same over all its entries. v.callWithValuesSorted(f) calls f with the values of the entries from the minimum to the maximum.", "quantifier": "all functors with any internal state, all vectors, all masks; SSE, AVX and Scalar vectors, SimdArrays of every size", "why_tests_cant": "the claim is about all functors, including those that record or depend on the order of calls; the test of callWithValuesSorted only uses vectors that are sorted already", "anchors": ["Vc/sse/vector.h: call, apply, fill, callWithValuesSorted", "Vc/avx/vector.h: call, apply, fill, callWithValuesSorted", "Vc/scalar/vector.h: call, apply, fill", "Vc/common/vector.h: documentation", "Vc/common/types.h: unrolled_loop", "Vc/common/simdarray.h: apply"]}
{"id": "C88", "title": "v[i] behaves like a reference to a variable", "statement": "In any program, elements v[i] of vectors, masks, SimdArrays and mask arrays can be read, assigned (from values and from other elements), changed with op=, ++ and -- (prefix and postfix) and swapped with each other and with variables as if they were plain variables: every statement changes exactly the element it names, postfix operators return the old value, swap also works if both arguments are the same element or elements of the same object, and nothing else changes.", "quantifier": "all programs of such statements, all objects, all indexes (those out of range are undefined exactly where they would be for arrays), all operators", "why_tests_cant": "sequences of statements over aliased proxies are unbounded; tests use single statements", "anchors": ["Vc/common/elementreference.h: ElementReference", "Vc/sse/vector.h: get, set", "Vc/avx/vector.h: get, set", "Vc/sse/mask.h: get, set", "Vc/avx/mask.h: get, set", "Vc/common/simdarray.h: get, set", "Vc/common/simdmaskarray.h: get, set", "Vc/common/storage.h: Storage"]}
{"id": "C89", "title": "Stream output shows the contents", "statement": "The text that std::ostream << writes for a vector, mask, SimdArray, mask array or memory object of integers contains exactly the entries, in order, so that objects of the same type with the same text are equal; on a terminal the same text is shown, only colours are added; a memory object is written as documented, {[0, 1, 2, 3] [4, 5, 6, 7] [8, 9, 0, 0]}.", "quantifier": "all sizes and all contents of integers or truth values, streams to terminals and others, in their initial format", "why_tests_cant": "sizes and values are unbounded; a missing separator only shows for some sizes", "anchors": ["Vc/IO: operator<< for Vector, Mask, MemoryBase, SimdArray, SimdMaskArray"]}
{"id": "C90", "title": "Logical operators, complement, increment and decrement", "statement": "!v is the mask of the entries that are zero; v && w and v || w, also with a scalar on either side, is the mask that says for each entry what the C++ operator says about the two numbers (a NaN is true, both zeros are false). ~v flips every bit of every entry. ++v, --v, v++ and v-- add or subtract one in every entry (integers wrap around, floating-point numbers are rounded to nearest); the prefix forms return the new value, the postfix forms the old one.", "quantifier": "all contents of all entries, signed and unsigned integers of 16 and 32 bits, float and double; SSE, AVX with and without AVX2, Scalar; scalar operands of any arithmetic type", "why_tests_cant": "tests use a few values and do not cover NaN, negative zero or values whose low bits are zero for every entry type", "anchors": ["Vc/common/operators.h: Vc_LOGICAL_OPERATOR", "Vc/sse/vector.h: operator!, operator~, operator++, operator--", "Vc/avx/vector.h: operator!, operator~, operator++, operator--", "Vc/scalar/vector.h: operator!, operator~, operator++, operator--", "Vc/sse/mask.h: operator!, operator&&, operator||", "Vc/avx/mask.h: operator!, operator&&, operator||", "Vc/scalar/mask.h: operator!, operator&&, operator||"]}
{"id": "C91", "title": "Shift operators multiply and divide by powers of two", "statement": "v << c and v >> c of integer vectors give, in each entry, x * 2^c modulo 2^w and x / 2^c rounded towards minus infinity (arithmetic for signed, logical for unsigned entries), for every count 0 <= c < 32, also if c is larger than the number of bits of an entry; v << w and v >> w do the same with a count for each entry; <<= and >>= store this value.", "quantifier": "all entries, all counts 0 to 31 (with XOP: below the number of bits), all combinations of counts in a vector; int, uint, short, ushort; SSE with and without AVX2 or XOP, AVX with and without AVX2, Scalar", "why_tests_cant": "2^32 entries times all counts, for each instruction set that a machine may have; the AVX test machine has AVX2", "anchors": ["Vc/sse/vector.h: operator<<, operator>>", "Vc/sse/vector.tcc: operator<<, operator>>, operator<<=, operator>>=", "Vc/sse/vectorhelper.h: shiftLeft, shiftRight", "Vc/avx/vector.h: operator<<, operator>>", "Vc/avx/vector.tcc: operator<<, operator>>, operator<<=, operator>>=", "Vc/avx/detail.h: shiftLeft, shiftRight", "Vc/avx/intrinsics.h: Vc_AVX_TO_SSE_256_128"]}
{"id": "C92", "title": "Objects created with new are aligned and inside of their memory", "statement": "new T and new T[k] for the vector, mask, SimdArray and mask array classes and for classes derived from VectorAlignedBase or MemoryAlignedBase return objects that lie inside of the memory that was allocated for them and whose addresses are multiples of alignof(T); delete and delete[] give back the address that was allocated; if there is no memory std::bad_alloc is thrown. All native vectors inside of the objects are aligned to their size.", "quantifier": "all classes and SimdArray sizes, all array lengths, all addresses that posix_memalign may return", "why_tests_cant": "an allocator usually returns addresses that are better aligned than necessary; running out of memory cannot be provoked reliably", "anchors": ["Vc/common/macros.h: Vc_FREE_STORE_OPERATORS_ALIGNED", "Vc/common/malloc.h: aligned_malloc", "Vc/common/alignedbase.h: AlignedBase, max", "Vc/common/simdarray.h: Vc_FREE_STORE_OPERATORS_ALIGNED, MemoryAlignment", "Vc/common/simdmaskarray.h", "Vc/sse/vector.h", "Vc/avx/vector.h", "Vc/common/writemaskedvector.h", "Vc/common/utility.h: BoundedAlignment"]}
{"id": "C93", "title": "Version numbers and the check at program start", "statement": "Vc_VERSION_CHECK orders versions as they were released, and Vc_VERSION_NUMBER of a development version comes between the release it is named after and all later ones. A program reaches main only if all translation units were compiled with headers of the version of the library.", "quantifier": "all versions with minor < 256 and patch < 128; all programs of any number of translation units", "why_tests_cant": "the check is about combinations of versions of headers and libraries, most of which do not exist yet", "anchors": ["Vc/version.h: Vc_VERSION_NUMBER, Vc_VERSION_CHECK, runLibraryAbiCheck", "src/const.cpp: checkLibraryAbi"]}
{"id": "C94", "title": "Vc::array behaves like an array", "statement": "a[n], at(n), data()[n], std::get<n>(a), front() and back() of a Vc::array refer to the entries of an array of Size entries; at throws exactly for n >= Size; fill and assignments change the entries they name and no others; iterators visit the entries in order or in reverse order; comparisons are entry by entry or lexicographic; swap exchanges two arrays.", "quantifier": "all sizes including zero, all contents, all programs of such statements", "why_tests_cant": "sizes and programs are unbounded; member functions of templates that no test calls are never instantiated", "anchors": ["Vc/array"]}
{"id": "C95", "title": "Containers in gather and scatter expressions; deprecated gathers and scatters", "statement": "An expression container[indexes]... compiles only if the container has contiguous storage, and then accesses for every component the object that the path selects from element indexes[l]; nested objects can be subscripted only if they store their elements inside; the assertion of debug builds fails only for containers without contiguous storage. The deprecated gather and scatter functions with pointers to members access array[i].*member1, array[i].*member1.*member2 and array[i].*ptrMember1[j].", "quantifier": "all container types that the standard library and Vc provide, also below AdaptSubscriptOperator, all addresses and sizes, all indexes in range, all paths of members and elements", "why_tests_cant": "whether a container type is accepted is a property of types, and the wrong address differs from the right one only for large containers", "anchors": ["Vc/common/subscript.h: subscript_operator, SubscriptOperation", "Vc/traits/has_contiguous_storage.h", "Vc/traits/has_no_allocated_data.h", "Vc/common/gatherinterface_deprecated.h", "Vc/common/scatterinterface_deprecated.h", "Vc/vector", "Vc/array"]}
{"id": "C96", "title": "Constants, generated vectors and initializer lists", "statement": "Zero() and One() are vectors of zeros and ones, entry i of IndexesFromZero() is i, for every entry type. generate(f) calls f once for each entry, in ascending order, and entry i is the result of f(i) converted to the entry type. SimdArray<T, N>{v0, v1, ...} with N values has these values as entries; with another number of values an assertion fails.", "quantifier": "all entry types and SimdArray sizes, all addresses at which the tables of constants may be placed, all functors with state of their own or shared state, all lists", "why_tests_cant": "where constants are placed changes from one link to the next; the functors and their states are unbounded", "anchors": ["Vc/common/generalinterface.h", "Vc/sse/vector.tcc: Zero, One, IndexesFromZero, generate", "Vc/avx/vector.tcc: Zero, One, IndexesFromZero, generate", "Vc/avx/const.h: IndexesFromZero", "src/const.cpp: _IndexesFromZero16, _IndexesFromZero32", "Vc/common/simdarray.h: SimdArray(VectorSpecialInitializerIdxZ), generate, SimdArray(initializer_list)"]}
{"id": "C97", "title": "Caches of Intel processors from CPUID leaf 2", "statement": "For Intel processors that describe their caches in leaf 2, L1Instruction(), L1Data(), L2Data(), L3Data(), the line sizes and the associativities are those that the manual gives for the descriptors in the registers; zero if there is no descriptor; prefetch() is 64 or 128 with the descriptors F0 and F1, else 32. Registers with bit 31 set and the byte that says how often to execute CPUID are no descriptors. With the descriptor FF or without any register content the caches are those of leaf 4.", "quantifier": "all contents of the registers, any number of executions of CPUID, all orders of descriptors", "why_tests_cant": "a test sees the descriptors of one processor", "anchors": ["src/cpuid.cpp: CpuId::init, CpuId::interpret", "Vc/cpuid.h: L1Instruction, L1Data, L2Data, L3Data, L1Associativity, L2Associativity, L3Associativity, prefetch"]}
{"id": "C98", "title": "Load/store flags", "statement": "A combination of load/store flags with | asks for unaligned (streaming) access if and only if Unaligned (Streaming) is one of the flags; order, grouping and repetition do not matter and Aligned is neutral. For every combination exactly one load, one store and one prefetch function is selected. Prefetch flags prefetch the address plus the first stride into the first-level and plus the second stride into the second-level cache; of several prefetch flags the leftmost counts; without one nothing is prefetched.", "quantifier": "all expressions of flags of any length, all strides and addresses", "why_tests_cant": "the combinations are unbounded; a wrong combination still loads the right values on aligned memory, and prefetches have no visible effect", "anchors": ["Vc/common/loadstoreflags.h", "Vc/common/x86_prefetches.h", "Vc/sse/vectorhelper.h: load, store", "Vc/avx/vectorhelper.h: store"]}
{"id": "C99", "title": "index arguments of gathers and scatters", "statement": "Entry i of a gather or scatter accesses the object at the i-th index of the argument, whatever integer type the indexes have (short, unsigned short, char ... are promoted without loss). An index argument may be any object with a subscript operator and enough indexes: SIMD vectors, C arrays and pointers, std::array, Vc::array, std::vector, ... If the type of the argument tells how many indexes there are, a program with too few is rejected at compile time.", "quantifier": "all index containers of all integer types, all index values, all numbers of entries, member functions and subscripts, gathers and scatters", "why_tests_cant": "whether a program is rejected is not observable by a test that has to compile; tests use a few index types with small values", "anchors": ["Vc/common/detail.h: convertIndexVector", "Vc/common/gatherinterface.h: gather / Vc_ASSERT_GATHER_PARAMETER_TYPES_", "Vc/common/scatterinterface.h: scatter", "Vc/common/subscript.h: IndexVectorSizeMatches / SubscriptOperation"]}
{"id": "C100", "title": "numeric limits of vector types", "statement": "For every vector type V with entries of type T and every function f of std::numeric_limits (max, min, lowest, epsilon, round_error, infinity, quiet_NaN, signaling_NaN, denorm_min), all entries of std::numeric_limits<V>::f() are std::numeric_limits<T>::f().", "quantifier": "all native vector types of SSE, AVX2 and Scalar, SimdArray and fixed_size_simd of any size, all entries, all functions", "why_tests_cant": "a vector type without a specialization compiles and silently returns zeros; which types have one depends on the headers that are included and on the build", "anchors": ["Vc/limits: numeric_limits<Vc::Vector<T>>", "Vc/sse/limits.h: numeric_limits", "Vc/avx/limits.h: Vc_NUM_LIM", "Vc/common/simdarray.h: numeric_limits<Vc::SimdArray>"]}
{"id": "C101", "title": "functors of simd_for_each", "statement": "simd_for_each accepts every functor that can be called with vectors of the value type. What the functor does to its argument is stored in the range exactly if its parameter is a reference to a variable (auto &, auto &&); otherwise the range is left as it is. The functor sees the range in order, in vectors of the full width and then in single elements.", "quantifier": "all call operators (templates, single functions, overloads, function pointers), all forms of the parameter, all widths, ranges, functors with state", "why_tests_cant": "the decision is made by overload resolution on pointers to members; tests check the trait for some lambdas with an int, not what happens to the range, and cannot check that a valid program is accepted", "anchors": ["Vc/traits/is_functor_argument_immutable.h: is_functor_argument_immutable", "Vc/common/algorithms.h: simd_for_each"]}
{"id": "C102", "title": "the implementation selected at compile time", "statement": "Without Vc_IMPL the headers select the best instruction set the compiler flags enable, with Vc_IMPL=<set>+<extra>+... exactly the requested one (for SSE the best SSE version), and an invalid value of Vc_IMPL is rejected. Vc::CurrentImplementation names every extra instruction set whose code is compiled, so that a program for which currentImplementationSupported() is true uses no instruction the CPU lacks. The default ABI and the macros Vc_FLOAT_V_SIZE etc. fit the selected instruction set.", "quantifier": "all combinations of predefined macros, all values of Vc_IMPL (any sum of names), all CPUs", "why_tests_cant": "the selection happens in the preprocessor, once per compilation; a test program sees one combination out of 2^16 compiler settings times all requests, and runs only on a CPU that can run it", "anchors": ["Vc/global.h: Vc_IMPL, Vc_IMPL_*, CurrentImplementation, ImplementationT", "Vc/support.h: currentImplementationSupported", "Vc/common/vectorabi.h: DeduceBest", "Vc/avx/types.h, Vc/sse/types.h, Vc/scalar/types.h: Vc_FLOAT_V_SIZE", "doc/dox.h: Vc_IMPL"]}
{"id": "C103", "title": "setZero, setZeroInverted and setQnan", "statement": "x.setZero() makes all entries zero, x.setZero(k) those where k is true, x.setZeroInverted(k) those where k is false, x.setQnan() and x.setQnan(k) make the entries quiet NaNs (floating-point vectors). All other entries keep their value bit for bit, also NaNs and negative zeros.", "quantifier": "all SIMD vectors, Scalar vectors and SimdArray sizes, all values and masks", "why_tests_cant": "the claim is about all bit patterns of the entries, NaNs with payload included; tests that compare floating-point entries cannot see which NaN an entry holds", "anchors": ["Vc/sse/vector.tcc: setZero, setZeroInverted, setQnan", "Vc/avx/vector.tcc: setZero, setZeroInverted, setQnan", "Vc/scalar/vector.h: setZero, setZeroInverted", "Vc/scalar/vector.tcc: setQnan", "Vc/common/simdarray.h: setZero, setZeroInverted, setQnan"]}
{"id": "C104", "title": "all_of, any_of, none_of, some_of", "statement": "For every mask and for bool: all_of(m) says whether all entries are true, any_of(m) whether at least one is true, none_of(m) whether all are false, some_of(m) whether there are true and false entries; so none_of is the negation of any_of, and some_of is any_of without all_of, in code that is generic over masks and bool. The functions of Scalar masks agree with their entry.", "quantifier": "all masks of SSE, AVX, Scalar and SimdMaskArray, of every size, and bool", "why_tests_cant": "2^N masks for every N, and generic code is compiled for one implementation at a time", "anchors": ["Vc/common/mask.h: all_of, any_of, none_of, some_of", "Vc/scalar/mask.h", "Vc/sse/mask.h", "Vc/avx/mask.tcc", "Vc/common/simdmaskarray.h"]}
{"id": "C105", "title": "fpclassify", "statement": "fpclassify(x) returns a SimdArray<int> with as many entries as x; entry i is FP_NAN, FP_INFINITE, FP_ZERO, FP_SUBNORMAL or FP_NORMAL exactly when entry i of x is a NaN, infinite, zero of either sign, a nonzero number smaller in magnitude than the smallest normal number, or any other finite number. isnan, isinf and isfinite of native vectors agree with it in every lane.", "quantifier": "all native vectors of float and double, all SimdArrays of every size, all bit patterns", "why_tests_cant": "2^32 and 2^64 patterns per lane, and the native sizes of the int result differ from those of the argument, so the lanes of a SimdArray are regrouped", "anchors": ["Vc/common/math.h: fpclassify", "Vc/common/simdarray.h: SimdArray(const G &gen)", "Vc/common/generalinterface.h"]}
{"id": "C106", "title": "Assigning a subscript expression to a tuple of vectors", "statement": "Vc::tie(v0, ..., vk) = data[indexes][&S::member]... sets component l of vj to the entry j positions after the object that data[indexes[l]].member... names, for every nesting of members and arrays and every size of the structs.", "quantifier": "all vector types, 2 to 8 vectors, all indexes of type int, all nestings and sizes, all memories", "why_tests_cant": "the scale of the indexes is chosen at compile time from the sizes of the types, the tests only assign interleaved memory wrappers to tuples", "anchors": ["Vc/common/vectortuple.h: VectorReferenceArray::operator=(SubscriptOperation)", "Vc/common/subscript.h: gatherArguments, need_explicit_scaling", "Vc/common/interleavedmemory.h: InterleavedMemoryReadAccess"]}
{"id": "C107", "title": "frexp and ldexp of SimdArray", "statement": "frexp(x, &e) of a SimdArray sets component i of the result and of e to the mantissa and exponent of component i of x, ldexp(x, e) combines component i of x with component i of e, and ldexp(frexp(x, &e), e) gives x back whenever the functions of the components do. This holds although the SimdArray of int is divided into native vectors at other places than the SimdArray of float or double.", "quantifier": "all sizes, all native sizes of the two types, all functions of the components, all contents of e before the call", "why_tests_cant": "the division into native vectors depends on the target, and every combination of sizes is its own template instantiation that reads or writes parts of a native vector of exponents", "anchors": ["Vc/common/simdarray.h: frexp, ldexp, fromOperation", "Vc/common/simdarrayhelper.h: Segment, Split::lo, Split::hi"]}
{"id": "C108", "title": "Gathers without gather instructions", "statement": "With SSE and AVX, gather(mem, indexes) sets entry i to mem[Scale * indexes[i]], converted from the type of the memory to the entry type as static_cast does, for all vector types, types of memory and index types; exactly the bytes of these entries are read.", "quantifier": "all memories, indexes, scales, types of memory, index types and conversions, all native vector types, with and without inline assembler", "why_tests_cant": "arbitrary indexes and memory contents; the eight 16-bit entries are packed by shifts and inserts, differently by compiler and target", "anchors": ["Vc/sse/vector.tcc: gatherImplementation", "Vc/avx/vector.tcc: gatherImplementation", "Vc/common/set.h: set"]}
{"id": "C109", "title": "Type traits", "statement": "is_simd_vector and is_simd_mask are true exactly for vector and mask types, of every implementation and size and with all qualifiers and references. is_integral, is_floating_point, is_signed, is_unsigned and is_arithmetic are those of the entry type for vectors, those of the standard library for arithmetic types, and false for all other types. entry_type_of and scalar_type give the entry type of vectors and leave other types alone. simd_vector_size is the number of entries of vectors and masks and 0 for types that are not SIMD types.", "quantifier": "all arithmetic types, implementations, numbers of entries, qualifiers and references", "why_tests_cant": "the traits are families of template specializations for infinitely many types", "anchors": ["Vc/traits/type_traits.h", "Vc/traits/entry_type_of.h", "Vc/common/simdarrayfwd.h: is_..._internal", "Vc/sse/types.h", "Vc/avx/types.h", "Vc/scalar/types.h"]}
