import Verif.Model.Avx
import Verif.Model.SseMask

/-!
Masks of the AVX implementation: 256 bits in lanes of 16, 32 or 64 bits
(/repo/Vc/avx/mask.h, mask.tcc, detail.h, simd_cast.h).  The lanes of 16 bits and the integer lanes of 32
bits only exist with AVX2.

Not modelled: `MaskBool` references, the commented-out conversions to `std::array`.
-/

namespace Vc.Model

/-- `AVX::zeroExtend` (/repo/Vc/avx/casts.h:79-87).  `ext = none`: MSVC, clang, where the upper half is
zero; `ext = some u`: the other compilers (GCC), where the function is `_mm256_castps128_ps256` and the
upper half is undefined, here `u`. -/
def zeroExtend (ext : Option M128) (x : M128) : M256 := concat128 x (ext.getD 0#128)

/-- `AVX::avx_cast<__m256i>(__m128i)`: the upper half is undefined, here `u`
(/repo/Vc/avx/casts.h:69-77). -/
def castTo256 (u : M128) (x : M128) : M256 := concat128 x u

/-- `Mem::permute128<L, H>` (/repo/Vc/avx/shuffle.h:86-108); `none` stands for `Const0`. -/
def memPermute128 (l h : Option Nat) (x : M256) : M256 :=
  permute2f128 x x ((match l with | none => 8 | some l => l) + (match h with | none => 0x80 | some h => h * 16))

/-- `AVX::alignr<shift>` (/repo/Vc/avx/intrinsics.h:218-232): in both halves. -/
def alignr256 (shift : Nat) (s1 s2 : M256) : M256 :=
  concat128 (alignrEpi8 (lo128 s1) (lo128 s2) shift) (alignrEpi8 (hi128 s1) (hi128 s2) shift)

/-- `_pext_u32(x, m)`: the bits of `x` selected by `m`, moved together. -/
def pext (x m : Nat) : Nat → Nat
  | 0 => 0
  | n + 1 => if m.testBit 0 then x % 2 + 2 * pext (x / 2) (m / 2) n else pext (x / 2) (m / 2) n

/-- `AVX::movemask_epi8` (/repo/Vc/avx/intrinsics.h:393-397,430-433). -/
def movemaskEpi8 (avx2 : Bool) (k : M256) : Nat :=
  if avx2 then movemask 8 k else (movemask 8 (hi128 k) <<< 16) ||| movemask 8 (lo128 k)

/-- `Detail::mask_to_int<Size>` (/repo/Vc/avx/detail.h:1307-1322). -/
def amToInt (avx2 : Bool) (size : Nat) (k : M256) : Nat :=
  if size = 4 then movemask 64 k
  else if size = 8 then movemask 32 k
  else pext (movemaskEpi8 avx2 k) 0x55555555 32

/-- `Mask::count` (/repo/Vc/avx/mask.h:250, /repo/Vc/sse/detail.h:385-396). -/
def amCount (avx2 popcnt : Bool) (size : Nat) (k : M256) : Nat :=
  if popcnt then popcntU32 (amToInt avx2 size k) else popcnt16 (amToInt avx2 size k)

/-- `Mask::firstOne` (/repo/Vc/avx/mask.h:251). -/
def amFirstOne (avx2 : Bool) (size : Nat) (k : M256) : Option Nat := bsf (amToInt avx2 size k)

/-- `Mask::get`: /repo/Vc/avx/mask.h:220-223, 16 lanes: /repo/Vc/avx/mask.tcc:47-59. -/
def amGet (avx2 : Bool) (size : Nat) (k : M256) (i : Nat) : Bool :=
  if size = 16 then (movemaskEpi8 avx2 k &&& 1 <<< (2 * i)) != 0
  else (amToInt avx2 size k &&& 1 <<< i) != 0

/-- `Mask::set` (/repo/Vc/avx/mask.h:224-229). -/
def amSet (w : Nat) (k : M256) (i : Nat) (v : Bool) : M256 := setLane w k i (maskBool w v)

/-- `Mask(bool)` (/repo/Vc/avx/mask.h:107-110). -/
def amInit (b : Bool) : M256 := if b then BitVec.allOnes 256 else 0#256

/-- `Mask::generate` (/repo/Vc/avx/mask.tcc:108-143). -/
def amGenerate (w : Nat) (gen : Nat → Bool) : M256 :=
  setr w ((List.range (256 / w)).map fun i => if gen i then BitVec.allOnes w else 0#w)

/-- `Mask::store(bool *)`, `Detail::mask_store<N>` (/repo/Vc/avx/mask.tcc:31-36,
/repo/Vc/avx/detail.h:1201-1235): the bytes written. -/
def amStore (size : Nat) (k : M256) : List (BitVec 8) :=
  if size = 4 then
    let v : BitVec 32 := BitVec.ofNat 32
      ((movemask 8 (lo128 k) ||| (movemask 8 (hi128 k) <<< 16)) &&& 0x01010101)
    (List.range 4).map (lane 8 v)
  else if size = 8 then
    let k2 := srliEpi 16 (packs 8 (lo128 k) (hi128 k)) 15
    let k3 := packs 8 k2 0#128
    (List.range 8).map (lane 8 k3)
  else
    (List.range 16).map (lane 8 (set1 8 1#8 &&& packs 8 (lo128 k) (hi128 k)))

/-- `Mask::load(const bool *)`, `Detail::mask_load<__m256, N>` (/repo/Vc/avx/mask.tcc:38-44,
/repo/Vc/avx/detail.h:1266-1304). -/
def amLoad (size : Nat) (mem : Nat → BitVec 8) : M256 :=
  if size = 4 then
    let f : BitVec 32 := ofLanes 8 mem
    let k : M128 := set1 32 f &&& setr 32 [0x1#32, 0x100#32, 0x10000#32, 0x1000000#32]
    let k := cmpgtEpi 32 k 0#128
    concat128 (unpacklo 32 k k) (unpackhi 32 k k)
  else if size = 8 then
    let k : M128 := ofLanes 8 fun i => if i < 8 then mem i else 0#8
    let k := cmpgtEpi 16 (unpacklo 8 k k) 0#128
    concat128 (unpacklo 16 k k) (unpackhi 16 k k)
  else
    let k : M128 := cmpgtEpi 8 (ofLanes 8 mem) 0#128
    concat128 (unpacklo 8 k k) (unpackhi 8 k k)

/-- `Mask::operator==`: the general version compares `movemask(d.v())`, the specialisations of
/repo/Vc/avx/mask.tcc:61-69 name the instruction; `fp`: the mask of `float_v`
(/repo/Vc/avx/mask.h:145-146). -/
def amEqual (avx2 fp : Bool) (w : Nat) (k1 k2 : M256) : Bool :=
  if w = 64 then movemask 64 k1 == movemask 64 k2
  else if w = 32 ∧ fp = true then movemask 32 k1 == movemask 32 k2
  else movemaskEpi8 avx2 k1 == movemaskEpi8 avx2 k2

/-- `Mask::operator!=` (/repo/Vc/avx/mask.h:148-149). -/
def amNotEqual (avx2 fp : Bool) (w : Nat) (k1 k2 : M256) : Bool := !amEqual avx2 fp w k1 k2

/-- `_mm256_testz_pd` (`w = 64`), `_mm256_testz_ps` (`w = 32`): only the top bits of the lanes count;
otherwise `_mm256_testz_si256` (/repo/Vc/avx/detail.h:1180-1184). -/
def testz256 (w : Nat) (a b : M256) : Nat :=
  if w = 64 ∨ w = 32 then (if movemask w (a &&& b) = 0 then 1 else 0)
  else if a &&& b = 0#256 then 1 else 0

/-- `_mm256_testc_pd`, `_mm256_testc_ps`, `_mm256_testc_si256` (/repo/Vc/avx/detail.h:1174-1178). -/
def testc256 (w : Nat) (a b : M256) : Nat :=
  if w = 64 ∨ w = 32 then (if movemask w (~~~a &&& b) = 0 then 1 else 0)
  else if ~~~a &&& b = 0#256 then 1 else 0

/-- `_mm256_testnzc_pd`, `_mm256_testnzc_ps`, `_mm256_testnzc_si256`
(/repo/Vc/avx/detail.h:1186-1190). -/
def testnzc256 (w : Nat) (a b : M256) : Nat :=
  if testz256 w a b = 0 ∧ testc256 w a b = 0 then 1 else 0

/-- `Mask::isFull`, `isNotEmpty`, `isEmpty`, `isMix` (/repo/Vc/avx/mask.tcc:71-106). -/
def amIsFull (w : Nat) (k : M256) : Bool := 0 != testc256 w k (BitVec.allOnes 256)
def amIsNotEmpty (w : Nat) (k : M256) : Bool := 0 == testz256 w k k
def amIsEmpty (w : Nat) (k : M256) : Bool := 0 != testz256 w k k
def amIsMix (w : Nat) (k : M256) : Bool := 0 != testnzc256 w k (BitVec.allOnes 256)

/-- `Mask::operator!` (/repo/Vc/avx/mask.h:151-158). -/
def amNot (gcc : Bool) (k : M256) : M256 := if gcc then ~~~k else andnot k (BitVec.allOnes 256)

/-- `Detail::shifted<amount>(T)`, `amount` in bytes (/repo/Vc/avx/detail.h:452-478).  `u`: the undefined
upper half of the register the last `avx_cast` makes. -/
def shiftedBytes (ext : Option M128) (u : M128) (amount : Int) (k : M256) : M256 :=
  if 16 ≤ amount then zeroExtend ext (srliSi128 (hi128 k) (amount - 16).toNat)
  else if 0 < amount then alignr256 amount.toNat (memPermute128 (some 1) none k) k
  else if amount ≤ -16 then
    memPermute128 none (some 0) (castTo256 u (slliSi128 (lo128 k) (-16 - amount).toNat))
  else alignr256 (16 + amount).toNat k (memPermute128 none (some 0) k)

/-- `Mask::shifted(amount)` (/repo/Vc/avx/mask.tcc:145-213); `bytes` is `sizeof(VectorEntryType)`.
`none`: the product overflows `int`. -/
def amShifted (ext : Option M128) (u : M128) (bytes : Nat) (k : M256) (amount : Int) : Option M256 :=
  let a := amount * bytes
  if -2 ^ 31 ≤ a ∧ a < 2 ^ 31 then
    some (if a = 0 then k else if -31 ≤ a ∧ a ≤ 31 then shiftedBytes ext u a k else 0#256)
  else none

/-! ### Casts -/

/-- `Mem::permute4x64<X0, X2, X1, X3>`. -/
def flipMiddle (x : M256) : M256 := permute4x64Imm x (0 + 2 * 4 + 1 * 16 + 3 * 64)

/-- `Detail::mask_cast<From, To, __m256>(__m256i)` (/repo/Vc/avx/detail.h:480-583).  `none`: static
assertion. -/
def amCast (ext : Option M128) (src dst : Nat) (k : M256) : Option M256 :=
  if src = dst then some k
  else match src, dst with
  | 4, 8 => some (concat128 (packs 16 (lo128 k) (hi128 k)) 0#128)
  | 4, 16 => some (zeroExtend ext (packs 8 (packs 16 (lo128 k) (hi128 k)) 0#128))
  | 8, 4 =>
    let lo := lo128 k
    some (concat128 (unpacklo 32 lo lo) (unpackhi 32 lo lo))
  | 8, 16 => some (zeroExtend ext (packs 8 (lo128 k) (hi128 k)))
  | 16, 8 =>
    let flipped := flipMiddle k
    some (unpacklo256 16 flipped flipped)
  | 16, 4 =>
    let tmp := unpacklo 16 (lo128 k) (lo128 k)
    some (concat128 (unpacklo 32 tmp tmp) (unpackhi 32 tmp tmp))
  | _, _ => none

/-- `Detail::mask_cast<From, To, __m128>(__m256i)` (/repo/Vc/avx/detail.h:487-491,507-511,535-538,
549-553). -/
def amCastTo128 (src dst : Nat) (k : M256) : Option M128 :=
  match src, dst with
  | 4, 4 => some (packs 16 (lo128 k) (hi128 k))
  | 4, 8 => some (packs 8 (packs 16 (lo128 k) (hi128 k)) 0#128)
  | 8, 4 => some (lo128 k)
  | 8, 8 => some (packs 8 (lo128 k) (hi128 k))
  | _, _ => none

/-- `Detail::mask_cast<From, To, __m256>(__m128i)` (/repo/Vc/avx/detail.h:493-497,513-516,540-546,
555-559). -/
def amCastFrom128 (ext : Option M128) (src dst : Nat) (k : M128) : Option M256 :=
  match src, dst with
  | 4, 4 => some (concat128 (unpacklo 32 k k) (unpackhi 32 k k))
  | 4, 8 => some (zeroExtend ext k)
  | 8, 4 =>
    let tmp := unpacklo 16 k k
    some (concat128 (unpacklo 32 tmp tmp) (unpackhi 32 tmp tmp))
  | 8, 8 => some (concat128 (unpacklo 16 k k) (unpackhi 16 k k))
  | _, _ => none

/-- `simd_cast<R>(k0, k1)`, two AVX masks to one, lanes of `v` to lanes of `w` bits; `fp`: the result is
`float_m` (/repo/Vc/avx/simd_cast.h:2255-2270). -/
def amCastJoin2 (ext : Option M128) (fp : Bool) (v w : Nat) (x0 x1 : M256) : Option M256 :=
  match v, w with
  | 64, 32 =>
    if fp then some (concat128 (packs 16 (lo128 x0) (hi128 x0)) (packs 16 (lo128 x1) (hi128 x1)))
    else some (flipMiddle (packs256 16 x0 x1))
  | 64, 16 => some (zeroExtend ext
      (packs 8 (packs 16 (lo128 x0) (hi128 x0)) (packs 16 (lo128 x1) (hi128 x1))))
  | 32, 16 => some (flipMiddle (packs256 8 x0 x1))
  | _, _ => none

/-- `simd_cast<short_m>(k0, k1, k2, k3)` of four `double_m` (/repo/Vc/avx/simd_cast.h:2274-2286). -/
def amCastJoin4 (x0 x1 x2 x3 : M256) : M256 :=
  let tmp := packs256 16 (packs256 16 x0 x1) (packs256 16 x2 x3)
  concat128 (unpacklo 32 (lo128 tmp) (hi128 tmp)) (unpackhi 32 (lo128 tmp) (hi128 tmp))

/-- `simd_cast<R>(k)`, one SSE mask to an AVX mask (/repo/Vc/avx/simd_cast.h:2289-2345). -/
def amFromSse (ext : Option M128) (u : M128) (fp : Bool) (v w : Nat) (x : M128) : Option M256 :=
  match v, w with
  | 64, 64 => some (zeroExtend ext x)
  | 64, 32 => (maskCast 2 4 x).map (zeroExtend ext)
  | 64, 16 => (maskCast 2 8 x).map (zeroExtend ext)
  | 32, 64 => some (concat128 (unpacklo 32 x x) (unpackhi 32 x x))
  | 32, 32 => some (zeroExtend ext x)
  | 32, 16 => (maskCast 4 8 x).map (zeroExtend ext)
  | 16, 64 =>
    let tmp := unpacklo 16 x x
    some (concat128 (unpacklo 32 tmp tmp) (unpackhi 32 tmp tmp))
  | 16, 32 =>
    if fp then some (concat128 (unpacklo 16 x x) (unpackhi 16 x x))
    else
      let v := flipMiddle (castTo256 u x)
      some (unpacklo256 16 v v)
  | 16, 16 => (maskCast 8 8 x).map (zeroExtend ext)
  | _, _ => none

/-- `simd_cast<R>(k0, k1)`, two SSE masks to an AVX mask (/repo/Vc/avx/simd_cast.h:2347-2377). -/
def amFromSse2 (ext : Option M128) (v w : Nat) (x0 x1 : M128) : Option M256 :=
  match v, w with
  | 64, 64 => some (concat128 x0 x1)
  | 64, 32 => some (zeroExtend ext (packs 16 x0 x1))
  | 64, 16 => some (zeroExtend ext (packs 8 (packs 16 x0 x1) 0#128))
  | 32, 32 => some (concat128 x0 x1)
  | 32, 16 => some (zeroExtend ext (packs 8 x0 x1))
  | 16, 16 => some (concat128 x0 x1)
  | _, _ => none

/-- `simd_cast<R>(k0, k1, k2, k3)`, four SSE masks to an AVX mask (/repo/Vc/avx/simd_cast.h:2380-2392). -/
def amFromSse4 (ext : Option M128) (v w : Nat) (x0 x1 x2 x3 : M128) : Option M256 :=
  match v, w with
  | 64, 32 => some (concat128 (packs 16 x0 x1) (packs 16 x2 x3))
  | 64, 16 => some (zeroExtend ext (packs 8 (packs 16 x0 x1) (packs 16 x2 x3)))
  | 32, 16 => some (concat128 (packs 8 x0 x1) (packs 8 x2 x3))
  | _, _ => none

/-- `simd_cast<R>(k0, …)` of 1, 2, 4, 8 or 16 scalar masks (/repo/Vc/avx/simd_cast.h:2395-2468). -/
def amFromScalar (w : Nat) (ks : List Bool) : M256 :=
  (List.range ks.length).foldl (fun r i => amSet w r i (ks.getD i false)) (amInit false)

/-- `simd_cast<R>(k)`, an AVX mask to an SSE mask (/repo/Vc/avx/simd_cast.h:2471-2517). -/
def amToSse (v w : Nat) (x : M256) : Option M128 :=
  match v, w with
  | 64, 64 => some (lo128 x)
  | 64, 32 => some (packs 16 (lo128 x) (hi128 x))
  | 64, 16 => some (packs 8 (packs 16 (lo128 x) (hi128 x)) 0#128)
  | 32, 64 => some (unpacklo 32 (lo128 x) (lo128 x))
  | 32, 32 => some (lo128 x)
  | 32, 16 => some (packs 8 (lo128 x) (hi128 x))
  | 16, 64 => maskCast 8 2 (lo128 x)
  | 16, 32 => maskCast 8 4 (lo128 x)
  | 16, 16 => maskCast 8 8 (lo128 x)
  | _, _ => none

/-- `simd_cast<short_m>(k0, k1)`, two `double_m` to an SSE mask (/repo/Vc/avx/simd_cast.h:2520-2521). -/
def amToSse2 (x0 x1 : M256) : M128 :=
  packs 8 (packs 16 (lo128 x0) (hi128 x0)) (packs 16 (lo128 x1) (hi128 x1))

/-- `simd_cast<R>(k)` to a scalar mask (/repo/Vc/avx/simd_cast.h:2524-2529). -/
def amToScalar (avx2 : Bool) (size : Nat) (x : M256) : Bool := amGet avx2 size x 0

/-- `simd_cast<R, offset>(k)`, AVX to AVX, `offset` not 0 (/repo/Vc/avx/simd_cast.h:2627-2667); `none`: no
such function. -/
def amCastOffset (src dst offset : Nat) (k : M256) : Option M256 :=
  if offset = 1 ∧ src = dst * 2 then
    let tmp := hi128 k
    some (concat128 (unpacklo 8 tmp tmp) (unpackhi 8 tmp tmp))
  else if offset = 1 ∧ src = dst * 4 then
    let tmp := lo128 k
    let tmp := unpackhi 8 tmp tmp
    some (concat128 (unpacklo 16 tmp tmp) (unpackhi 16 tmp tmp))
  else if offset = 2 ∧ src = dst * 4 then
    let tmp := hi128 k
    let tmp := unpacklo 8 tmp tmp
    some (concat128 (unpacklo 16 tmp tmp) (unpackhi 16 tmp tmp))
  else if offset = 3 ∧ src = dst * 4 then
    let tmp := hi128 k
    let tmp := unpackhi 8 tmp tmp
    some (concat128 (unpacklo 16 tmp tmp) (unpackhi 16 tmp tmp))
  else none

/-- `simd_cast<double_m, 1>(k)` of an SSE mask of 8 lanes (/repo/Vc/avx/simd_cast.h:2670-2671). -/
def amFromSseOffset1 (x : M128) : M256 :=
  let tmp := unpackhi 16 x x
  concat128 (unpacklo 32 tmp tmp) (unpackhi 32 tmp tmp)

/-- `simd_cast<R, offset>(k)`, AVX (lanes of `v` bits) to SSE (lanes of `w` bits), `offset` not 0
(/repo/Vc/avx/simd_cast.h:2674-2692). -/
def amToSseOffset (v w offset : Nat) (x : M256) : Option M128 :=
  let shift := 32 / (256 / v) * offset * (128 / w)
  if 0 < shift ∧ shift < 32 then
    if shift = 16 then maskCast (128 / v) (128 / w) (hi128 x)
    else maskCast (128 / v) (128 / w) (alignrEpi8 (hi128 x) (lo128 x) shift)
  else none

end Vc.Model
