import Verif.Model.SortNet

/-!
Interleaved memory access: `InterleavedMemoryWrapper` (/repo/Vc/common/interleavedmemory.h) and the
`InterleaveImpl` classes of the implementations.

The memory is addressed in entries of `w` bits, as every access of the code is to whole entries; an
address that the program may not touch has the content `none`, and touching it makes the access fault:
the result of the function is then `none`.  `data` is the address of the first entry, `i l` is the
scaled index `m_indexes[l]`.
-/

namespace Vc.Model

/-- Memory of entries of `w` bits; `none`: not part of any object. -/
abbrev ILMem (w : Nat) := Int → Option (BitVec w)

/-- The configuration macros the code depends on: `__x86_64__`, `Vc_IMPL_SSE4_1` and
`Vc_USE_MASKMOV_SCATTER`. -/
structure ILCfg where
  x64 : Bool
  sse41 : Bool
  maskmov : Bool

/-! ### Memory accesses -/

/-- Writes of single entries, in order. -/
def writes {w : Nat} (m : ILMem w) : List (Int × BitVec w) → Option (ILMem w)
  | [] => some m
  | (a, v) :: t => if (m a).isSome then writes (fun b => if b = a then some v else m b) t else none

/-- A store of the first `k` entries of a register (`_mm_storeu_*`, `_mm_storel_*`, an assignment
through `aliasing_cast<int>`). -/
def ilStore {n w : Nat} (k : Nat) (m : ILMem w) (a : Int) (v : BitVec n) : Option (ILMem w) :=
  writes m ((List.range k).map fun j => (a + Int.ofNat j, lane w v j))

/-- A masked store (`_mm_maskmove_si64`, `_mm_maskmoveu_si128`, `_mm_maskstore_ps`,
`_mm256_maskstore_pd`) with a mask that is constant on every entry: entries with a clear sign bit are
not accessed. -/
def ilMaskStore {n w : Nat} (k : Nat) (m : ILMem w) (a : Int) (mask v : BitVec n) :
    Option (ILMem w) :=
  writes m (((List.range k).filter fun j => (lane w mask j).msb).map
    fun j => (a + Int.ofNat j, lane w v j))

/-- `v.scatter(data, i)`: the entries in order (/repo/Vc/common/scatterinterface.h:97-102,
/repo/Vc/sse/vector.tcc:373-378, /repo/Vc/avx/vector.tcc:455-460). -/
def scatterAll {n w : Nat} (size : Nat) (m : ILMem w) (data : Int) (i : Nat → Int) (v : BitVec n) :
    Option (ILMem w) :=
  writes m ((List.range size).map fun l => (data + i l, lane w v l))

/-- `cnt` loads of `k` entries each, from `data + i 0`, `data + i 1`, …; the rest of each register is
zero. -/
def loadAll {w : Nat} (n cnt k : Nat) (m : ILMem w) (data : Int) (i : Nat → Int) :
    Option (Nat → BitVec n) :=
  if ∀ l, l < cnt → ∀ j, j < k → (m (data + i l + Int.ofNat j)).isSome then
    some fun l => ofLanes w fun j => if j < k then (m (data + i l + Int.ofNat j)).getD 0 else 0
  else none

/-- `v.gather(data, i)` (/repo/Vc/sse/vector.tcc:326-347, /repo/Vc/avx/vector.tcc:388-430). -/
def gatherAll {w : Nat} (n size : Nat) (m : ILMem w) (data : Int) (i : Nat → Int) :
    Option (BitVec n) :=
  if ∀ l, l < size → (m (data + i l)).isSome then some (ofLanes w fun l => (m (data + i l)).getD 0)
  else none

/-! ### Scalar (/repo/Vc/scalar/detail.h:38-159) -/

/-- `data[i[0] + j] = v.data()`. -/
def sput {w : Nat} (m : ILMem w) (a : Int) (v : BitVec w) : Option (ILMem w) := writes m [(a, v)]

def ilScalar2 {w : Nat} (m : ILMem w) (data : Int) (i : Nat → Int) (v0 v1 : BitVec w) :
    Option (ILMem w) := do
  let m ← sput m (data + (i 0 + 0)) v0
  sput m (data + (i 0 + 1)) v1

def ilScalar3 {w : Nat} (m : ILMem w) (data : Int) (i : Nat → Int) (v0 v1 v2 : BitVec w) :
    Option (ILMem w) := do
  let m ← sput m (data + (i 0 + 0)) v0
  let m ← sput m (data + (i 0 + 1)) v1
  sput m (data + (i 0 + 2)) v2

def ilScalar4 {w : Nat} (m : ILMem w) (data : Int) (i : Nat → Int) (v0 v1 v2 v3 : BitVec w) :
    Option (ILMem w) := do
  let m ← sput m (data + (i 0 + 0)) v0
  let m ← sput m (data + (i 0 + 1)) v1
  let m ← sput m (data + (i 0 + 2)) v2
  sput m (data + (i 0 + 3)) v3

/-- `interleave` of the scalar vector, 2 to 8 arguments (lines 41-104). -/
def ilScalar {w : Nat} (m : ILMem w) (data : Int) (i : Nat → Int) : List (BitVec w) → Option (ILMem w)
  | [v0, v1] => ilScalar2 m data i v0 v1
  | [v0, v1, v2] => ilScalar3 m data i v0 v1 v2
  | [v0, v1, v2, v3] => ilScalar4 m data i v0 v1 v2 v3
  | [v0, v1, v2, v3, v4] => do
    let m ← ilScalar4 m data i v0 v1 v2 v3
    sput m (data + (i 0 + 4)) v4
  | [v0, v1, v2, v3, v4, v5] => do
    let m ← ilScalar4 m data i v0 v1 v2 v3
    ilScalar2 m (data + 4) i v4 v5
  | [v0, v1, v2, v3, v4, v5, v6] => do
    let m ← ilScalar4 m data i v0 v1 v2 v3
    ilScalar3 m (data + 4) i v4 v5 v6
  | [v0, v1, v2, v3, v4, v5, v6, v7] => do
    let m ← ilScalar4 m data i v0 v1 v2 v3
    ilScalar4 m (data + 4) i v4 v5 v6 v7
  | _ => none

def deScalar2 {w : Nat} (m : ILMem w) (data : Int) (i : Nat → Int) : Option (List (BitVec w)) := do
  let v0 ← m (data + (i 0 + 0))
  let v1 ← m (data + (i 0 + 1))
  some [v0, v1]

def deScalar3 {w : Nat} (m : ILMem w) (data : Int) (i : Nat → Int) : Option (List (BitVec w)) := do
  let v0 ← m (data + (i 0 + 0))
  let v1 ← m (data + (i 0 + 1))
  let v2 ← m (data + (i 0 + 2))
  some [v0, v1, v2]

def deScalar4 {w : Nat} (m : ILMem w) (data : Int) (i : Nat → Int) : Option (List (BitVec w)) := do
  let v0 ← m (data + (i 0 + 0))
  let v1 ← m (data + (i 0 + 1))
  let v2 ← m (data + (i 0 + 2))
  let v3 ← m (data + (i 0 + 3))
  some [v0, v1, v2, v3]

/-- `deinterleave` of the scalar vector into `k` variables (lines 106-158). -/
def deScalar {w : Nat} (k : Nat) (m : ILMem w) (data : Int) (i : Nat → Int) :
    Option (List (BitVec w)) :=
  match k with
  | 2 => deScalar2 m data i
  | 3 => deScalar3 m data i
  | 4 => deScalar4 m data i
  | 5 => do
    let v ← deScalar4 m data i
    let v4 ← m (data + (i 0 + 4))
    some (v ++ [v4])
  | 6 => do some ((← deScalar4 m data i) ++ (← deScalar2 m (data + 4) i))
  | 7 => do some ((← deScalar4 m data i) ++ (← deScalar3 m (data + 4) i))
  | 8 => do some ((← deScalar4 m data i) ++ (← deScalar4 m (data + 4) i))
  | _ => none

/-! ### SSE, eight entries of 16 bits (/repo/Vc/sse/detail.h:822-1203) -/

/-- `interleave` of two vectors (lines 823-861). -/
def il8x2 (C : ILCfg) (m : ILMem 16) (data : Int) (i : Nat → Int) (v0 v1 : M128) :
    Option (ILMem 16) :=
  let tmp0 := unpacklo 16 v0 v1
  let tmp1 := unpackhi 16 v0 v1
  if C.x64 then do
    let tmp00 := lane 64 tmp0 0
    let tmp01 := lane 64 (unpackhi 64 tmp0 tmp0) 0
    let tmp10 := lane 64 tmp1 0
    let tmp11 := lane 64 (unpackhi 64 tmp1 tmp1) 0
    let m ← ilStore 2 m (data + i 0) (tmp00.setWidth 32)
    let m ← ilStore 2 m (data + i 1) ((tmp00.sshiftRight 32).setWidth 32)
    let m ← ilStore 2 m (data + i 2) (tmp01.setWidth 32)
    let m ← ilStore 2 m (data + i 3) ((tmp01.sshiftRight 32).setWidth 32)
    let m ← ilStore 2 m (data + i 4) (tmp10.setWidth 32)
    let m ← ilStore 2 m (data + i 5) ((tmp10.sshiftRight 32).setWidth 32)
    let m ← ilStore 2 m (data + i 6) (tmp11.setWidth 32)
    ilStore 2 m (data + i 7) ((tmp11.sshiftRight 32).setWidth 32)
  else if C.sse41 then do
    let m ← ilStore 2 m (data + i 0) (lane 32 tmp0 0)
    let m ← ilStore 2 m (data + i 1) (lane 32 tmp0 1)
    let m ← ilStore 2 m (data + i 2) (lane 32 tmp0 2)
    let m ← ilStore 2 m (data + i 3) (lane 32 tmp0 3)
    let m ← ilStore 2 m (data + i 4) (lane 32 tmp1 0)
    let m ← ilStore 2 m (data + i 5) (lane 32 tmp1 1)
    let m ← ilStore 2 m (data + i 6) (lane 32 tmp1 2)
    ilStore 2 m (data + i 7) (lane 32 tmp1 3)
  else do
    let m ← ilStore 2 m (data + i 0) (lane 32 tmp0 0)
    let m ← ilStore 2 m (data + i 1) (lane 32 (srliSi128 tmp0 4) 0)
    let m ← ilStore 2 m (data + i 2) (lane 32 (srliSi128 tmp0 8) 0)
    let m ← ilStore 2 m (data + i 3) (lane 32 (srliSi128 tmp0 12) 0)
    let m ← ilStore 2 m (data + i 4) (lane 32 tmp1 0)
    let m ← ilStore 2 m (data + i 5) (lane 32 (srliSi128 tmp1 4) 0)
    let m ← ilStore 2 m (data + i 6) (lane 32 (srliSi128 tmp1 8) 0)
    ilStore 2 m (data + i 7) (lane 32 (srliSi128 tmp1 12) 0)

/-- `interleave` of two vectors into successive structs of two entries (lines 862-869). -/
def il8x2s (m : ILMem 16) (data : Int) (i : Nat → Int) (v0 v1 : M128) : Option (ILMem 16) := do
  let tmp0 := unpacklo 16 v0 v1
  let tmp1 := unpackhi 16 v0 v1
  let m ← ilStore 8 m (data + i 0) tmp0
  ilStore 8 m (data + i 4) tmp1

/-- `_mm_set_pi16(0, -1, -1, -1)`. -/
def maskPi16 : BitVec 64 := ofLanes 16 fun j => if j < 3 then BitVec.allOnes 16 else 0

/-- `interleave` of three vectors (lines 870-899). -/
def il8x3 (C : ILCfg) (m : ILMem 16) (data : Int) (i : Nat → Int) (v0 v1 v2 : M128) :
    Option (ILMem 16) :=
  if C.maskmov then do
    let tmp0 := unpacklo 16 v0 v2
    let tmp1 := unpackhi 16 v0 v2
    let tmp2 := unpacklo 16 v1 v1
    let tmp3 := unpackhi 16 v1 v1
    let tmp4 := unpacklo 16 tmp0 tmp2
    let tmp5 := unpackhi 16 tmp0 tmp2
    let tmp6 := unpacklo 16 tmp1 tmp3
    let tmp7 := unpackhi 16 tmp1 tmp3
    let m ← ilMaskStore 4 m (data + i 0) maskPi16 (lane 64 tmp4 0)
    let m ← ilMaskStore 4 m (data + i 1) maskPi16 (lane 64 (srliSi128 tmp4 8) 0)
    let m ← ilMaskStore 4 m (data + i 2) maskPi16 (lane 64 tmp5 0)
    let m ← ilMaskStore 4 m (data + i 3) maskPi16 (lane 64 (srliSi128 tmp5 8) 0)
    let m ← ilMaskStore 4 m (data + i 4) maskPi16 (lane 64 tmp6 0)
    let m ← ilMaskStore 4 m (data + i 5) maskPi16 (lane 64 (srliSi128 tmp6 8) 0)
    let m ← ilMaskStore 4 m (data + i 6) maskPi16 (lane 64 tmp7 0)
    ilMaskStore 4 m (data + i 7) maskPi16 (lane 64 (srliSi128 tmp7 8) 0)
  else do
    let m ← il8x2 C m data i v0 v1
    scatterAll 8 m (data + 2) i v2

/-- The registers `tmp4` … `tmp7` of the `interleave` of four vectors (lines 904-912). -/
def il8Quads (v0 v1 v2 v3 : M128) : M128 × M128 × M128 × M128 :=
  let tmp0 := unpacklo 16 v0 v2
  let tmp1 := unpackhi 16 v0 v2
  let tmp2 := unpacklo 16 v1 v3
  let tmp3 := unpackhi 16 v1 v3
  (unpacklo 16 tmp0 tmp2, unpackhi 16 tmp0 tmp2, unpacklo 16 tmp1 tmp3, unpackhi 16 tmp1 tmp3)

/-- `interleave` of four vectors (lines 900-922). -/
def il8x4 (m : ILMem 16) (data : Int) (i : Nat → Int) (v0 v1 v2 v3 : M128) : Option (ILMem 16) :=
  let (tmp4, tmp5, tmp6, tmp7) := il8Quads v0 v1 v2 v3
  do
  let m ← ilStore 4 m (data + i 0) (lane 64 tmp4 0)
  let m ← ilStore 4 m (data + i 2) (lane 64 tmp5 0)
  let m ← ilStore 4 m (data + i 4) (lane 64 tmp6 0)
  let m ← ilStore 4 m (data + i 6) (lane 64 tmp7 0)
  let m ← ilStore 4 m (data + i 1) (lane 64 tmp4 1)
  let m ← ilStore 4 m (data + i 3) (lane 64 tmp5 1)
  let m ← ilStore 4 m (data + i 5) (lane 64 tmp6 1)
  ilStore 4 m (data + i 7) (lane 64 tmp7 1)

/-- `interleave` of four vectors into successive structs of four entries (lines 923-941). -/
def il8x4s (m : ILMem 16) (data : Int) (i : Nat → Int) (v0 v1 v2 v3 : M128) : Option (ILMem 16) :=
  let (tmp4, tmp5, tmp6, tmp7) := il8Quads v0 v1 v2 v3
  do
  let m ← ilStore 8 m (data + i 0) tmp4
  let m ← ilStore 8 m (data + i 2) tmp5
  let m ← ilStore 8 m (data + i 4) tmp6
  ilStore 8 m (data + i 6) tmp7

/-- `deinterleave` into two variables (lines 981-1003): the loads are of 32 bits. -/
def de8x2 (m : ILMem 16) (data : Int) (i : Nat → Int) : Option (List M128) := do
  let r ← loadAll 128 8 2 m data i
  let tmp2 := unpacklo 16 (r 0) (r 4)
  let tmp3 := unpacklo 16 (r 2) (r 6)
  let tmp4 := unpacklo 16 (r 1) (r 5)
  let tmp5 := unpacklo 16 (r 3) (r 7)
  let tmp0 := unpacklo 16 tmp2 tmp3
  let tmp1 := unpacklo 16 tmp4 tmp5
  some [unpacklo 16 tmp0 tmp1, unpackhi 16 tmp0 tmp1]

/-- `v0` … `v3` from the loads `a` … `h` (lines 1016-1028, 1042-1055, 1069-1088). -/
def de8Lo (a b c d e f g h : M128) : List M128 :=
  let tmp2 := unpacklo 16 a e
  let tmp4 := unpacklo 16 b f
  let tmp3 := unpacklo 16 c g
  let tmp5 := unpacklo 16 d h
  let tmp0 := unpacklo 16 tmp2 tmp3
  let tmp1 := unpacklo 16 tmp4 tmp5
  let tmp6 := unpackhi 16 tmp2 tmp3
  let tmp7 := unpackhi 16 tmp4 tmp5
  [unpacklo 16 tmp0 tmp1, unpackhi 16 tmp0 tmp1, unpacklo 16 tmp6 tmp7, unpackhi 16 tmp6 tmp7]

/-- `v4` … `v7` from the loads `a` … `h` (lines 1180-1201). -/
def de8Hi (a b c d e f g h : M128) : List M128 :=
  let tmp10 := unpackhi 16 a e
  let tmp11 := unpackhi 16 c g
  let tmp12 := unpackhi 16 b f
  let tmp13 := unpackhi 16 d h
  let tmp8 := unpacklo 16 tmp10 tmp11
  let tmp9 := unpacklo 16 tmp12 tmp13
  let tmp14 := unpackhi 16 tmp10 tmp11
  let tmp15 := unpackhi 16 tmp12 tmp13
  [unpacklo 16 tmp8 tmp9, unpackhi 16 tmp8 tmp9, unpacklo 16 tmp14 tmp15, unpackhi 16 tmp14 tmp15]

/-- `deinterleave` into 3 or 4 variables (lines 1004-1056): eight `_mm_loadl_epi64`. -/
def de8x4 (k : Nat) (m : ILMem 16) (data : Int) (i : Nat → Int) : Option (List M128) := do
  let r ← loadAll 128 8 4 m data i
  some ((de8Lo (r 0) (r 1) (r 2) (r 3) (r 4) (r 5) (r 6) (r 7)).take k)

/-- `deinterleave` into 5 to 8 variables (lines 1057-1202): eight `_mm_loadu_si128`; the functions are
the same except that they leave out the variables there are not. -/
def de8x8 (k : Nat) (m : ILMem 16) (data : Int) (i : Nat → Int) : Option (List M128) := do
  let r ← loadAll 128 8 8 m data i
  some ((de8Lo (r 0) (r 1) (r 2) (r 3) (r 4) (r 5) (r 6) (r 7) ++
    de8Hi (r 0) (r 1) (r 2) (r 3) (r 4) (r 5) (r 6) (r 7)).take k)

/-- `deinterleave` of the SSE short vectors into `k` variables. -/
def de8 (k : Nat) (m : ILMem 16) (data : Int) (i : Nat → Int) : Option (List M128) :=
  match k with
  | 2 => de8x2 m data i
  | 3 => de8x4 3 m data i
  | 4 => de8x4 4 m data i
  | 5 => de8x8 5 m data i
  | 6 => de8x8 6 m data i
  | 7 => de8x8 7 m data i
  | 8 => de8x8 8 m data i
  | _ => none

/-! ### SSE, four entries of 32 bits (/repo/Vc/sse/detail.h:1204-1375) -/

/-- `interleave` of two vectors (lines 1213-1223). -/
def il4x2 (m : ILMem 32) (data : Int) (i : Nat → Int) (v0 v1 : M128) : Option (ILMem 32) := do
  let tmp0 := unpacklo 32 v0 v1
  let tmp1 := unpackhi 32 v0 v1
  let m ← ilStore 2 m (data + i 0) (lane 64 tmp0 0)
  let m ← ilStore 2 m (data + i 1) (lane 64 tmp0 1)
  let m ← ilStore 2 m (data + i 2) (lane 64 tmp1 0)
  ilStore 2 m (data + i 3) (lane 64 tmp1 1)

/-- `interleave` of two vectors into successive structs of two entries (lines 1205-1212). -/
def il4x2s (m : ILMem 32) (data : Int) (i : Nat → Int) (v0 v1 : M128) : Option (ILMem 32) := do
  let tmp0 := unpacklo 32 v0 v1
  let tmp1 := unpackhi 32 v0 v1
  let m ← ilStore 4 m (data + i 0) tmp0
  ilStore 4 m (data + i 2) tmp1

/-- `_mm_set_epi32(0, -1, -1, -1)`. -/
def maskEpi32 : M128 := setEpi32 0 (-1) (-1) (-1)

/-- `interleave` of three vectors (lines 1224-1248). -/
def il4x3 (C : ILCfg) (m : ILMem 32) (data : Int) (i : Nat → Int) (v0 v1 v2 : M128) :
    Option (ILMem 32) :=
  let tmp0 := unpacklo 32 v0 v1
  let tmp1 := unpackhi 32 v0 v1
  if C.maskmov then do
    let tmp2 := unpacklo 32 v2 v2
    let tmp3 := unpackhi 32 v2 v2
    let m ← ilMaskStore 4 m (data + i 0) maskEpi32 (movelh tmp0 tmp2)
    let m ← ilMaskStore 4 m (data + i 1) maskEpi32 (movehl tmp2 tmp0)
    let m ← ilMaskStore 4 m (data + i 2) maskEpi32 (movelh tmp1 tmp3)
    ilMaskStore 4 m (data + i 3) maskEpi32 (movehl tmp3 tmp1)
  else do
    let m ← ilStore 2 m (data + i 0) (lane 64 tmp0 0)
    let m ← ilStore 2 m (data + i 1) (lane 64 tmp0 1)
    let m ← ilStore 2 m (data + i 2) (lane 64 tmp1 0)
    let m ← ilStore 2 m (data + i 3) (lane 64 tmp1 1)
    scatterAll 4 m (data + 2) i v2

/-- `interleave` of four vectors (lines 1249-1262). -/
def il4x4 (m : ILMem 32) (data : Int) (i : Nat → Int) (v0 v1 v2 v3 : M128) : Option (ILMem 32) := do
  let tmp0 := unpacklo 32 v0 v1
  let tmp1 := unpackhi 32 v0 v1
  let tmp2 := unpacklo 32 v2 v3
  let tmp3 := unpackhi 32 v2 v3
  let m ← ilStore 4 m (data + i 0) (movelh tmp0 tmp2)
  let m ← ilStore 4 m (data + i 1) (movehl tmp2 tmp0)
  let m ← ilStore 4 m (data + i 2) (movelh tmp1 tmp3)
  ilStore 4 m (data + i 3) (movehl tmp3 tmp1)

/-- `deinterleave` into two variables (lines 1302-1315). -/
def de4x2 (m : ILMem 32) (data : Int) (i : Nat → Int) : Option (List M128) := do
  let r ← loadAll 128 4 2 m data i
  let tmp0 := unpacklo 32 (r 0) (r 1)
  let tmp1 := unpacklo 32 (r 2) (r 3)
  some [movelh tmp0 tmp1, movehl tmp1 tmp0]

/-- `deinterleave` into three variables (lines 1316-1332). -/
def de4x3 (m : ILMem 32) (data : Int) (i : Nat → Int) : Option (List M128) := do
  let r ← loadAll 128 4 4 m data i
  let tmp0 := unpacklo 32 (r 0) (r 1)
  let tmp1 := unpacklo 32 (r 2) (r 3)
  let tmp2 := unpackhi 32 (r 0) (r 1)
  let tmp3 := unpackhi 32 (r 2) (r 3)
  some [movelh tmp0 tmp1, movehl tmp1 tmp0, movelh tmp2 tmp3]

/-- `deinterleave` into four variables (lines 1333-1350). -/
def de4x4 (m : ILMem 32) (data : Int) (i : Nat → Int) : Option (List M128) := do
  let r ← loadAll 128 4 4 m data i
  let tmp0 := unpacklo 32 (r 0) (r 1)
  let tmp1 := unpacklo 32 (r 2) (r 3)
  let tmp2 := unpackhi 32 (r 0) (r 1)
  let tmp3 := unpackhi 32 (r 2) (r 3)
  some [movelh tmp0 tmp1, movehl tmp1 tmp0, movelh tmp2 tmp3, movehl tmp3 tmp2]

/-! ### SSE, two entries of 64 bits (/repo/Vc/sse/detail.h:1376-1492) -/

/-- `interleave` of two vectors (lines 1377-1385). -/
def il2x2 (m : ILMem 64) (data : Int) (i : Nat → Int) (v0 v1 : M128) : Option (ILMem 64) := do
  let tmp0 := unpacklo 64 v0 v1
  let tmp1 := unpackhi 64 v0 v1
  let m ← ilStore 2 m (data + i 0) tmp0
  ilStore 2 m (data + i 1) tmp1

/-- `interleave` of three vectors (lines 1386-1393). -/
def il2x3 (m : ILMem 64) (data : Int) (i : Nat → Int) (v0 v1 v2 : M128) : Option (ILMem 64) := do
  let m ← il2x2 m data i v0 v1
  scatterAll 2 m (data + 2) i v2

/-- `interleave` of four vectors (lines 1394-1401). -/
def il2x4 (m : ILMem 64) (data : Int) (i : Nat → Int) (v0 v1 v2 v3 : M128) : Option (ILMem 64) := do
  let m ← il2x2 m data i v0 v1
  il2x2 m (data + 2) i v2 v3

/-- `deinterleave` into two variables (lines 1441-1449). -/
def de2x2 (m : ILMem 64) (data : Int) (i : Nat → Int) : Option (List M128) := do
  let r ← loadAll 128 2 2 m data i
  some [unpacklo 64 (r 0) (r 1), unpackhi 64 (r 0) (r 1)]

/-! ### 256 bit instructions -/

/-- `_mm256_unpacklo_ps`, `_mm256_unpacklo_pd`, `_mm256_unpacklo_epi16`: on both halves; the AVX1
emulation of the integer instructions (/repo/Vc/avx/intrinsics.h:235-300, 340) says the same. -/
def unpacklo256 (w : Nat) (x y : M256) : M256 :=
  concat128 (unpacklo w (lo128 x) (lo128 y)) (unpacklo w (hi128 x) (hi128 y))
def unpackhi256 (w : Nat) (x y : M256) : M256 :=
  concat128 (unpackhi w (lo128 x) (lo128 y)) (unpackhi w (hi128 x) (hi128 y))

/-- `_mm256_shuffle_ps`: `_mm_shuffle_ps` on both halves. -/
def shufflePs256 (x y : M256) (imm : Nat) : M256 :=
  concat128 (shufflePs (lo128 x) (lo128 y) imm) (shufflePs (hi128 x) (hi128 y) imm)

/-- The half that a field of the immediate of `_mm256_permute2f128_ps` selects. -/
def half128 (x y : M256) (c : Nat) : M128 :=
  if c.testBit 3 then 0
  else match c % 4 with
    | 0 => lo128 x
    | 1 => hi128 x
    | 2 => lo128 y
    | _ => hi128 y

/-- `_mm256_permute2f128_ps`. -/
def permute2f128 (x y : M256) (imm : Nat) : M256 :=
  concat128 (half128 x y (imm % 16)) (half128 x y (imm / 16 % 16))

/-- `Mem::shuffle128<L, H>` (/repo/Vc/avx/shuffle.h:107-127). -/
def memShuffle128 (l h : Nat) (x y : M256) : Option M256 :=
  if l ≤ 9 ∧ h ≤ 9 then
    some (permute2f128 x y ((if l < 8 then l else l - 8 + 2) + (if h < 8 then h else h - 8 + 2) * 16))
  else none

/-- `Mem::blend` of `__m256` (/repo/Vc/avx/shuffle.h:159-176). -/
def memBlend8ps (d0 d1 d2 d3 d4 d5 d6 d7 : Nat) (x y : M256) : Option M256 :=
  if (d0 = 0 ∨ d0 = 8) ∧ (d1 = 1 ∨ d1 = 9) ∧ (d2 = 2 ∨ d2 = 10) ∧ (d3 = 3 ∨ d3 = 11) ∧
      (d4 = 4 ∨ d4 = 12) ∧ (d5 = 5 ∨ d5 = 13) ∧ (d6 = 6 ∨ d6 = 14) ∧ (d7 = 7 ∨ d7 = 15) then
    some (blendImm 32 x y (d0 / 8 * 1 + d1 / 9 * 2 + d2 / 10 * 4 + d3 / 11 * 8 + d4 / 12 * 16 +
      d5 / 13 * 32 + d6 / 14 * 64 + d7 / 15 * 128))
  else none

/-- `_mm256_setr_epi32`, `_mm256_setr_pd` and similar. -/
def setr {n : Nat} (w : Nat) (l : List (BitVec w)) : BitVec n := ofLanes w fun j => l.getD j 0

/-! ### AVX2, sixteen entries of 16 bits (/repo/Vc/avx/detail.h:1329-1720) -/

/-- `interleave` of two vectors (lines 1330-1353). -/
def il16x2 (m : ILMem 16) (data : Int) (i : Nat → Int) (v0 v1 : M256) : Option (ILMem 16) := do
  let tmp0 := unpacklo256 16 v0 v1
  let tmp1 := unpackhi256 16 v0 v1
  let m ← ilStore 2 m (data + i 0) (lane 32 (lo128 tmp0) 0)
  let m ← ilStore 2 m (data + i 1) (lane 32 (lo128 tmp0) 1)
  let m ← ilStore 2 m (data + i 2) (lane 32 (lo128 tmp0) 2)
  let m ← ilStore 2 m (data + i 3) (lane 32 (lo128 tmp0) 3)
  let m ← ilStore 2 m (data + i 4) (lane 32 (lo128 tmp1) 0)
  let m ← ilStore 2 m (data + i 5) (lane 32 (lo128 tmp1) 1)
  let m ← ilStore 2 m (data + i 6) (lane 32 (lo128 tmp1) 2)
  let m ← ilStore 2 m (data + i 7) (lane 32 (lo128 tmp1) 3)
  let m ← ilStore 2 m (data + i 8) (lane 32 (hi128 tmp0) 0)
  let m ← ilStore 2 m (data + i 9) (lane 32 (hi128 tmp0) 1)
  let m ← ilStore 2 m (data + i 10) (lane 32 (hi128 tmp0) 2)
  let m ← ilStore 2 m (data + i 11) (lane 32 (hi128 tmp0) 3)
  let m ← ilStore 2 m (data + i 12) (lane 32 (hi128 tmp1) 0)
  let m ← ilStore 2 m (data + i 13) (lane 32 (hi128 tmp1) 1)
  let m ← ilStore 2 m (data + i 14) (lane 32 (hi128 tmp1) 2)
  ilStore 2 m (data + i 15) (lane 32 (hi128 tmp1) 3)

/-- `interleave` of two vectors into successive structs of two entries (lines 1354-1361). -/
def il16x2s (m : ILMem 16) (data : Int) (i : Nat → Int) (v0 v1 : M256) : Option (ILMem 16) := do
  let tmp0 := unpacklo256 16 v0 v1
  let tmp1 := unpackhi256 16 v0 v1
  let m ← ilStore 16 m (data + i 0) (← memShuffle128 0 8 tmp0 tmp1)
  ilStore 16 m (data + i 8) (← memShuffle128 1 9 tmp0 tmp1)

/-- `interleave` of three vectors (lines 1362-1367). -/
def il16x3 (m : ILMem 16) (data : Int) (i : Nat → Int) (v0 v1 v2 : M256) : Option (ILMem 16) := do
  let m ← il16x2 m data i v0 v1
  scatterAll 16 m (data + 2) i v2

/-- The registers `tmp4` … `tmp7` (lines 1372-1380). -/
def il16Quads (v0 v1 v2 v3 : M256) : M256 × M256 × M256 × M256 :=
  let tmp0 := unpacklo256 16 v0 v2
  let tmp1 := unpackhi256 16 v0 v2
  let tmp2 := unpacklo256 16 v1 v3
  let tmp3 := unpackhi256 16 v1 v3
  (unpacklo256 16 tmp0 tmp2, unpackhi256 16 tmp0 tmp2, unpacklo256 16 tmp1 tmp3,
    unpackhi256 16 tmp1 tmp3)

/-- The lambda `store` (lines 1383-1388). -/
def il16Store (m : ILMem 16) (data : Int) (i : Nat → Int) (x : M256) (offset : Nat) :
    Option (ILMem 16) := do
  let m ← ilStore 4 m (data + i (offset + 0)) (lane 64 (lo128 x) 0)
  let m ← ilStore 4 m (data + i (offset + 8)) (lane 64 (hi128 x) 0)
  let m ← ilStore 4 m (data + i (offset + 1)) (lane 64 (lo128 x) 1)
  ilStore 4 m (data + i (offset + 9)) (lane 64 (hi128 x) 1)

/-- `interleave` of four vectors (lines 1368-1393). -/
def il16x4 (m : ILMem 16) (data : Int) (i : Nat → Int) (v0 v1 v2 v3 : M256) : Option (ILMem 16) :=
  let (tmp4, tmp5, tmp6, tmp7) := il16Quads v0 v1 v2 v3
  do
  let m ← il16Store m data i tmp4 0
  let m ← il16Store m data i tmp5 2
  let m ← il16Store m data i tmp6 4
  il16Store m data i tmp7 6

/-- `interleave` of four vectors into successive structs of four entries (lines 1394-1414). -/
def il16x4s (m : ILMem 16) (data : Int) (i : Nat → Int) (v0 v1 v2 v3 : M256) : Option (ILMem 16) :=
  let (tmp4, tmp5, tmp6, tmp7) := il16Quads v0 v1 v2 v3
  do
  let m ← ilStore 16 m (data + i 0) (← memShuffle128 0 8 tmp4 tmp5)
  let m ← ilStore 16 m (data + i 4) (← memShuffle128 0 8 tmp6 tmp7)
  let m ← ilStore 16 m (data + i 8) (← memShuffle128 1 9 tmp4 tmp5)
  ilStore 16 m (data + i 12) (← memShuffle128 1 9 tmp6 tmp7)

/-- `deinterleave` into two variables (lines 1456-1481). -/
def de16x2 (m : ILMem 16) (data : Int) (i : Nat → Int) : Option (List M256) := do
  let r ← loadAll 32 16 2 m data i
  let tmp4 : M256 := setr 32 [r 0, r 1, r 2, r 3, r 8, r 9, r 10, r 11]
  let tmp5 : M256 := setr 32 [r 4, r 5, r 6, r 7, r 12, r 13, r 14, r 15]
  let tmp2 := unpacklo256 16 tmp4 tmp5
  let tmp3 := unpackhi256 16 tmp4 tmp5
  let tmp0 := unpacklo256 16 tmp2 tmp3
  let tmp1 := unpackhi256 16 tmp2 tmp3
  some [unpacklo256 16 tmp0 tmp1, unpackhi256 16 tmp0 tmp1]

/-- `deinterleave` into 3 or 4 variables (lines 1482-1544). -/
def de16x4 (k : Nat) (m : ILMem 16) (data : Int) (i : Nat → Int) : Option (List M256) := do
  let r ← loadAll 64 16 4 m data i
  let tmp0 : M256 := setr 64 [r 0, r 1, r 8, r 9]
  let tmp1 : M256 := setr 64 [r 2, r 3, r 10, r 11]
  let tmp2 : M256 := setr 64 [r 4, r 5, r 12, r 13]
  let tmp3 : M256 := setr 64 [r 6, r 7, r 14, r 15]
  let tmp4 := unpacklo256 16 tmp0 tmp2
  let tmp5 := unpackhi256 16 tmp0 tmp2
  let tmp6 := unpacklo256 16 tmp1 tmp3
  let tmp7 := unpackhi256 16 tmp1 tmp3
  let tmp8 := unpacklo256 16 tmp4 tmp6
  let tmp9 := unpackhi256 16 tmp4 tmp6
  let tmp10 := unpacklo256 16 tmp5 tmp7
  let tmp11 := unpackhi256 16 tmp5 tmp7
  some ([unpacklo256 16 tmp8 tmp10, unpackhi256 16 tmp8 tmp10, unpacklo256 16 tmp9 tmp11,
    unpackhi256 16 tmp9 tmp11].take k)

/-- `v0` … `v3` from the loads `a` … `h` (lines 1567-1587). -/
def de16Lo (a b c d e f g h : M256) : List M256 :=
  let tmp2 := unpacklo256 16 a e
  let tmp4 := unpacklo256 16 b f
  let tmp3 := unpacklo256 16 c g
  let tmp5 := unpacklo256 16 d h
  let tmp0 := unpacklo256 16 tmp2 tmp3
  let tmp1 := unpacklo256 16 tmp4 tmp5
  let tmp6 := unpackhi256 16 tmp2 tmp3
  let tmp7 := unpackhi256 16 tmp4 tmp5
  [unpacklo256 16 tmp0 tmp1, unpackhi256 16 tmp0 tmp1, unpacklo256 16 tmp6 tmp7,
    unpackhi256 16 tmp6 tmp7]

/-- `v4` … `v7` (lines 1697-1718). -/
def de16Hi (a b c d e f g h : M256) : List M256 :=
  let tmp10 := unpackhi256 16 a e
  let tmp11 := unpackhi256 16 c g
  let tmp12 := unpackhi256 16 b f
  let tmp13 := unpackhi256 16 d h
  let tmp8 := unpacklo256 16 tmp10 tmp11
  let tmp9 := unpacklo256 16 tmp12 tmp13
  let tmp14 := unpackhi256 16 tmp10 tmp11
  let tmp15 := unpackhi256 16 tmp12 tmp13
  [unpacklo256 16 tmp8 tmp9, unpackhi256 16 tmp8 tmp9, unpacklo256 16 tmp14 tmp15,
    unpackhi256 16 tmp14 tmp15]

/-- `deinterleave` into 5 to 8 variables (lines 1545-1719). -/
def de16x8 (k : Nat) (m : ILMem 16) (data : Int) (i : Nat → Int) : Option (List M256) := do
  let r ← loadAll 128 16 8 m data i
  let a := concat128 (r 0) (r 8)
  let b := concat128 (r 1) (r 9)
  let c := concat128 (r 2) (r 10)
  let d := concat128 (r 3) (r 11)
  let e := concat128 (r 4) (r 12)
  let f := concat128 (r 5) (r 13)
  let g := concat128 (r 6) (r 14)
  let h := concat128 (r 7) (r 15)
  some ((de16Lo a b c d e f g h ++ de16Hi a b c d e f g h).take k)

/-- `deinterleave` of the AVX2 short vectors into `k` variables. -/
def de16 (k : Nat) (m : ILMem 16) (data : Int) (i : Nat → Int) : Option (List M256) :=
  match k with
  | 2 => de16x2 m data i
  | 3 => de16x4 3 m data i
  | 4 => de16x4 4 m data i
  | 5 => de16x8 5 m data i
  | 6 => de16x8 6 m data i
  | 7 => de16x8 7 m data i
  | 8 => de16x8 8 m data i
  | _ => none

/-! ### AVX, eight entries of 32 bits (/repo/Vc/avx/detail.h:1721-2134) -/

/-- `interleave` of two vectors (lines 1723-1739). -/
def ilA8x2 (m : ILMem 32) (data : Int) (i : Nat → Int) (v0 v1 : M256) : Option (ILMem 32) := do
  let tmp0 := unpacklo256 32 v0 v1
  let tmp1 := unpackhi256 32 v0 v1
  let m ← ilStore 2 m (data + i 0) (lane 64 (lo128 tmp0) 0)
  let m ← ilStore 2 m (data + i 1) (lane 64 (lo128 tmp0) 1)
  let m ← ilStore 2 m (data + i 2) (lane 64 (lo128 tmp1) 0)
  let m ← ilStore 2 m (data + i 3) (lane 64 (lo128 tmp1) 1)
  let m ← ilStore 2 m (data + i 4) (lane 64 (hi128 tmp0) 0)
  let m ← ilStore 2 m (data + i 5) (lane 64 (hi128 tmp0) 1)
  let m ← ilStore 2 m (data + i 6) (lane 64 (hi128 tmp1) 0)
  ilStore 2 m (data + i 7) (lane 64 (hi128 tmp1) 1)

/-- `interleave` of two vectors into successive structs of two entries (lines 1740-1752). -/
def ilA8x2s (m : ILMem 32) (data : Int) (i : Nat → Int) (v0 v1 : M256) : Option (ILMem 32) := do
  let tmp0 := unpacklo256 32 v0 v1
  let tmp1 := unpackhi256 32 v0 v1
  let m ← ilStore 4 m (data + i 0) (lo128 tmp0)
  let m ← ilStore 4 m (data + i 2) (lo128 tmp1)
  let m ← ilStore 4 m (data + i 4) (hi128 tmp0)
  ilStore 4 m (data + i 6) (hi128 tmp1)

/-- `interleave` of three vectors (lines 1754-1786). -/
def ilA8x3 (C : ILCfg) (m : ILMem 32) (data : Int) (i : Nat → Int) (v0 v1 v2 : M256) :
    Option (ILMem 32) :=
  if C.maskmov then do
    let tmp0 := unpacklo256 32 v0 v2
    let tmp1 := unpackhi256 32 v0 v2
    let tmp2 := unpacklo256 32 v1 v1
    let tmp3 := unpackhi256 32 v1 v1
    let tmp4 := unpacklo256 32 tmp0 tmp2
    let tmp5 := unpackhi256 32 tmp0 tmp2
    let tmp6 := unpacklo256 32 tmp1 tmp3
    let tmp7 := unpackhi256 32 tmp1 tmp3
    let m ← ilMaskStore 4 m (data + i 0) maskEpi32 (lo128 tmp4)
    let m ← ilMaskStore 4 m (data + i 1) maskEpi32 (lo128 tmp5)
    let m ← ilMaskStore 4 m (data + i 2) maskEpi32 (lo128 tmp6)
    let m ← ilMaskStore 4 m (data + i 3) maskEpi32 (lo128 tmp7)
    let m ← ilMaskStore 4 m (data + i 4) maskEpi32 (hi128 tmp4)
    let m ← ilMaskStore 4 m (data + i 5) maskEpi32 (hi128 tmp5)
    let m ← ilMaskStore 4 m (data + i 6) maskEpi32 (hi128 tmp6)
    ilMaskStore 4 m (data + i 7) maskEpi32 (hi128 tmp7)
  else do
    let m ← ilA8x2 m data i v0 v1
    scatterAll 8 m (data + 2) i v2

/-- `interleave` of three vectors into successive structs of three entries (lines 1787-1823). -/
def ilA8x3s (m : ILMem 32) (data : Int) (i : Nat → Int) (v0 v1 v2 : M256) : Option (ILMem 32) := do
  let v0 := shufflePs256 v0 v0 0x6c
  let v1 := shufflePs256 v1 v1 0xb1
  let v2 := shufflePs256 v2 v2 0xc6
  let w0 ← memBlend8ps 0 1 10 3 12 5 6 15 (← memBlend8ps 0 9 2 3 4 5 14 7 v0 v1) v2
  let w1 ← memBlend8ps 0 9 2 3 4 13 6 7 (← memBlend8ps 8 1 2 11 12 5 6 15 v0 v1) v2
  let w2 ← memBlend8ps 8 1 2 11 4 5 14 7 (← memBlend8ps 0 1 10 3 4 13 6 7 v0 v1) v2
  let m ← ilStore 8 m (data + i 0) (permute2f128 w0 w1 0x20)
  let m ← ilStore 8 m (data + i 0 + 8) w2
  ilStore 8 m (data + i 0 + 16) (permute2f128 w1 w0 0x31)

/-- The registers `_04`, `_15`, `_26`, `_37` (lines 1832-1843, 1858-1869). -/
def ilA8Quads (v0 v1 v2 v3 : M256) : M256 × M256 × M256 × M256 :=
  let tmp0 := unpacklo256 32 v0 v2
  let tmp1 := unpackhi256 32 v0 v2
  let tmp2 := unpacklo256 32 v1 v3
  let tmp3 := unpackhi256 32 v1 v3
  (unpacklo256 32 tmp0 tmp2, unpackhi256 32 tmp0 tmp2, unpacklo256 32 tmp1 tmp3,
    unpackhi256 32 tmp1 tmp3)

/-- `interleave` of four vectors (lines 1824-1849). -/
def ilA8x4 (m : ILMem 32) (data : Int) (i : Nat → Int) (v0 v1 v2 v3 : M256) : Option (ILMem 32) :=
  let (x04, x15, x26, x37) := ilA8Quads v0 v1 v2 v3
  do
  let m ← ilStore 4 m (data + i 0) (lo128 x04)
  let m ← ilStore 4 m (data + i 1) (lo128 x15)
  let m ← ilStore 4 m (data + i 2) (lo128 x26)
  let m ← ilStore 4 m (data + i 3) (lo128 x37)
  let m ← ilStore 4 m (data + i 4) (hi128 x04)
  let m ← ilStore 4 m (data + i 5) (hi128 x15)
  let m ← ilStore 4 m (data + i 6) (hi128 x26)
  ilStore 4 m (data + i 7) (hi128 x37)

/-- `interleave` of four vectors into successive structs of four entries (lines 1850-1878). -/
def ilA8x4s (m : ILMem 32) (data : Int) (i : Nat → Int) (v0 v1 v2 v3 : M256) : Option (ILMem 32) :=
  let (x04, x15, x26, x37) := ilA8Quads v0 v1 v2 v3
  do
  let m ← ilStore 8 m (data + i 0) (permute2f128 x04 x15 0x20)
  let m ← ilStore 8 m (data + i 0 + 8) (permute2f128 x26 x37 0x20)
  let m ← ilStore 8 m (data + i 0 + 16) (permute2f128 x04 x15 0x31)
  ilStore 8 m (data + i 0 + 24) (permute2f128 x26 x37 0x31)

/-- `deinterleave` into two variables (lines 1918-1940); `_mm_loadl_pi` and `_mm_loadh_pi` load two
entries each. -/
def deA8x2 (m : ILMem 32) (data : Int) (i : Nat → Int) : Option (List M256) := do
  let r ← loadAll 64 8 2 m data i
  let il01 : M128 := setr 64 [r 0, r 1]
  let il23 : M128 := setr 64 [r 2, r 3]
  let il45 : M128 := setr 64 [r 4, r 5]
  let il67 : M128 := setr 64 [r 6, r 7]
  let tmp2 := concat128 il01 il45
  let tmp3 := concat128 il23 il67
  let tmp0 := unpacklo256 32 tmp2 tmp3
  let tmp1 := unpackhi256 32 tmp2 tmp3
  some [unpacklo256 32 tmp0 tmp1, unpackhi256 32 tmp0 tmp1]

/-- `deinterleave` of successive structs of two entries (lines 1941-1957). -/
def deA8x2s (m : ILMem 32) (data : Int) (i : Nat → Int) : Option (List M256) := do
  let r ← loadAll 256 2 8 m data fun c => i (4 * c)
  let tmp2 ← memShuffle128 0 8 (r 0) (r 1)
  let tmp3 ← memShuffle128 1 9 (r 0) (r 1)
  let tmp0 := unpacklo256 32 tmp2 tmp3
  let tmp1 := unpackhi256 32 tmp2 tmp3
  some [unpacklo256 32 tmp0 tmp1, unpackhi256 32 tmp0 tmp1]

/-- `deinterleave` into 3 or 4 variables (lines 1958-1984, 2025-2051). -/
def deA8x4 (k : Nat) (m : ILMem 32) (data : Int) (i : Nat → Int) : Option (List M256) := do
  let r ← loadAll 128 8 4 m data i
  let il04 := concat128 (r 0) (r 4)
  let il15 := concat128 (r 1) (r 5)
  let il26 := concat128 (r 2) (r 6)
  let il37 := concat128 (r 3) (r 7)
  let ab0246 := unpacklo256 32 il04 il26
  let ab1357 := unpacklo256 32 il15 il37
  let cd0246 := unpackhi256 32 il04 il26
  let cd1357 := unpackhi256 32 il15 il37
  some ([unpacklo256 32 ab0246 ab1357, unpackhi256 32 ab0246 ab1357, unpacklo256 32 cd0246 cd1357,
    unpackhi256 32 cd0246 cd1357].take k)

/-- `deinterleave` of successive structs of three entries (lines 1985-2024). -/
def deA8x3s (m : ILMem 32) (data : Int) (i : Nat → Int) : Option (List M256) := do
  let r ← loadAll 256 3 8 m data fun c => i 0 + 8 * Int.ofNat c
  let aaabffgg := permute2f128 (r 0) (r 2) 0x20
  let cdddeeef := r 1
  let bbccghhh := permute2f128 (r 0) (r 2) 0x31
  let x0 := blendImm 32 (blendImm 32 aaabffgg cdddeeef (0 + 2 + 0 + 0 + 0x10 + 0 + 0 + 0x80))
    bbccghhh (0 + 0 + 4 + 0 + 0 + 0x20 + 0 + 0)
  let x1 := blendImm 32 (blendImm 32 aaabffgg cdddeeef (0 + 0 + 4 + 0 + 0 + 0x20 + 0 + 0))
    bbccghhh (1 + 0 + 0 + 8 + 0 + 0 + 0x40 + 0)
  let x2 := blendImm 32 (blendImm 32 aaabffgg cdddeeef (1 + 0 + 0 + 8 + 0 + 0 + 0x40 + 0))
    bbccghhh (0 + 2 + 0 + 0 + 0x10 + 0 + 0 + 0x80)
  some [shufflePs256 x0 x0 0x6c, shufflePs256 x1 x1 0xb1, shufflePs256 x2 x2 0xc6]

/-- `deinterleave` of successive structs of four entries (lines 2052-2080). -/
def deA8x4s (m : ILMem 32) (data : Int) (i : Nat → Int) : Option (List M256) := do
  let r ← loadAll 256 4 8 m data fun c => i (2 * c)
  let il04 := permute2f128 (r 0) (r 2) 0x20
  let il15 := permute2f128 (r 0) (r 2) 0x31
  let il26 := permute2f128 (r 1) (r 3) 0x20
  let il37 := permute2f128 (r 1) (r 3) 0x31
  let ab0246 := unpacklo256 32 il04 il26
  let ab1357 := unpacklo256 32 il15 il37
  let cd0246 := unpackhi256 32 il04 il26
  let cd1357 := unpackhi256 32 il15 il37
  some [unpacklo256 32 ab0246 ab1357, unpackhi256 32 ab0246 ab1357, unpacklo256 32 cd0246 cd1357,
    unpackhi256 32 cd0246 cd1357]

/-- `deinterleave` of successive structs of six entries (lines 2093-2122). -/
def deA8x6s (m : ILMem 32) (data : Int) (i : Nat → Int) : Option (List M256) := do
  let r ← loadAll 256 6 8 m data fun c => i 0 + Int.ofNat c * 8
  let a := r 0
  let b := r 1
  let c := r 2
  let d := r 3
  let e := r 4
  let f := r 5
  let tmp2 ← memShuffle128 0 8 a d
  let tmp3 ← memShuffle128 1 9 b e
  let tmp4 ← memShuffle128 1 9 a d
  let tmp5 ← memShuffle128 0 8 c f
  let tmp8 ← memShuffle128 0 8 b e
  let tmp9 ← memShuffle128 1 9 c f
  let tmp0 := unpacklo256 32 tmp2 tmp3
  let tmp1 := unpackhi256 32 tmp4 tmp5
  let tmp6 := unpackhi256 32 tmp2 tmp3
  let tmp7 := unpacklo256 32 tmp8 tmp9
  let tmp10 := unpacklo256 32 tmp4 tmp5
  let tmp11 := unpackhi256 32 tmp8 tmp9
  some [unpacklo256 32 tmp0 tmp1, unpackhi256 32 tmp0 tmp1, unpacklo256 32 tmp6 tmp7,
    unpackhi256 32 tmp6 tmp7, unpacklo256 32 tmp10 tmp11, unpackhi256 32 tmp10 tmp11]

/-! ### AVX, four entries of 64 bits (/repo/Vc/avx/detail.h:2135-2331) -/

/-- `interleave` of two vectors (lines 2136-2147). -/
def ilA4x2 (m : ILMem 64) (data : Int) (i : Nat → Int) (v0 v1 : M256) : Option (ILMem 64) := do
  let tmp0 := unpacklo256 64 v0 v1
  let tmp1 := unpackhi256 64 v0 v1
  let m ← ilStore 2 m (data + i 0) (lo128 tmp0)
  let m ← ilStore 2 m (data + i 1) (lo128 tmp1)
  let m ← ilStore 2 m (data + i 2) (hi128 tmp0)
  ilStore 2 m (data + i 3) (hi128 tmp1)

/-- `_mm256_set_epi64x(0, -1, -1, -1)`. -/
def maskEpi64 : M256 := setr 64 [-1, -1, -1, 0]

/-- `interleave` of three vectors (lines 2148-2175). -/
def ilA4x3 (C : ILCfg) (m : ILMem 64) (data : Int) (i : Nat → Int) (v0 v1 v2 : M256) :
    Option (ILMem 64) :=
  if C.maskmov then do
    let tmp0 := unpacklo256 64 v0 v1
    let tmp1 := unpackhi256 64 v0 v1
    let tmp2 := unpacklo256 64 v2 v2
    let tmp3 := unpackhi256 64 v2 v2
    let m ← ilMaskStore 4 m (data + i 0) maskEpi64 (← memShuffle128 0 8 tmp0 tmp2)
    let m ← ilMaskStore 4 m (data + i 1) maskEpi64 (← memShuffle128 0 8 tmp1 tmp3)
    let m ← ilMaskStore 4 m (data + i 2) maskEpi64 (← memShuffle128 1 9 tmp0 tmp2)
    ilMaskStore 4 m (data + i 3) maskEpi64 (← memShuffle128 1 9 tmp1 tmp3)
  else do
    let m ← ilA4x2 m data i v0 v1
    scatterAll 4 m (data + 2) i v2

/-- `interleave` of four vectors (lines 2176-2207). -/
def ilA4x4 (m : ILMem 64) (data : Int) (i : Nat → Int) (v0 v1 v2 v3 : M256) : Option (ILMem 64) := do
  let tmp0 := unpacklo256 64 v0 v1
  let tmp1 := unpackhi256 64 v0 v1
  let tmp2 := unpacklo256 64 v2 v3
  let tmp3 := unpackhi256 64 v2 v3
  let m ← ilStore 2 m (data + i 0) (lo128 tmp0)
  let m ← ilStore 2 m (data + (i 0 + 2)) (lo128 tmp2)
  let m ← ilStore 2 m (data + i 1) (lo128 tmp1)
  let m ← ilStore 2 m (data + (i 1 + 2)) (lo128 tmp3)
  let m ← ilStore 2 m (data + i 2) (hi128 tmp0)
  let m ← ilStore 2 m (data + (i 2 + 2)) (hi128 tmp2)
  let m ← ilStore 2 m (data + i 3) (hi128 tmp1)
  ilStore 2 m (data + (i 3 + 2)) (hi128 tmp3)

/-- `deinterleave` into two variables (lines 2249-2258). -/
def deA4x2 (m : ILMem 64) (data : Int) (i : Nat → Int) : Option (List M256) := do
  let r ← loadAll 128 4 2 m data i
  let ab02 := concat128 (r 0) (r 2)
  let ab13 := concat128 (r 1) (r 3)
  some [unpacklo256 64 ab02 ab13, unpackhi256 64 ab02 ab13]

/-! ### The overloads for 5 to 8 arguments -/

/-- `interleave` of 2 to 8 vectors from the overloads for 2, 3 and 4: five arguments scatter the last
one, six to eight call the overload for four and then one for the rest at `data + 4`
(/repo/Vc/sse/detail.h:942-979, 1263-1300, 1402-1439, /repo/Vc/avx/detail.h:1415-1452, 1879-1916,
2208-2245). -/
def ilMany {n w : Nat} (size : Nat)
    (f2 : ILMem w → Int → (Nat → Int) → BitVec n → BitVec n → Option (ILMem w))
    (f3 : ILMem w → Int → (Nat → Int) → BitVec n → BitVec n → BitVec n → Option (ILMem w))
    (f4 : ILMem w → Int → (Nat → Int) → BitVec n → BitVec n → BitVec n → BitVec n →
      Option (ILMem w))
    (m : ILMem w) (data : Int) (i : Nat → Int) : List (BitVec n) → Option (ILMem w)
  | [v0, v1] => f2 m data i v0 v1
  | [v0, v1, v2] => f3 m data i v0 v1 v2
  | [v0, v1, v2, v3] => f4 m data i v0 v1 v2 v3
  | [v0, v1, v2, v3, v4] => do
    let m ← f4 m data i v0 v1 v2 v3
    scatterAll size m (data + 4) i v4
  | [v0, v1, v2, v3, v4, v5] => do
    let m ← f4 m data i v0 v1 v2 v3
    f2 m (data + 4) i v4 v5
  | [v0, v1, v2, v3, v4, v5, v6] => do
    let m ← f4 m data i v0 v1 v2 v3
    f3 m (data + 4) i v4 v5 v6
  | [v0, v1, v2, v3, v4, v5, v6, v7] => do
    let m ← f4 m data i v0 v1 v2 v3
    f4 m (data + 4) i v4 v5 v6 v7
  | _ => none

/-- `deinterleave` of the vectors with 32 bit entries into `k` variables
(/repo/Vc/sse/detail.h:1351-1374, /repo/Vc/avx/detail.h:2081-2092, 2123-2133). -/
def deMany {n w : Nat} (size : Nat) (g2 g3 g4 : ILMem w → Int → (Nat → Int) → Option (List (BitVec n)))
    (k : Nat) (m : ILMem w) (data : Int) (i : Nat → Int) : Option (List (BitVec n)) :=
  match k with
  | 2 => g2 m data i
  | 3 => g3 m data i
  | 4 => g4 m data i
  | 5 => do some ((← g4 m data i) ++ [← gatherAll n size m (data + 4) i])
  | 6 => do some ((← g4 m data i) ++ (← g2 m (data + 4) i))
  | 7 => do some ((← g4 m data i) ++ (← g3 m (data + 4) i))
  | 8 => do some ((← g4 m data i) ++ (← g4 m (data + 4) i))
  | _ => none

/-- `deinterleave` of the vectors with 64 bit entries into `k` variables: pairs, and a gather for the
last one of an odd number (/repo/Vc/sse/detail.h:1450-1491, /repo/Vc/avx/detail.h:2259-2330). -/
def dePairs {n w : Nat} (size : Nat) (g2 : ILMem w → Int → (Nat → Int) → Option (List (BitVec n)))
    (k : Nat) (m : ILMem w) (data : Int) (i : Nat → Int) : Option (List (BitVec n)) :=
  match k with
  | 2 => g2 m data i
  | 3 => do some ((← g2 m data i) ++ [← gatherAll n size m (data + 2) i])
  | 4 => do some ((← g2 m data i) ++ (← g2 m (data + 2) i))
  | 5 => do
    some ((← g2 m data i) ++ (← g2 m (data + 2) i) ++ [← gatherAll n size m (data + 4) i])
  | 6 => do some ((← g2 m data i) ++ (← g2 m (data + 2) i) ++ (← g2 m (data + 4) i))
  | 7 => do
    some ((← g2 m data i) ++ (← g2 m (data + 2) i) ++ (← g2 m (data + 4) i) ++
      [← gatherAll n size m (data + 6) i])
  | 8 => do
    some ((← g2 m data i) ++ (← g2 m (data + 2) i) ++ (← g2 m (data + 4) i) ++
      (← g2 m (data + 6) i))
  | _ => none

/-! ### `InterleaveImpl<V, V::Size, sizeof(V)>` -/

/-- The vector types: scalar (of any entry width), SSE and AVX. -/
inductive ILVec where
  | scalar (w : Nat)
  | sse8 | sse4 | sse2
  | avx16 | avx8 | avx4

namespace ILVec

/-- Bits of an entry. -/
def width : ILVec → Nat
  | scalar w => w
  | sse8 => 16 | sse4 => 32 | sse2 => 64
  | avx16 => 16 | avx8 => 32 | avx4 => 64

/-- `V::Size`. -/
def size : ILVec → Nat
  | scalar _ => 1
  | sse8 => 8 | sse4 => 4 | sse2 => 2
  | avx16 => 16 | avx8 => 8 | avx4 => 4

/-- Bits of the vector. -/
def bits : ILVec → Nat
  | scalar w => w
  | sse8 | sse4 | sse2 => 128
  | avx16 | avx8 | avx4 => 256

/-- `interleave` with an index vector. -/
def interleave (C : ILCfg) : (V : ILVec) → ILMem V.width → Int → (Nat → Int) → List (BitVec V.bits) →
    Option (ILMem V.width)
  | scalar _ => ilScalar
  | sse8 => ilMany 8 (il8x2 C) (il8x3 C) il8x4
  | sse4 => ilMany 4 il4x2 (il4x3 C) il4x4
  | sse2 => ilMany 2 il2x2 il2x3 il2x4
  | avx16 => ilMany 16 il16x2 il16x3 il16x4
  | avx8 => ilMany 8 ilA8x2 (ilA8x3 C) ilA8x4
  | avx4 => ilMany 4 ilA4x2 (ilA4x3 C) ilA4x4

/-- `deinterleave` with an index vector into `k` variables. -/
def deinterleave : (V : ILVec) → Nat → ILMem V.width → Int → (Nat → Int) →
    Option (List (BitVec V.bits))
  | scalar _ => deScalar
  | sse8 => de8
  | sse4 => deMany 4 de4x2 de4x3 de4x4
  | sse2 => dePairs 2 de2x2
  | avx16 => de16
  | avx8 => deMany 8 deA8x2 (deA8x4 3) (deA8x4 4)
  | avx4 => dePairs 4 deA4x2

/-- `interleave` with `SuccessiveEntries<S>`: overload resolution prefers the functions that name the
struct size (the templates that take more arguments call `interleave` again with the same index
object). -/
def interleaveS (C : ILCfg) (S : Nat) : (V : ILVec) → ILMem V.width → Int → (Nat → Int) →
    List (BitVec V.bits) → Option (ILMem V.width)
  | scalar _ => ilScalar
  | sse8 => ilMany 8 (if S = 2 then il8x2s else il8x2 C) (il8x3 C) (if S = 4 then il8x4s else il8x4)
  | sse4 => ilMany 4 (if S = 2 then il4x2s else il4x2) (il4x3 C) il4x4
  | sse2 => ilMany 2 il2x2 il2x3 il2x4
  | avx16 => ilMany 16 (if S = 2 then il16x2s else il16x2) il16x3 (if S = 4 then il16x4s else il16x4)
  | avx8 => ilMany 8 (if S = 2 then ilA8x2s else ilA8x2) (if S = 3 then ilA8x3s else ilA8x3 C)
      (if S = 4 then ilA8x4s else ilA8x4)
  | avx4 => ilMany 4 ilA4x2 (ilA4x3 C) ilA4x4

/-- `deinterleave` with `SuccessiveEntries<S>` into `k` variables. -/
def deinterleaveS (S : Nat) : (V : ILVec) → Nat → ILMem V.width → Int → (Nat → Int) →
    Option (List (BitVec V.bits))
  | avx8 => fun k m data i =>
    if S = 6 ∧ k = 6 then deA8x6s m data i
    else deMany 8 (if S = 2 then deA8x2s else deA8x2) (if S = 3 then deA8x3s else deA8x4 3)
      (if S = 4 then deA8x4s else deA8x4 4) k m data i
  | V => V.deinterleave

end ILVec

/-! ### Indexes -/

/-- The scaled indexes of `InterleavedMemoryReadAccess` (/repo/Vc/common/interleavedmemory.h:84-99) in
the 32 bit arithmetic of `V::IndexType`: a shift for the struct sizes 1, 2, 4, 8 and 16, else a
multiplication. -/
def scaleIndex (S : Nat) (x : BitVec 32) : BitVec 32 :=
  if S = 1 then x
  else if S = 2 then x <<< 1
  else if S = 4 then x <<< 2
  else if S = 8 then x <<< 3
  else if S = 16 then x <<< 4
  else x * BitVec.ofNat 32 S

/-- The same for `SuccessiveEntries`, whose arithmetic is in `size_t`
(/repo/Vc/common/types.h:272-283); the factor is `I(int(StructSize))`. -/
def scaleFirst (S : Nat) (x : BitVec 64) : BitVec 64 :=
  if S = 1 then x
  else if S = 2 then x <<< 1
  else if S = 4 then x <<< 2
  else if S = 8 then x <<< 3
  else if S = 16 then x <<< 4
  else x * BitVec.ofNat 64 S

/-- `SuccessiveEntries::operator[]` (/repo/Vc/common/types.h:267-270). -/
def successive (S : Nat) (first : BitVec 64) (offset : Nat) : BitVec 64 :=
  first + BitVec.ofNat 64 offset * BitVec.ofNat 64 S

/-! ### `InterleavedMemoryWrapper` -/

/-- `(v0, ..., vk) = wrapper[indexes]` (/repo/Vc/common/interleavedmemory.h:59-62, 84-99, 275-278). `data`
is the address of the first struct, counted in entries; the index vector has signed 32 bit
components. The result is `none` if an access is to memory that does not exist. -/
def ilRead (V : ILVec) (S k : Nat) (m : ILMem V.width) (data : Int) (idx : Nat → BitVec 32) :
    Option (List (BitVec V.bits)) :=
  V.deinterleave k m data fun l => (scaleIndex S (idx l)).toInt

/-- `wrapper[indexes] = (v0, ..., vk)` (/repo/Vc/common/interleavedmemory.h:67-71, 146-163, 263-272) with
its `static_assert(N <= StructSize)`. -/
def ilWrite (C : ILCfg) (V : ILVec) (S : Nat) (m : ILMem V.width) (data : Int) (idx : Nat → BitVec 32)
    (vs : List (BitVec V.bits)) : Option (ILMem V.width) :=
  if vs.length ≤ S then V.interleave C m data (fun l => (scaleIndex S (idx l)).toInt) vs else none

/-- `(v0, ..., vk) = wrapper[first]` (/repo/Vc/common/interleavedmemory.h:317-320). -/
def ilReadS (V : ILVec) (S k : Nat) (m : ILMem V.width) (data : Int) (first : BitVec 64) :
    Option (List (BitVec V.bits)) :=
  V.deinterleaveS S k m data fun l => Int.ofNat (successive S (scaleFirst S first) l).toNat

/-- `wrapper[first] = (v0, ..., vk)` (/repo/Vc/common/interleavedmemory.h:322-325). -/
def ilWriteS (C : ILCfg) (V : ILVec) (S : Nat) (m : ILMem V.width) (data : Int) (first : BitVec 64)
    (vs : List (BitVec V.bits)) : Option (ILMem V.width) :=
  if vs.length ≤ S then
    V.interleaveS C S m data (fun l => Int.ofNat (successive S (scaleFirst S first) l).toNat) vs
  else none

end Vc.Model
