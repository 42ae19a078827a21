import Verif.Model.SseShuffle
import Verif.Model.Random

/-!
`Vector::sorted()` of the SSE and AVX vectors: sorting networks on registers.

The functions of the signed and the unsigned type of one size (and of int and float) consist of the same
instructions except for minimum and maximum; these are the parameters `mn` and `mx`.
-/

namespace Vc.Model

open Vc.Spec

/-- `sorted` of SSE short_v and ushort_v (/repo/src/sse_sorthelper.cpp:35-72, 74-111). -/
def sortSse16 (I : Isa) (mn mx : M128 → M128 → M128) (x : M128) : Option M128 := do
  let y ← memPermute8 1 0 3 2 5 4 7 6 x
  let lo := mn x y
  let hi := mx x y
  let x := blendEpi16 I 0xaa lo hi
  let y ← memPermute8 3 2 1 0 7 6 5 4 x
  let lo := mn x y
  let hi := mx x y
  let x := blendEpi16 I 0xcc lo hi
  let y := srliSi128 x 2
  let lo := mn x y
  let hi := mx x y
  let x := blendEpi16 I 0xaa lo (slliSi128 hi 2)
  let y := shuffleEpi32 x (mmShuffle 1 0 3 2)
  let y := shuffleloEpi16 y (mmShuffle 0 1 2 3)
  let lo := mn x y
  let hi := mx x y
  let x := unpacklo 16 lo hi
  let y := srliSi128 x 8
  let lo := mn x y
  let hi := mx x y
  let x := unpacklo 16 lo hi
  let y := srliSi128 x 8
  let lo := mn x y
  let hi := mx x y
  some (unpacklo 16 lo hi)

/-- `sorted` of SSE int_v and uint_v (/repo/src/sse_sorthelper.cpp:113-146, 148-166). -/
def sortSse32 (mn mx : M128 → M128 → M128) (x : M128) : M128 :=
  let y := shuffleEpi32 x (mmShuffle 2 3 0 1)
  let l := mn x y
  let h := mx x y
  let x := unpacklo 32 l h
  let y := unpackhi 32 h l
  let l := mn x y
  let h := mx x y
  let x := unpacklo 32 l h
  let y := unpackhi 64 x x
  let l := mn x y
  let h := mx x y
  unpacklo 32 l h

/-- `sorted` of SSE float_v (/repo/src/sse_sorthelper.cpp:168-185). -/
def sortSseFloat (x : M128) : M128 :=
  let y := shufflePs x x (mmShuffle 2 3 0 1)
  let l := vFMin f32 32 x y
  let h := vFMax f32 32 x y
  let x := unpacklo 32 l h
  let y := unpackhi 32 h l
  let l := vFMin f32 32 x y
  let h := vFMax f32 32 x y
  let x := unpacklo 32 l h
  let y := movehl x x
  let l := vFMin f32 32 x y
  let h := vFMax f32 32 x y
  unpacklo 32 l h

/-- `_mm_min_sd`, `_mm_max_sd`: the upper lane of the first operand is kept. -/
def minSd (a b : M128) : M128 :=
  ofLanes 64 fun i => if i = 0 then fMin f64 (lane 64 a 0) (lane 64 b 0) else lane 64 a 1
def maxSd (a b : M128) : M128 :=
  ofLanes 64 fun i => if i = 0 then fMax f64 (lane 64 a 0) (lane 64 b 0) else lane 64 a 1

/-- `sorted` of SSE double_v (/repo/Vc/sse/vector.tcc:617-622); `_MM_SHUFFLE2(0, 1)` is 1. -/
def sortSseDouble (x : M128) : M128 :=
  let y := shufflePd x x 1
  unpacklo 64 (minSd x y) (maxSd x y)

/-- `AVX::lo128`, `AVX::hi128` (/repo/Vc/avx/casts.h:112-117). -/
def lo128 (x : M256) : M128 := x.extractLsb' 0 128
def hi128 (x : M256) : M128 := x.extractLsb' 128 128

/-- `Reg::permute` of `__m128d` with AVX (/repo/Vc/avx/shuffle.h:286-290). -/
def regPermutePd (d1 d0 : Nat) (x : M128) : Option M128 :=
  if d0 ≤ 1 ∧ d1 ≤ 1 then some (shufflePd x x (d0 + d1 * 2)) else none

/-- `Reg::permute` of `__m128` with AVX (/repo/Vc/avx/shuffle.h:291-295). -/
def regPermutePs (d3 d2 d1 d0 : Nat) (x : M128) : Option M128 :=
  if d0 ≤ 3 ∧ d1 ≤ 3 ∧ d2 ≤ 3 ∧ d3 ≤ 3 then
    some (shufflePs x x (d0 + d1 * 4 + d2 * 16 + d3 * 64))
  else none

/-- `Mem::blend<X0, Y1, X2, Y3, X4, Y5, X6, Y7>` and `Mem::blend<X0, X1, Y2, Y3, X4, X5, Y6, Y7>`. -/
def blendOdd (I : Isa) (x y : M128) : Option M128 := memBlend8 I 0 9 2 11 4 13 6 15 x y
def blendPairs (I : Isa) (x y : M128) : Option M128 := memBlend8 I 0 1 10 11 4 5 14 15 x y

/-- `sorted` of AVX2 short_v and ushort_v (/repo/src/avx_sorthelper.cpp:37-142, 144-218). -/
def sortAvx16 (I : Isa) (mn mx : M128 → M128 → M128) (v : M256) : Option M256 := do
  -- sort pairs
  let x := lo128 v
  let y := hi128 v
  let l := mn x y
  let h := mx x y
  -- merge left and right quads
  let x := unpacklo 16 l h
  let y := unpackhi 16 h l
  let l := mn x y
  let h := mx x y
  let x ← memPermuteLo 1 0 3 2 (← blendOdd I l h)
  let y ← memPermuteHi 5 4 7 6 (← blendOdd I h l)
  let l := mn x y
  let h := mx x y
  -- merge quads into octs
  let x := unpacklo 16 h l
  let y := unpackhi 16 l h
  let l := mn x y
  let h := mx x y
  let x ← memPermuteLo 2 3 0 1 (← blendPairs I h l)
  let y ← memPermuteHi 6 7 4 5 (← blendPairs I l h)
  let l := mn x y
  let h := mx x y
  let x ← memPermuteHi 5 4 7 6 (← blendOdd I l h)
  let y ← memPermuteLo 1 0 3 2 (← blendOdd I h l)
  let l := mn x y
  let h := mx x y
  -- merge octs into hexa
  let x := unpacklo 16 l h
  let y := unpackhi 16 h l
  let l := mn x y
  let h := mx x y
  let x := unpacklo 64 l h
  let y := unpackhi 64 l h
  let l := mn x y
  let h := mx x y
  let x ← memPermutePs 1 0 3 2 (← memBlend4 I 0 9 2 11 h l)
  let y ← memBlend4 I 0 9 2 11 l h
  let l := mn x y
  let h := mx x y
  let x ← blendOdd I l h
  let y ← memPermuteLo 1 0 3 2 (← memPermuteHi 5 4 7 6 (← blendOdd I h l))
  let l := mn x y
  let h := mx x y
  some (concat128 (unpacklo 16 l h) (unpackhi 16 l h))

/-- The part of `sorted` of the AVX int_v, uint_v and float_v before the merge: `x`, `y`, `a` and `b`
(/repo/src/avx_sorthelper.cpp:222-239, 268-285, 314-330); `perm` is `Reg::permute`. -/
def sortAvx32Halves (perm : Nat → Nat → Nat → Nat → M128 → Option M128)
    (mn mx : M128 → M128 → M128) (v : M256) : Option (M128 × M128 × M128 × M128) := do
  let hgfe := hi128 v
  let dcba := lo128 v
  let l := mn hgfe dcba
  let h := mx hgfe dcba
  let x := unpacklo 32 l h
  let y := unpackhi 32 l h
  let l := mn x y
  let h := mx x y
  let x := mn l (← perm 2 2 0 0 h)
  let y := mx h (← perm 3 3 1 1 l)
  let b ← regShuffle4 8 9 0 1 y x
  let a := unpackhi 64 x y
  some (x, y, a, b)

/-- The merge (/repo/src/avx_sorthelper.cpp:248-262, 293-307, 332-346). -/
def sortAvx32Merge (mn mx : M128 → M128 → M128) (a b : M128) : M256 :=
  let l := mn a b
  let h := mx a b
  let a := unpacklo 32 l h
  let b := unpackhi 32 l h
  let l := mn a b
  let h := mx a b
  let a := unpacklo 32 l h
  let b := unpackhi 32 l h
  let l := mn a b
  let h := mx a b
  concat128 (unpacklo 32 l h) (unpackhi 32 l h)

/-- `sorted` of AVX2 int_v and uint_v (/repo/src/avx_sorthelper.cpp:220-263, 265-308); `ge` is the
comparison of extracted lanes. -/
def sortAvx32 (mn mx : M128 → M128 → M128) (ge : BitVec 32 → BitVec 32 → Bool) (v : M256) :
    Option M256 := do
  let (x, y, a, b) ← sortAvx32Halves regPermute4 mn mx v
  if ge (lane 32 x 2) (lane 32 y 1) then return concat128 (← regPermute4 0 1 2 3 b) a
  else if ge (lane 32 x 0) (lane 32 y 3) then return concat128 a (← regPermute4 0 1 2 3 b)
  else return sortAvx32Merge mn mx a b

/-- `sorted` of AVX float_v (/repo/src/avx_sorthelper.cpp:311-347). -/
def sortAvxFloat (v : M256) : Option M256 := do
  let (_, _, a, b) ← sortAvx32Halves regPermutePs (vFMin f32 32) (vFMax f32 32) v
  return sortAvx32Merge (vFMin f32 32) (vFMax f32 32) a b

/-- `sorted` of AVX double_v (/repo/src/avx_sorthelper.cpp:386-429). -/
def sortAvxDouble (v : M256) : Option M256 := do
  let l := vFMin f64 64 (lo128 v) (hi128 v)
  let h := vFMax f64 64 (lo128 v) (hi128 v)
  let h0_l0 := unpacklo 64 l h
  let h1_l1 := unpackhi 64 l h
  let l := vFMin f64 64 h0_l0 h1_l1
  let h := vFMax f64 64 h0_l0 h1_l1
  return concat128 (vFMin f64 64 l (← regPermutePd 0 0 h)) (vFMax f64 64 h (← regPermutePd 1 1 l))

/-- `Vector::sorted()` of the integer vectors (dispatch /repo/Vc/sse/detail.h:773-786,
/repo/Vc/avx/detail.h:937-944).
The AVX2 functions use the instructions directly, which is `vMin`, `vMax` with SSE4.1. -/
def sortedSse16 (I : Isa) (sgn : Bool) : M128 → Option M128 := sortSse16 I (vMin I sgn 16) (vMax I sgn 16)
def sortedSse32 (I : Isa) (sgn : Bool) : M128 → M128 := sortSse32 (vMin I sgn 32) (vMax I sgn 32)
def sortedAvx16 (I : Isa) (sgn : Bool) : M256 → Option M256 := sortAvx16 I (vMin I sgn 16) (vMax I sgn 16)
def sortedAvx32 (I : Isa) (sgn : Bool) : M256 → Option M256 :=
  sortAvx32 (vMin I sgn 32) (vMax I sgn 32) fun a b => if sgn then b.sle a else b.ule a

end Vc.Model
