/-!
# Native vectors at the lane level

Inside `SimdArray` the leaves are native vectors (`Scalar`, `SSE`, `AVX` `Vector<T>`). Here
their operations are given on the list of lanes. The SSE implementations of these operations
are modelled separately at the byte/bit level (`Verif/Model/Sse*.lean`), where it is proved
that they compute what is written here.
-/

namespace Vc.Model

/-- `Vector::shifted(int)`. Models Vc/scalar/vector.h (`shifted`, `amount == 0 ? *this :
Zero()`), Vc/sse/vector.tcc:522-548, Vc/avx/detail.h:946-1057 at the lane level. -/
def natShifted (z : α) (k : Int) (l : List α) : List α :=
  if 0 ≤ k then (l.drop k.toNat ++ List.replicate l.length z).take l.length
  else (List.replicate (-k).toNat z ++ l).take l.length

/-- `Vector::shifted(int, Vector)`. Models Vc/scalar/vector.h:246-249 (`amount == 0 ? *this :
shiftIn`, with the assertion `-1 <= amount <= 1`), Vc/sse/vector.tcc:549-593 (below `-Size`:
`shiftIn.shifted(Size + amount)`), Vc/avx/vector.tcc:719-794 at the lane level. `none`
(unspecified) above `Size`, where the implementations do not agree (C38), and outside the
assertion of the one-lane vector. -/
def natShiftedIn (z : α) (k : Int) (l y : List α) : Option (List α) :=
  if (l.length : Int) < k then none
  else if k < -(l.length : Int) then
    if l.length = 1 then none else some (natShifted z (l.length + k) y)
  else if 0 ≤ k then some (((l ++ y).drop k.toNat).take l.length)
  else some (((y ++ l).drop (l.length + k).toNat).take l.length)

/-- `Vector::rotated(int)`. Models Vc/scalar/vector.h (`*this`), Vc/sse/vector.tcc:594-613
(`static_cast<unsigned>(amount) % Size`, `Size` a power of two) at the lane level. -/
def natRotated (k : Int) (l : List α) : List α :=
  let r := (k % l.length).toNat
  l.drop r ++ l.take r

/-- `x0 y0 x1 y1 ...`. -/
def natInterleaved : List α → List α → List α
  | a :: as, b :: bs => a :: b :: natInterleaved as bs
  | _, _ => []

/-- `Vector::interleaveLow`. Models Vc/scalar/vector.h (`*this`) and the `unpacklo` of
Vc/sse/vector.tcc (`interleaveLow`) at the lane level. -/
def natInterleaveLow (x y : List α) : List α := (natInterleaved x y).take x.length

/-- `Vector::interleaveHigh`, as above with `unpackhi`; `Scalar` returns the argument. -/
def natInterleaveHigh (x y : List α) : List α := (natInterleaved x y).drop x.length

/-- `simd_cast<V>(x, xs...)` between native vectors at the lane level: the converted lanes of
all arguments in order, the first `w` of them, missing ones zero. Models the overload sets in
Vc/scalar/simd_cast.h, Vc/sse/simd_cast.h, Vc/avx/simd_cast.h (not modelled individually). -/
def natCast (f : α → β) (z : β) (w : Nat) (xs : List (List α)) : List β :=
  (xs.flatten.map f ++ List.replicate w z).take w

/-- `simd_cast<V, offset>(x)` between native vectors: lanes `offset*w, ...` converted.
Models the offset overloads in Vc/*/simd_cast.h at the lane level. -/
def natCastOff (f : α → β) (z : β) (w off : Nat) (x : List α) : List β :=
  ((x.drop (off * w)).map f ++ List.replicate w z).take w

end Vc.Model
