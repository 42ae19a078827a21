/-!
What moving lanes means.  A vector is the function from the lane number to the content.
-/

namespace Vc.Spec

/-- The lane a position names: `Xi = i` is lane `i` of `x`, `Yi = 8 + i` is lane `i` of `y`. -/
def pick {α : Type} (x y : Nat → α) (p : Nat) : α := if p < 8 then x p else y (p - 8)

/-- `shifted(k)` of `n` lanes: lane `i` is lane `i + k`, zero outside. -/
def shiftLane {α : Type} (n : Nat) (zero : α) (x : Nat → α) (k : Int) (i : Nat) : α :=
  if 0 ≤ (i : Int) + k ∧ (i : Int) + k < n then x (i + k).toNat else zero

/-- `shifted(k, y)` of `n` lanes: for `k ≥ 0` the lanes of `y` follow those of `x`, for `k < 0` they
precede them; zero outside of both. -/
def shiftInLane {α : Type} (n : Nat) (zero : α) (x y : Nat → α) (k : Int) (i : Nat) : α :=
  let p := (i : Int) + k
  if 0 ≤ p ∧ p < n then x p.toNat
  else if 0 ≤ k ∧ p < 2 * n then y (p - n).toNat
  else if k < 0 ∧ -(n : Int) ≤ p then y (p + n).toNat
  else zero

/-- `rotated(k)` of `n` lanes. -/
def rotateLane {α : Type} (n : Nat) (x : Nat → α) (k : Int) (i : Nat) : α := x (((i : Int) + k) % n).toNat

end Vc.Spec

namespace Vc.Spec

/-- Entry size in bytes and number of entries of the SSE vectors: double, float / int / uint,
short / ushort. -/
def SseShape (bytes size : Nat) : Prop :=
  bytes = 8 ∧ size = 2 ∨ bytes = 4 ∧ size = 4 ∨ bytes = 2 ∧ size = 8

/-- The same of the AVX vectors (the integers with AVX2). -/
def AvxShape (bytes size : Nat) : Prop :=
  bytes = 8 ∧ size = 4 ∨ bytes = 4 ∧ size = 8 ∨ bytes = 2 ∧ size = 16

end Vc.Spec
