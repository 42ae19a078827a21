/-!
# Lane-level specification vocabulary

A SIMD vector of `n` lanes is specified as a list of `n` values. Every specification below
says, lane by lane, what the resulting value has to be. Nothing here refers to the way Vc
computes it.
-/

namespace Vc.Spec

/-- The list `[f 0, f 1, ..., f (n-1)]`. -/
def tab (n : Nat) (f : Int → α) : List α := (List.range n).map fun i => f (Int.ofNat i)

/-- Value of lane `j` of `l`, extended by `z` on both sides. -/
def lane (z : α) (l : List α) (j : Int) : α :=
  if 0 ≤ j then l.getD j.toNat z else z

/-- `shifted(k)`: lane `i` receives lane `i + k`; vacated lanes are zero. -/
def shifted (z : α) (k : Int) (l : List α) : List α :=
  tab l.length fun i => lane z l (i + k)

/-- `shifted(k, y)`: as `shifted(k)`, with the lanes that come from beyond the end (`k > 0`)
taken from `y[0], y[1], ...` and those from before the start (`k < 0`) from
`..., y[n-2], y[n-1]`. Lanes beyond `y` are zero. -/
def shiftedIn (z : α) (k : Int) (l y : List α) : List α :=
  tab l.length fun i =>
    let j := i + k
    if 0 ≤ j ∧ j < l.length then lane z l j
    else if 0 ≤ k then lane z y (j - l.length)
    else lane z y (j + l.length)

/-- `rotated(k)`: lane `i` receives lane `(i + k) mod n`. -/
def rotated (z : α) (k : Int) (l : List α) : List α :=
  tab l.length fun i => lane z l ((i + k) % l.length)

/-- Lane `j` of the interleaved sequence `x0 y0 x1 y1 ...`. -/
def interleavedAt (z : α) (x y : List α) (j : Int) : α :=
  if j % 2 = 0 then lane z x (j / 2) else lane z y (j / 2)

/-- First `n` values of `x0 y0 x1 y1 ...`. -/
def interleaveLow (z : α) (x y : List α) : List α :=
  tab x.length fun i => interleavedAt z x y i

/-- Values `n, ..., 2n-1` of `x0 y0 x1 y1 ...`. -/
def interleaveHigh (z : α) (x y : List α) : List α :=
  tab x.length fun i => interleavedAt z x y (i + x.length)

/-- Conversion to `n` lanes: the first `n` lanes, missing lanes are zero. -/
def resize (z : α) (n : Nat) (l : List α) : List α :=
  tab n fun i => lane z l i

/-- The calls `g(0), g(1), ..., g(n-1)` in this order, threading the state; `none` as soon as a
call has no defined result. -/
def callsInOrder (g : Nat → σ → Option (α × σ)) : Nat → σ → Option (List α × σ)
  | 0, s => some ([], s)
  | n + 1, s =>
    match callsInOrder g n s with
    | none => none
    | some (l, s') =>
      match g n s' with
      | none => none
      | some (v, s'') => some (l ++ [v], s'')

end Vc.Spec
