import Verif.Model.Util

/-!
`Vc::makeContainer` for containers of vectors (/repo/Vc/common/makeContainer.h).

The container and the initializer list are lists, iterators are positions in them; accesses outside of them are
undefined behaviour (`none`).  The assertions are switched off as in release builds.  Initialisation of other
containers (line 41) calls the constructor of the container and is not modelled, nor are the arrays of clang before
3.7 (lines 79-84).
-/

namespace Vc.Model

/-- The number of vectors (/repo/Vc/common/makeContainer.h:52,76). -/
def mcSize (S n : Nat) : Nat := wrap64 (n + (S - 1)) / S

/-- The loop over all vectors but the last (/repo/Vc/common/makeContainer.h:57-60,93-96) with `k` iterations to go:
`V(init, Unaligned)` reads `S` entries of the list, `*containerIt` has to be a vector of the container. -/
def mcLoop {α : Type} (S : Nat) (l : List α) : Nat → Nat → Nat → List (List α) → Option (Nat × Nat × List (List α))
  | 0, it, init, v => some (it, init, v)
  | k + 1, it, init, v =>
    if it < v.length ∧ init + S ≤ l.length then
      mcLoop S l k (it + 1) (init + S) (v.set it ((l.drop init).take S))
    else none

/-- The remaining entries are assigned one by one (/repo/Vc/common/makeContainer.h:62-65,98-101); the first argument
holds what is left from `init` to `initEnd`. -/
def mcTail {α : Type} (S : Nat) : List α → Nat → Nat → List (List α) → Option (List (List α))
  | [], _, _, v => some v
  | x :: xs, it, j, v =>
    if h : it < v.length ∧ j < S then mcTail S xs it (j + 1) (v.set it ((v[it]'h.1).set j x)) else none

/-- The body shared by both versions, for a container that has been constructed
(/repo/Vc/common/makeContainer.h:54-66,90-102). -/
def mcFill {α : Type} (S size : Nat) (l : List α) (v : List (List α)) : Option (List (List α)) := do
  let (it, init, v) ← mcLoop S l (wrap64 (size + (2 ^ 64 - 1))) 0 0 v
  mcTail S (l.drop init) it 0 v

/-- Containers with an allocator, e.g. std::vector (/repo/Vc/common/makeContainer.h:51-67): `C v(size)` sets all
vectors to zero. -/
def makeVector {α : Type} (S : Nat) (zero : α) (l : List α) : Option (List (List α)) :=
  let size := mcSize S l.length
  mcFill S size l (List.replicate size (List.replicate S zero))

/-- Containers of `N` numbers, e.g. std::array (/repo/Vc/common/makeContainer.h:76,86-103): the constructor of a
vector sets it to zero (/repo/Vc/common/storage.h:161,200,256,303, /repo/Vc/scalar/vector.h:63). -/
def makeArray {α : Type} (S N : Nat) (zero : α) (l : List α) : Option (List (List α)) :=
  let size := mcSize S N
  mcFill S size l (List.replicate size (List.replicate S zero))

end Vc.Model
