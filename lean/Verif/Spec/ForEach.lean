/-!
# Sequential algorithms and chunked iteration
-/

namespace Vc.Spec

/-- `std::for_each` with a function that may modify its argument and has state: the elements are
visited in order. -/
def seqMap (f : α → σ → β × σ) : List α → σ → List β × σ
  | [], s => ([], s)
  | a :: l, s =>
    let r := f a s
    let t := seqMap f l r.2
    (r.1 :: t.1, t.2)

/-- `chunks` is `xs` cut into consecutive pieces: first pieces of `w` elements, then less than `w`
single elements. -/
def IsChunking (w : Nat) (xs : List α) (chunks : List (List α)) : Prop :=
  chunks.flatten = xs ∧
  ∃ full single, chunks = full ++ single ∧ (∀ c ∈ full, c.length = w) ∧
    (∀ c ∈ single, c.length = 1) ∧ single.length < w

/-- The elements `[first, last)`. -/
def slice (mem : List α) (first last : Nat) : List α := (mem.drop first).take (last - first)

/-- The memory with the elements from `first` on replaced by `ys`. -/
def splice (mem : List α) (first : Nat) (ys : List α) : List α :=
  mem.take first ++ ys ++ mem.drop (first + ys.length)

end Vc.Spec
