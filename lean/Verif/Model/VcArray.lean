import Verif.Model.Span

/-!
`Vc::array<T, Size>`: the storage `elems_` has at least one element, also if `Size` is zero
(/repo/Vc/array:100).
-/

namespace Vc.Model

/-- Outcomes of calls. -/
inductive ArrRes (β : Type) where
  | ok (x : β)
  | outOfRange
  | undefined
  | illFormed
  deriving DecidableEq

/-- An access to `elems_[n]`. -/
def arrElem {α : Type} (s : List α) (n : Nat) : ArrRes α :=
  match s[n]? with
  | some x => .ok x
  | none => .undefined

/-- `operator[]`, `data()[n]` (/repo/Vc/array:137-138, 164-165). -/
def arrGet {α : Type} (s : List α) (n : Nat) : ArrRes α := arrElem s n

/-- `at(n)`, both overloads (/repo/Vc/array:168-181). -/
def arrAt {α : Type} (size : Nat) (s : List α) (n : Nat) : ArrRes α :=
  if n ≥ size then .outOfRange else arrElem s n

/-- `front()`, `back()` (/repo/Vc/array:160-163). -/
def arrFront {α : Type} (s : List α) : ArrRes α := arrElem s 0
def arrBack {α : Type} (size : Nat) (s : List α) : ArrRes α := arrElem s (if size > 0 then size - 1 else 0)

/-- `std::get<I>`: not viable unless `I < Size` (/repo/Vc/array:289-308). -/
def arrGetT {α : Type} (size : Nat) (s : List α) (i : Nat) : ArrRes α :=
  if i < size then arrElem s i else .illFormed

/-- Statements that change the array: `fill(u)` (/repo/Vc/array:103), `a[n] = u`, `a.at(n) = u`. -/
inductive ArrStmt (α : Type) where
  | fill (u : α)
  | set (n : Nat) (u : α)
  | setAt (n : Nat) (u : α)

def arrStep {α : Type} (size : Nat) (s : List α) : ArrStmt α → ArrRes (List α)
  | .fill u => .ok (List.replicate size u ++ s.drop size)
  | .set n u => if n < s.length then .ok (s.set n u) else .undefined
  | .setAt n u => if n ≥ size then .outOfRange else if n < s.length then .ok (s.set n u) else .undefined

/-- A sequence of statements; an exception ends it. -/
def arrRun {α : Type} (size : Nat) (s : List α) : List (ArrStmt α) → ArrRes (List α)
  | [] => .ok s
  | st :: sts =>
    match arrStep size s st with
    | .ok s' => arrRun size s' sts
    | .outOfRange => .outOfRange
    | .undefined => .undefined
    | .illFormed => .illFormed

/-- Iteration: `begin()` to `end()`, `rbegin()` to `rend()` (/repo/Vc/array:110-129); `none`: an access outside of
the storage. -/
def arrForward {α : Type} (size : Nat) (s : List α) : Option (List α) := spanWalk s 0 size
def arrBackward {α : Type} (size : Nat) (s : List α) : Option (List α) := spanWalkBack s (size : Int) size

/-- Comparisons, of the ranges from `elems_` to `elems_ + Size` (/repo/Vc/array:183-222). -/
def arrEq {α : Type} (eq : α → α → Bool) (size : Nat) (x y : List α) : Bool := stdEqual eq (x.take size) (y.take size)
def arrNe {α : Type} (eq : α → α → Bool) (size : Nat) (x y : List α) : Bool := !arrEq eq size x y
def arrLt {α : Type} (lt : α → α → Bool) (size : Nat) (x y : List α) : Bool := stdLess lt (x.take size) (y.take size)
def arrGt {α : Type} (lt : α → α → Bool) (size : Nat) (x y : List α) : Bool := arrLt lt size y x
def arrLe {α : Type} (lt : α → α → Bool) (size : Nat) (x y : List α) : Bool := !arrLt lt size y x
def arrGe {α : Type} (lt : α → α → Bool) (size : Nat) (x y : List α) : Bool := !arrLt lt size x y

/-- `a.swap(b)`: the operand of `noexcept(...)` is a call of `std::swap`, of type `void`, which does not convert to
`bool` (/repo/Vc/array:104-107). -/
def arrSwap {α : Type} (_x _y : List α) : ArrRes (List α × List α) := .illFormed

/-- `std::swap(a, b)`: for arrays that are not `const` the general template is the better match than the overload for
`const` references (/repo/Vc/array:262-279). -/
def arrStdSwap {α : Type} (x y : List α) : ArrRes (List α × List α) := .ok (y, x)

end Vc.Model
