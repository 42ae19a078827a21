/-!
`Vc::span`: /repo/Vc/common/span.h.

A span refers to entries of an array `mem`, its pointer is a position in it.  `Vc_ASSERT` is the `assert` of debug builds
(/repo/Vc/common/macros.h:216-222).  Left out: the conversions of the element type, `as_bytes`, and the subscript operators with index
vectors (those are C59).
-/

namespace Vc.Model

/-- A span: position of the first entry, number of entries, and whether that number is part of the type
(/repo/Vc/common/span.h:125-336 and 339-538). -/
structure Span where
  ptr : Int
  size : Int
  isStatic : Bool
  deriving DecidableEq, Repr

/-- What a call can end in. -/
inductive SpanRes (α : Type)
  | ok (a : α)
  | assertion
  | illFormed
  | overflow
  deriving DecidableEq, Repr

def SpanRes.bind {α β : Type} : SpanRes α → (α → SpanRes β) → SpanRes β
  | .ok a, f => f a
  | .assertion, _ => .assertion
  | .illFormed, _ => .illFormed
  | .overflow, _ => .overflow

/-- `dynamic_extent`, /repo/Vc/common/span.h:28. -/
def dynamicExtent : Int := -1

/-- A sum of type `ptrdiff_t`. -/
def ptrdiffAdd (a b : Int) : Option Int := if -2 ^ 63 ≤ a + b ∧ a + b < 2 ^ 63 then some (a + b) else none

/-- The functions that return a part of the span; the suffix `T` marks the ones whose arguments are template arguments. -/
inductive SpanOp
  | firstT (count : Int)
  | lastT (count : Int)
  | first (count : Int)
  | last (count : Int)
  | subspanT (offset count : Int)
  | subspan (offset count : Int)
  deriving DecidableEq, Repr

/-- /repo/Vc/common/span.h:217-231 (static extent) and 415-429 (dynamic extent). -/
def Span.firstT (s : Span) (c : Int) : SpanRes Span :=
  if c < 0 then .illFormed
  else if s.isStatic then if c ≤ s.size then .ok ⟨s.ptr, c, true⟩ else .illFormed
  else if c ≤ s.size then .ok ⟨s.ptr, c, true⟩ else .assertion
def Span.lastT (s : Span) (c : Int) : SpanRes Span :=
  if c < 0 then .illFormed
  else if s.isStatic then if c ≤ s.size then .ok ⟨s.ptr + s.size - c, c, true⟩ else .illFormed
  else if c ≤ s.size then .ok ⟨s.ptr + s.size - c, c, true⟩ else .assertion

/-- /repo/Vc/common/span.h:233-245 and 431-443. -/
def Span.first (s : Span) (c : Int) : SpanRes Span :=
  if c ≥ 0 ∧ c ≤ s.size then .ok ⟨s.ptr, c, false⟩ else .assertion
def Span.last (s : Span) (c : Int) : SpanRes Span :=
  if c ≥ 0 ∧ c ≤ s.size then .ok ⟨s.ptr + s.size - c, c, false⟩ else .assertion

/-- `subspan<Offset, Count>()`, static extent: /repo/Vc/common/span.h:251-258.  The extent of the result must not be negative,
unless it is `dynamic_extent` (which `Extent - Offset` can be, too). -/
def Span.subspanStaticT (s : Span) (o c : Int) : SpanRes Span :=
  let ext := if c ≠ dynamicExtent then c else s.size - o
  if ext < 0 ∧ ext ≠ dynamicExtent then .illFormed
  else if o ≥ 0 ∧ o ≤ s.size then
    .ok ⟨s.ptr + o, if c = dynamicExtent then s.size - o else c, decide (ext ≠ dynamicExtent)⟩
  else .assertion

/-- The same, dynamic extent: /repo/Vc/common/span.h:445-453. -/
def Span.subspanDynamicT (s : Span) (o c : Int) : SpanRes Span :=
  if o ≥ 0 ∧ o ≤ s.size then
    if c = dynamicExtent then .ok ⟨s.ptr + o, s.size - o, false⟩
    else
      match ptrdiffAdd o c with
      | none => .overflow
      | some e => if e ≤ s.size then .ok ⟨s.ptr + o, c, false⟩ else .assertion
  else .assertion

/-- `subspan(offset, count)`, /repo/Vc/common/span.h:260-273 and 455-467. -/
def Span.subspan (s : Span) (o c : Int) : SpanRes Span :=
  if o ≥ 0 ∧ o ≤ s.size then
    if (c ≥ 0 ∧ c ≤ s.size) ∨ c = dynamicExtent then
      if c = dynamicExtent then .ok ⟨s.ptr + o, s.size - o, false⟩
      else
        match ptrdiffAdd o c with
        | none => .overflow
        | some e => if e ≤ s.size then .ok ⟨s.ptr + o, c, false⟩ else .assertion
    else .assertion
  else .assertion

def Span.step (s : Span) : SpanOp → SpanRes Span
  | .firstT c => s.firstT c
  | .lastT c => s.lastT c
  | .first c => s.first c
  | .last c => s.last c
  | .subspanT o c => if s.isStatic then s.subspanStaticT o c else s.subspanDynamicT o c
  | .subspan o c => s.subspan o c

/-- A sequence of such calls. -/
def Span.run (s : Span) : List SpanOp → SpanRes Span
  | [] => .ok s
  | op :: ops => (s.step op).bind fun t => t.run ops

/-- `span(f, l)` with a dynamic extent (/repo/Vc/common/span.h:366), `span(p, n)` (365), and with static extent `e` (155-165). -/
def Span.ofRange (f l : Int) : Span := ⟨f, l - f, false⟩
def Span.ofCount (p n : Int) : Span := ⟨p, n, false⟩
def Span.ofRangeStatic (e f l : Int) : SpanRes Span := if e = l - f then .ok ⟨f, e, true⟩ else .assertion
def Span.ofCountStatic (e p n : Int) : SpanRes Span := if e = n then .ok ⟨p, e, true⟩ else .assertion
/-- Conversions between spans (/repo/Vc/common/span.h:193-213, 402-410). -/
def Span.toDynamic (s : Span) : Span := ⟨s.ptr, s.size, false⟩
def Span.toStatic (e : Int) (s : Span) : SpanRes Span :=
  if s.isStatic then if e = s.size then .ok ⟨s.ptr, e, true⟩ else .illFormed
  else if e = s.size then .ok ⟨s.ptr, e, true⟩ else .assertion

/-- `operator[]`: the position of the entry (/repo/Vc/common/span.h:283-293, 476-486). -/
def Span.at (s : Span) (i : Int) : SpanRes Int :=
  if i ≥ 0 ∧ i < s.size then .ok (s.ptr + i) else .assertion

/-- What a loop from `begin()` to `end()` reads (/repo/Vc/common/span.h:298-304, 491-497); `none` outside of the array. -/
def spanWalk {α : Type} (mem : List α) (it : Int) : Nat → Option (List α)
  | 0 => some []
  | n + 1 =>
    if 0 ≤ it then
      match mem[it.toNat]?, spanWalk mem (it + 1) n with
      | some a, some l => some (a :: l)
      | _, _ => none
    else none
def Span.forward {α : Type} (mem : List α) (s : Span) : Option (List α) := spanWalk mem s.ptr s.size.toNat
/-- From `rbegin()` to `rend()` (/repo/Vc/common/span.h:305-314, 498-507): a reverse iterator at `it` refers to the entry before it. -/
def spanWalkBack {α : Type} (mem : List α) (it : Int) : Nat → Option (List α)
  | 0 => some []
  | n + 1 =>
    if 0 ≤ it - 1 then
      match mem[(it - 1).toNat]?, spanWalkBack mem (it - 1) n with
      | some a, some l => some (a :: l)
      | _, _ => none
    else none
def Span.backward {α : Type} (mem : List α) (s : Span) : Option (List α) := spanWalkBack mem (s.ptr + s.size) s.size.toNat

/-- `std::equal` and `std::lexicographical_compare` of two ranges, as the standard describes them. -/
def stdEqual {α : Type} (eq : α → α → Bool) : List α → List α → Bool
  | [], [] => true
  | a :: l, b :: r => eq a b && stdEqual eq l r
  | _, _ => false
def stdLess {α : Type} (lt : α → α → Bool) : List α → List α → Bool
  | _, [] => false
  | [], _ :: _ => true
  | a :: l, b :: r => if lt a b then true else if lt b a then false else stdLess lt l r

/-- The comparison operators, /repo/Vc/common/span.h:541-575, of the entries of two spans. -/
def spanEq {α : Type} (eq : α → α → Bool) (l r : List α) : Bool := stdEqual eq l r
def spanNe {α : Type} (eq : α → α → Bool) (l r : List α) : Bool := !spanEq eq r l
def spanLt {α : Type} (lt : α → α → Bool) (l r : List α) : Bool := stdLess lt l r
def spanLe {α : Type} (lt : α → α → Bool) (l r : List α) : Bool := !spanLt lt r l
def spanGt {α : Type} (lt : α → α → Bool) (l r : List α) : Bool := spanLt lt r l
def spanGe {α : Type} (lt : α → α → Bool) (l r : List α) : Bool := !spanLt lt l r

/-- `swap`, /repo/Vc/common/span.h:316-321 (the pointers; the sizes are those of the type) and 509-518. -/
def spanSwap (a b : Span) : Span × Span :=
  if a.isStatic then (⟨b.ptr, a.size, true⟩, ⟨a.ptr, b.size, true⟩) else (⟨b.ptr, b.size, false⟩, ⟨a.ptr, a.size, false⟩)

end Vc.Model
