/-!
# How a reader understands the text of a vector

Escape sequences of a terminal are not shown; numbers are the sequences of digits with an optional
minus sign; truth values are the digits `0` and `1`.
-/

namespace Vc.Spec.Io

/-- What a terminal shows: escape sequences `ESC … m` are left out. `esc`: inside of a sequence. -/
def shown : Bool → List Char → List Char
  | _, [] => []
  | true, c :: l => if c = 'm' then shown false l else shown true l
  | false, c :: l => if c = '\x1b' then shown true l else c :: shown false l

/-- The numbers in a text; the state is the number read so far (sign, value), if any. -/
def numbers : Option (Bool × Nat) → List Char → List Int
  | none, [] => []
  | some (neg, a), [] => [if neg then -(a : Int) else a]
  | none, c :: l =>
    if c = '-' then numbers (some (true, 0)) l
    else if c.isDigit then numbers (some (false, c.toNat - 48)) l
    else numbers none l
  | some (neg, a), c :: l =>
    if c.isDigit then numbers (some (neg, 10 * a + (c.toNat - 48))) l
    else (if neg then -(a : Int) else a) :: numbers none l

/-- The truth values in a text. -/
def bits (l : List Char) : List Bool := (l.filter fun c => c = '0' ∨ c = '1').map (· = '1')

end Vc.Spec.Io
