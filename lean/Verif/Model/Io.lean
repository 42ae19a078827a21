/-!
# Stream output of vectors, masks and memory objects

The text is a list of characters. `tty` says whether `mayUseColor(out)` is true. A stream in its initial
state is assumed: integers are written in decimal notation (`decimal`), without width, sign for positive
numbers or grouping of digits.
-/

namespace Vc.Model.Io

/-- One decimal digit. -/
def digit (d : Nat) : Char := Char.ofNat (48 + d)

/-- A natural number in decimal notation. -/
def decimalNat (n : Nat) : List Char :=
  if n < 10 then [digit n] else decimalNat (n / 10) ++ [digit (n % 10)]

/-- `out << x` for an integer. -/
def decimal (x : Int) : List Char :=
  if x < 0 then '-' :: decimalNat x.natAbs else decimalNat x.natAbs

/-- `out << AnsiColor::…`: nothing unless the stream is a terminal. Models /repo/Vc/IO:84-90. -/
def color (tty : Bool) (data : List Char) : List Char := if tty then data else []

/-- `AnsiColor::green`, `yellow`, `blue`, `normal`. Models /repo/Vc/IO:79-82. -/
def green : List Char := ['\x1b', '[', '1', ';', '4', '0', ';', '3', '2', 'm']
@[inherit_doc green]
def yellow : List Char := ['\x1b', '[', '1', ';', '4', '0', ';', '3', '3', 'm']
@[inherit_doc green]
def blue : List Char := ['\x1b', '[', '1', ';', '4', '0', ';', '3', '4', 'm']
@[inherit_doc green]
def normal : List Char := ['\x1b', '[', '0', 'm']

/-- The loop `for (i = 1; i < Size; ++i) out << ", " << v[i]`. -/
def vectorTail : List Int → List Char
  | [] => []
  | x :: l => ',' :: ' ' :: decimal x ++ vectorTail l

/-- `out << v` for a `Vector`; `v` is `v[0]` and the other entries. Models /repo/Vc/IO:116-130. -/
def vector (tty : Bool) (v0 : Int) (v : List Int) : List Char :=
  color tty green ++ '[' :: decimal v0 ++ vectorTail v ++ ']' :: color tty normal

/-- The loop over the entries of a mask, from entry `i` on. Models /repo/Vc/IO:160-169, 252-261. -/
def maskLoop (tty : Bool) : Nat → List Bool → List Char
  | _, [] => []
  | i, b :: l =>
    (if i > 0 ∧ i % 4 = 0 then [' '] else []) ++
    (if b then color tty yellow ++ ['1'] else color tty blue ++ ['0']) ++ maskLoop tty (i + 1) l

/-- `out << m` for a `Mask`. Models /repo/Vc/IO:156-172. -/
def mask (tty : Bool) (m : List Bool) : List Char :=
  color tty blue ++ 'm' :: '[' :: maskLoop tty 0 m ++ color tty blue ++ ']' :: color tty normal

/-- `out << m` for a `SimdMaskArray`. Models /repo/Vc/IO:248-263. -/
def maskArray (tty : Bool) (m : List Bool) : List Char :=
  color tty blue ++ '«' :: maskLoop tty 0 m ++ color tty blue ++ '»' :: color tty normal

/-- The loop `for (i = 1; i < N; ++i)` of the output of a `SimdArray`. -/
def arrayTail : Nat → List Int → List Char
  | _, [] => []
  | i, x :: l => (if i % 4 = 0 then [' ', '|'] else []) ++ ' ' :: decimal x ++ arrayTail (i + 1) l

/-- `out << v` for a `SimdArray`. Models /repo/Vc/IO:237-246. -/
def array (tty : Bool) (v0 : Int) (v : List Int) : List Char :=
  color tty green ++ '<' :: decimal v0 ++ arrayTail 1 v ++ '>' :: color tty normal

/-- The vectors of a one-dimensional memory object or of a row. -/
def vectors (tty : Bool) : List (Int × List Int) → List Char
  | [] => []
  | v :: l => vector tty v.1 v.2 ++ vectors tty l

/-- `out << m` for a one-dimensional `Memory`. Models /repo/Vc/IO:208-217. -/
def memory (tty : Bool) (m : List (Int × List Int)) : List Char :=
  color tty blue ++ '{' :: color tty normal ++ vectors tty m ++ color tty blue ++ '}' :: color tty normal

/-- The loop over the rows, from row `i` on. -/
def rows (tty : Bool) : Nat → List (List (Int × List Int)) → List Char
  | _, [] => []
  | i, r :: l => (if i > 0 then ['\n', ' '] else []) ++ vectors tty r ++ rows tty (i + 1) l

/-- `out << m` for a two-dimensional `Memory`. Models /repo/Vc/IO:219-234. -/
def memory2 (tty : Bool) (m : List (List (Int × List Int))) : List Char :=
  color tty blue ++ '{' :: color tty normal ++ rows tty 0 m ++ color tty blue ++ '}' :: color tty normal

end Vc.Model.Io
