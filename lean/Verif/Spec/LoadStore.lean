import Verif.Spec.ByteMem
import Verif.Spec.FloatCvt

/-!
Loads and stores: entry types, conversion of one entry, what a store leaves in memory.
-/

namespace Vc.Spec

/-- The arithmetic types entries in memory can have. -/
inductive ETy where
  | double | float | int | uint | short | ushort | schar | uchar
  deriving DecidableEq, Repr

/-- `CHAR_BIT * sizeof(T)`. -/
def ETy.bits : ETy → Nat
  | .double => 64
  | .float | .int | .uint => 32
  | .short | .ushort => 16
  | .schar | .uchar => 8

def ETy.bytes (t : ETy) : Nat := t.bits / 8

def ETy.isFloat : ETy → Bool
  | .double | .float => true
  | _ => false

def ETy.sgn : ETy → Bool
  | .uint | .ushort | .uchar => false
  | _ => true

/-- The format of the floating-point types. -/
def ETy.fmt : ETy → Fmt
  | .double => f64
  | _ => f32

/-- `r` is the entry `e` of type `src` converted to `dst`, as `static_cast<dst>(e)` converts it: integers modulo
a power of two, integers to the nearest floating-point number, between the floating-point types as `Reformatted`
says.  (Vectors of integers cannot be loaded from arrays of floating-point numbers.) -/
def Converts (src dst : ETy) (e : BitVec src.bits) (r : BitVec dst.bits) : Prop :=
  if src = dst then r.toNat = e.toNat
  else if src.isFloat then
    if dst.isFloat then Reformatted src.fmt dst.fmt e r else False
  else if dst.isFloat then RoundedInt dst.fmt (val src.sgn e) r
  else r = BitVec.ofInt dst.bits (val src.sgn e)

/-- Entries `0 .. n-1` of the array of `T` at address `a`. -/
def ArrayAt (T : ETy) (m : Int → Option (BitVec 8)) (a : Int) (n : Nat) (e : Nat → BitVec T.bits) : Prop :=
  ∀ i, i < n → EntryAt m (a + T.bytes * i) (e i)

/-- Address `x` belongs to entry `i` of the array of entries of `k` bytes at address `a`. -/
def InEntry (k : Nat) (a : Int) (i : Nat) (x : Int) : Prop := a + k * i ≤ x ∧ x < a + k * i + k

/-- From memory `m` to memory `m'`, exactly the entries `i < n` with `en i` of the array of entries of `w` bits
at address `a` have been overwritten, with `v i`. -/
def Stored {w : Nat} (m m' : Int → Option (BitVec 8)) (a : Int) (n : Nat) (en : Nat → Bool) (v : Nat → BitVec w) :
    Prop :=
  (∀ i, i < n → en i = true → EntryAt m' (a + (w / 8 : Nat) * i) (v i)) ∧
  ∀ x, (∀ i, i < n → en i = true → ¬ InEntry (w / 8) a i x) → m' x = m x

/-- The overloads of `load` that exist for the SSE vectors, besides the ones without conversion. -/
def sseLoads : List (ETy × ETy) :=
  [(.short, .ushort), (.short, .uchar), (.short, .schar), (.ushort, .uchar),
   (.int, .uint), (.int, .ushort), (.int, .short), (.int, .uchar), (.int, .schar), (.uint, .ushort), (.uint, .uchar),
   (.double, .float), (.double, .uint), (.double, .int), (.double, .ushort), (.double, .short),
   (.float, .double), (.float, .uint), (.float, .int), (.float, .ushort), (.float, .short), (.float, .uchar),
   (.float, .schar)]

/-- The overloads for the AVX vectors. -/
def avxLoads : List (ETy × ETy) := sseLoads ++ [(.double, .uchar), (.double, .schar)]

/-- The entry types of native vectors. -/
def vecTypes : List ETy := [.double, .float, .int, .uint, .short, .ushort]

end Vc.Spec
