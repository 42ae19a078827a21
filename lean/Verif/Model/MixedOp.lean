/-!
Operators between a vector and a scalar or a vector of another type: `/repo/Vc/common/operators.h`.

Simplifications: sizes and the signedness of `char` as on x86-64 Linux (LP64).  Left out: classes with conversion
operators (rule 5 of `ReturnTypeImpl`).
-/

namespace Vc.Model

/-- The arithmetic types of C++. -/
inductive CTy
  | bool | char | schar | uchar | short | ushort | int | uint | long | ulong | llong | ullong | float | double | ldouble
  deriving DecidableEq, Repr

namespace CTy
/-- `sizeof`. -/
def size : CTy → Nat
  | bool | char | schar | uchar => 1
  | short | ushort => 2
  | int | uint | float => 4
  | long | ulong | llong | ullong | double => 8
  | ldouble => 16
/-- `std::is_integral`. -/
def isIntegral : CTy → Bool
  | float | double | ldouble => false
  | _ => true
/-- `std::is_unsigned`; true for `bool`. -/
def isUnsigned : CTy → Bool
  | bool | uchar | ushort | uint | ulong | ullong => true
  | _ => false
/-- `std::make_unsigned`; not defined for `bool` and floating-point types. -/
def makeUnsigned : CTy → Option CTy
  | char | schar | uchar => some uchar
  | short | ushort => some ushort
  | int | uint => some uint
  | long | ulong => some ulong
  | llong | ullong => some ullong
  | _ => none
/-- `std::make_signed`. -/
def makeSigned : CTy → Option CTy
  | char | schar | uchar => some schar
  | short | ushort => some short
  | int | uint => some int
  | long | ulong => some long
  | llong | ullong => some llong
  | _ => none
/-- All of them. -/
def all : List CTy := [bool, char, schar, uchar, short, ushort, int, uint, long, ulong, llong, ullong, float, double, ldouble]
theorem mem_all (t : CTy) : t ∈ all := by cases t <;> decide
end CTy

/-- The type of the other operand: arithmetic, or an (unscoped) enumeration with an underlying type. -/
inductive Scal
  | arith (u : CTy)
  | enum (u : CTy)
  deriving DecidableEq, Repr

/-- `Traits::is_valid_vector_argument`, /repo/Vc/traits/type_traits.h:64-71. -/
def validVec : CTy → Bool
  | .double | .float | .int | .uint | .short | .ushort => true
  | _ => false

/-- `my_make_signed`, /repo/Vc/common/operators.h:64-68. -/
def myMakeSigned : CTy → Option CTy
  | .bool => some .bool
  | t => t.makeSigned

/-- `higher_conversion_rank`, /repo/Vc/common/operators.h:70-85. -/
def higherRank (tt uu : CTy) : Option CTy :=
  match myMakeSigned tt, myMakeSigned uu with
  | some t, some u =>
    let c (test : CTy) (otherwise : Option CTy) := if t = test ∨ u = test then some test else otherwise
    let a := c .llong (c .long (c .int (c .short (c .schar none))))
    if tt.isUnsigned || uu.isUnsigned then a.bind CTy.makeUnsigned else a
  | _, _ => none

/-- `FundamentalReturnType`, /repo/Vc/common/operators.h:41-62, 87-94. -/
def fundamental (t : CTy) : Scal → Option CTy
  | .enum _ => some t
  | .arith u =>
    match t.isIntegral, u.isIntegral with
    | false, false => some (if t.size < u.size then u else t)
    | true, false => some u
    | false, true => some t
    | true, true => if t.size > u.size then some t else if t.size < u.size then some u else higherRank t u

/-- `ReturnTypeImpl` for a vector of `t` and a scalar, rules 2 to 4, /repo/Vc/common/operators.h:104-130. -/
def returnType (t : CTy) (u : Scal) : Option CTy :=
  if u = .arith .int then some t
  else if u = .arith .uint then if t.isIntegral then t.makeUnsigned else some t
  else (fundamental t u).filter validVec

/-- `Traits::is_implicit_cast_allowed`, /repo/Vc/traits/is_implicit_cast_allowed.h:35-47. -/
def implicitCast (t r : CTy) : Bool :=
  if t.isIntegral then t == r || r.isIntegral && (t.makeUnsigned == some r || t.makeSigned == some r) else t == r

/-- The element type in which `x op y` and `y op x` are computed for a vector `x` of `t` and a scalar `y`; `none` if there
is no such operator.  `Vc_GENERIC_OPERATOR`, `Vc_COMPARE_OPERATOR`, /repo/Vc/common/operators.h:160-190, 228-248: the
vector must be convertible to the vector of the result type; the scalar, which is converted by the broadcast constructor
(`Vector(EntryType)`, /repo/Vc/sse/vector.h:131-139), always is. -/
def mixedType (t : CTy) (u : Scal) : Option CTy := (returnType t u).filter (implicitCast t)

/-- The same for two vectors (rule 1 of `ReturnTypeImpl`, /repo/Vc/common/operators.h:99-103). -/
def mixedVec (t u : CTy) : Option CTy :=
  (fundamental t (.arith u)).filter (fun r => implicitCast t r && implicitCast u r)

/-- Integers of a type, as registers hold them. -/
abbrev CInt (t : CTy) : Type := BitVec (8 * t.size)
/-- The number a pattern stands for. -/
def CInt.val {t : CTy} (x : CInt t) : Int := if t.isUnsigned then x.toNat else x.toInt
/-- Conversion to an integer type. -/
def CInt.conv (t : CTy) (v : Int) : CInt t := BitVec.ofInt _ v

/-- The operators that need no more than the operands. -/
inductive MOp | add | sub | mul | and | or | xor
  deriving DecidableEq, Repr
def MOp.eval {n : Nat} : MOp → BitVec n → BitVec n → BitVec n
  | .add, x, y => x + y
  | .sub, x, y => x - y
  | .mul, x, y => x * y
  | .and, x, y => x &&& y
  | .or, x, y => x ||| y
  | .xor, x, y => x ^^^ y

/-- An entry of `x op y`, computed in the type `r`: both operands are converted, then `Detail::operator op`
(/repo/Vc/sse/detail.h, /repo/Vc/avx/detail.h) is applied to registers. -/
def mixedLane (r : CTy) (op : MOp) (a b : Int) : Int := CInt.val (t := r) (op.eval (CInt.conv r a) (CInt.conv r b))
/-- An entry of a comparison. -/
def mixedCmp (r : CTy) (c : Int → Int → Bool) (a b : Int) : Bool := c (CInt.conv r a).val (CInt.conv r b).val
/-- An entry of `x` after `x op= y` (/repo/Vc/common/operators.h:181-190): the result is converted back. -/
def mixedAssign (t r : CTy) (op : MOp) (a b : Int) : Int := (CInt.conv t (mixedLane r op a b)).val
/-- An entry of `x / y` and `x % y` (`Vc_ALL_ARITHMETICS`, /repo/Vc/common/operators.h:250): both operands are converted,
then the vectors of `r` are divided.  What that division does is the subject of C39; here it is only defined (`some`) for
divisors that are not zero and quotients that fit. -/
def mixedDiv (r : CTy) (rem : Bool) (a b : Int) : Option Int :=
  let x := (CInt.conv r a).val
  let y := (CInt.conv r b).val
  if y = 0 then none
  else if (CInt.conv r (x.tdiv y)).val = x.tdiv y then some (if rem then x.tmod y else x.tdiv y)
  else none

end Vc.Model
