import Verif.Model.Cpuid

/-!
The selection of the implementation by the preprocessor (/repo/Vc/global.h) and of the default ABI
(/repo/Vc/common/vectorabi.h).

Simplified: the macros the compiler predefines are one Boolean each; what global.h adds to them for MSVC
(/repo/Vc/global.h:193-214) counts as predefined.  `-DVc_IMPL=…` is a sum of names, as the documentation describes
it; an expression with other operators is not modelled.
-/

namespace Vc.Model

/-- Macros predefined by the compiler (`__AVX2__`, …), and whether it is clang 3.6 or ICC. -/
structure Cc where
  avx2 : Bool := false
  avx : Bool := false
  sse42 : Bool := false
  sse41 : Bool := false
  ssse3 : Bool := false
  sse3 : Bool := false
  sse2 : Bool := false
  fma4 : Bool := false
  xop : Bool := false
  f16c : Bool := false
  popcnt : Bool := false
  sse4a : Bool := false
  fma : Bool := false
  bmi2 : Bool := false
  clang36 : Bool := false
  icc : Bool := false

/-- `__POPCNT__` after /repo/Vc/global.h:216-220. -/
def Cc.popcntMacro (c : Cc) : Bool := c.popcnt || (c.icc && (c.sse42 || c.sse4a))

/-- The names of -DVc_IMPL=…: instruction sets, and extra instructions. -/
inductive ImplBase | scalar | sse | sse2 | sse3 | ssse3 | sse41 | sse42 | avx | avx2
deriving DecidableEq
inductive ImplExt | xop | fma4 | f16c | popcnt | sse4a | fma | bmi2
deriving DecidableEq

/-- One summand; `other` is a name that is no macro here (such as MIC), which the preprocessor replaces by 0. -/
inductive ImplTok | base (b : ImplBase) | ext (e : ImplExt) | other
deriving DecidableEq

/-- /repo/Vc/global.h:172-180. -/
def ImplBase.code : ImplBase → Nat
  | scalar => 0x00100000 | sse => 0x00200000 | sse2 => 0x00300000 | sse3 => 0x00400000 | ssse3 => 0x00500000
  | sse41 => 0x00600000 | sse42 => 0x00700000 | avx => 0x00800000 | avx2 => 0x00900000

/-- /repo/Vc/global.h:182-188. -/
def ImplExt.code : ImplExt → Nat
  | xop => 0x1 | fma4 => 0x2 | f16c => 0x4 | popcnt => 0x8 | sse4a => 0x10 | fma => 0x20 | bmi2 => 0x40

def ImplTok.code : ImplTok → Nat
  | base b => b.code | ext e => e.code | other => 0

/-- The value of `Vc_IMPL` in an `#if`. -/
def implValue (l : List ImplTok) : Nat := (l.map ImplTok.code).sum

/-- `Vc_IMPL & IMPL_MASK` and `Vc_IMPL & EXT` (/repo/Vc/global.h:182-191). -/
def implMasked (v : Nat) : Nat := v &&& 0xFFF00000
def implHas (v : Nat) (e : ImplExt) : Bool := v &&& e.code != 0

/-- The macros `Vc_IMPL_*` and `Vc_USE_VEX_CODING`. -/
structure Sel where
  scalar : Bool := false
  sse : Bool := false
  sse2 : Bool := false
  sse3 : Bool := false
  ssse3 : Bool := false
  sse41 : Bool := false
  sse42 : Bool := false
  avx : Bool := false
  avx2 : Bool := false
  xop : Bool := false
  fma4 : Bool := false
  f16c : Bool := false
  popcnt : Bool := false
  sse4a : Bool := false
  fma : Bool := false
  bmi2 : Bool := false
  vex : Bool := false
deriving DecidableEq

/-- Without `Vc_IMPL` (/repo/Vc/global.h:226-284). -/
def selDefault (c : Cc) : Sel :=
  let s : Sel :=
    if c.avx2 then { avx2 := true, avx := true }
    else if c.avx then { avx := true }
    else
      let sse := c.sse42 || c.sse41 || c.sse3 || c.ssse3 || c.sse2
      { sse := sse, sse42 := c.sse42, sse41 := c.sse41, sse3 := c.sse3, ssse3 := c.ssse3, sse2 := c.sse2,
        scalar := !sse }
  if s.scalar then s
  else { s with
    fma4 := c.fma4, xop := c.xop, f16c := c.f16c, popcnt := c.popcntMacro, sse4a := c.sse4a, fma := c.fma,
    bmi2 := c.bmi2 }

/-- With `Vc_IMPL` (/repo/Vc/global.h:285-366). -/
def selImpl (c : Cc) (v : Nat) : Sel :=
  let s : Sel :=
    if implMasked v = ImplBase.avx2.code then { avx2 := true, avx := true }
    else if implMasked v = ImplBase.avx.code then { avx := true }
    else if implMasked v = ImplBase.scalar.code then { scalar := true }
    else if implMasked v = ImplBase.sse42.code then
      { sse42 := true, sse41 := true, ssse3 := true, sse3 := true, sse2 := true, sse := true }
    else if implMasked v = ImplBase.sse41.code then
      { sse41 := true, ssse3 := true, sse3 := true, sse2 := true, sse := true }
    else if implMasked v = ImplBase.ssse3.code then { ssse3 := true, sse3 := true, sse2 := true, sse := true }
    else if implMasked v = ImplBase.sse3.code then { sse3 := true, sse2 := true, sse := true }
    else if implMasked v = ImplBase.sse2.code then { sse2 := true, sse := true }
    else if implMasked v = ImplBase.sse.code then
      { sse := true, sse42 := c.sse42, sse41 := c.sse41, sse3 := c.sse3, ssse3 := c.ssse3, sse2 := c.sse2 }
    else if implMasked v = 0 ∧ implHas v .sse4a = true then { sse3 := true, sse2 := true, sse := true }
    else {}
  { s with
    xop := implHas v .xop, fma4 := implHas v .fma4, f16c := implHas v .f16c,
    popcnt := (!s.scalar && c.popcntMacro) || implHas v .popcnt,
    sse4a := implHas v .sse4a, fma := implHas v .fma, bmi2 := implHas v .bmi2 }

/-- What both have in common: VEX, AVX implies SSE, clang 3.6, and the errors (/repo/Vc/global.h:368-397).
`none`: `#error`. -/
def selFinish (c : Cc) (s : Sel) : Option Sel :=
  let s := { s with vex := c.avx }
  let s := if s.avx then
    { s with sse42 := true, sse41 := true, ssse3 := true, sse3 := true, sse2 := true, sse := true } else s
  let s := if c.clang36 && s.avx then { s with avx := false, avx2 := false } else s
  if !s.scalar && !s.sse && !s.avx then none
  else if s.sse && !s.sse2 then none
  else some s

/-- The macros after including Vc; the request is the list of the summands of `Vc_IMPL`. -/
def select (c : Cc) : Option (List ImplTok) → Option Sel
  | none => selFinish c (selDefault c)
  | some l => selFinish c (selImpl c (implValue l))

/-- `CurrentImplementation::current()` (/repo/Vc/global.h:581-599); `none`: no enumerator. -/
def Sel.current (s : Sel) : Option Implementation :=
  if s.scalar then some .scalar
  else if s.avx2 then some .avx2
  else if s.avx then some .avx
  else if s.sse42 then some .sse42
  else if s.sse41 then some .sse41
  else if s.ssse3 then some .ssse3
  else if s.sse3 then some .sse3
  else if s.sse2 then some .sse2
  else none

/-- The template argument of `CurrentImplementation` (/repo/Vc/global.h:581-622). -/
def Sel.features (s : Sel) (impl : Implementation) : Nat :=
  impl.num
    + (if s.sse4a then 0x10000 + (if s.xop then 0x4000 + (if s.fma4 then 0x2000 else 0) else 0) else 0)
    + (if s.popcnt then 0x8000 else 0)
    + (if s.fma then 0x20000 else 0)
    + (if s.bmi2 then 0x80000 else 0)
    + (if s.vex then 0x40000 else 0)

/-- `VectorAbi::Best<T>`: the bytes of a register, 0 for the scalar ABI; `integral` is `is_integral<T>`
(/repo/Vc/common/vectorabi.h:35-58).  `none`: void. -/
def bestAbi (integral : Bool) (cur : Implementation) : Option Nat :=
  if cur = .scalar then some 0
  else if Implementation.sse2.num ≤ cur.num ∧ cur.num ≤ Implementation.sse42.num then some 16
  else if cur = .avx then some (if integral then 16 else 32)
  else if cur = .avx2 then some 32
  else none

/-- `Vc_DEFAULT_IMPL_*` (/repo/Vc/global.h:420-430); `none`: `#error`. -/
def Sel.defaultImpl (s : Sel) : Option Implementation :=
  if s.avx2 then some .avx2
  else if s.avx then some .avx
  else if s.sse then some .sse2
  else if s.scalar then some .scalar
  else none

/-- `Vc_DOUBLE_V_SIZE`, `Vc_FLOAT_V_SIZE`, `Vc_INT_V_SIZE` (also UINT) and `Vc_SHORT_V_SIZE` (also USHORT), by the size
of the type and whether it is an integer (/repo/Vc/avx/types.h:35-49, /repo/Vc/sse/types.h:33-40,
/repo/Vc/scalar/types.h:34-41). -/
def vSizeMacro (d : Implementation) : (bytes : Nat) → (integral : Bool) → Option Nat
  | 8, false => match d with
    | .avx2 => some 4 | .avx => some 4 | .sse2 => some 2 | .scalar => some 1 | _ => none
  | 4, false => match d with
    | .avx2 => some 8 | .avx => some 8 | .sse2 => some 4 | .scalar => some 1 | _ => none
  | 4, true => match d with
    | .avx2 => some 8 | .avx => some 4 | .sse2 => some 4 | .scalar => some 1 | _ => none
  | 2, true => match d with
    | .avx2 => some 16 | .avx => some 8 | .sse2 => some 8 | .scalar => some 1 | _ => none
  | _, _ => none

end Vc.Model
