import Verif.Model.Reg
import Verif.Model.SimdArray
import Verif.Spec.Lane

/-!
# setZero, setZeroInverted and setQnan

The registers of the native vectors, the single entry of the Scalar vectors, and the recursion of
SimdArray over its halves. A mask of the x86 vectors is a register, that of a Scalar vector a `bool`.
-/

namespace Vc.Model
open Vc.Spec (boolLane)

/-! ### Vc/sse/vector.tcc:224-254, Vc/avx/vector.tcc:283-311 -/

/-- `setZero()`. Models Vc/sse/vector.tcc:224-227, Vc/avx/vector.tcc:283-286. -/
def natSetZero {n : Nat} (_x : BitVec n) : BitVec n := 0#n

/-- `setZero(k)`: `andnot_(k, data)`. Models Vc/sse/vector.tcc:229-232, Vc/avx/vector.tcc:287-290,
Vc/avx/detail.h:663-673. -/
def natSetZeroMask {n : Nat} (x k : BitVec n) : BitVec n := andnot k x

/-- `setZeroInverted(k)`: `and_(k, data)`. Models Vc/sse/vector.tcc:234-237,
Vc/avx/vector.tcc:291-294. -/
def natSetZeroInverted {n : Nat} (x k : BitVec n) : BitVec n := k &&& x

/-- `setQnan()`: all bits are set. Models Vc/sse/vector.tcc:239-242, 247-250,
Vc/avx/vector.tcc:296-299, 304-307. -/
def natSetQnan {n : Nat} (_x : BitVec n) : BitVec n := BitVec.allOnes n

/-- `setQnan(k)`: `_mm_or_ps(data, k)`. Models Vc/sse/vector.tcc:243-246, 251-254,
Vc/avx/vector.tcc:300-303, 308-311. -/
def natSetQnanMask {n : Nat} (x k : BitVec n) : BitVec n := x ||| k

/-! ### Vc/scalar/vector.h:127-132, Vc/scalar/vector.tcc:196-219 -/

/-- `setZero()`: `m_data = 0`. Models Vc/scalar/vector.h:127. -/
def scaSetZero {w : Nat} (_x : BitVec w) : BitVec w := 0#w

/-- `setZero(k)`. Models Vc/scalar/vector.h:128. -/
def scaSetZeroMask {w : Nat} (x : BitVec w) (k : Bool) : BitVec w := if k then 0#w else x

/-- `setZeroInverted(k)`. Models Vc/scalar/vector.h:129. -/
def scaSetZeroInverted {w : Nat} (x : BitVec w) (k : Bool) : BitVec w := if !k then 0#w else x

/-- `setQnan()`, float and double: the union is filled with ones. Models Vc/scalar/vector.tcc:196-207.
For integers the same template converts a NaN, which is undefined; not modelled. -/
def scaSetQnan {w : Nat} (_x : BitVec w) : BitVec w := BitVec.allOnes w

/-- `setQnan(m)`. Models Vc/scalar/vector.tcc:208-219. -/
def scaSetQnanMask {w : Nat} (x : BitVec w) (m : Bool) : BitVec w := if m then scaSetQnan x else x

/-! ### Vc/common/simdarray.h:252-258, 883-912

The native vectors inside are lists of lanes; the native function is applied to the lane of the vector
and the lane of the mask, which is what the registers do (`C103_native`). -/

namespace SA

/-- `setZero()`. Models Vc/common/simdarray.h:252, 883-887. -/
def setZeroAll {w : Nat} : SA (BitVec w) → SA (BitVec w)
  | atom l => atom (l.map natSetZero)
  | node a b => node a.setZeroAll b.setZeroAll

/-- `setZero(k)`. Models Vc/common/simdarray.h:253, 888-892. -/
def setZeroMask {w : Nat} : SA (BitVec w) → SA Bool → Option (SA (BitVec w))
  | atom l, atom m => some (atom (List.zipWith (fun v b => natSetZeroMask v (boolLane w b)) l m))
  | node a b, node c d => do return node (← a.setZeroMask c) (← b.setZeroMask d)
  | _, _ => none

/-- `setZeroInverted(k)`. Models Vc/common/simdarray.h:255, 898-902. -/
def setZeroInvertedMask {w : Nat} : SA (BitVec w) → SA Bool → Option (SA (BitVec w))
  | atom l, atom m => some (atom (List.zipWith (fun v b => natSetZeroInverted v (boolLane w b)) l m))
  | node a b, node c d => do return node (← a.setZeroInvertedMask c) (← b.setZeroInvertedMask d)
  | _, _ => none

/-- `setQnan()`. Models Vc/common/simdarray.h:257, 905-908. -/
def setQnanAll {w : Nat} : SA (BitVec w) → SA (BitVec w)
  | atom l => atom (l.map natSetQnan)
  | node a b => node a.setQnanAll b.setQnanAll

/-- `setQnan(m)`. Models Vc/common/simdarray.h:258, 909-912. -/
def setQnanMask {w : Nat} : SA (BitVec w) → SA Bool → Option (SA (BitVec w))
  | atom l, atom m => some (atom (List.zipWith (fun v b => natSetQnanMask v (boolLane w b)) l m))
  | node a b, node c d => do return node (← a.setQnanMask c) (← b.setQnanMask d)
  | _, _ => none

end SA
end Vc.Model
