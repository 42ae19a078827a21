import Verif.Model.SimdCast
import Verif.Model.SimdMask
import Verif.Model.SimdArrayOps
import Verif.Model.Where

/-!
# simdize (Vc/common/simdize.h)

`simdize<S>` of a class template instance is an `Adapter<S, T, N>`: an object with the same data members,
each replaced by a vector or mask with `N` lanes. Native vectors and masks are the atomic case of `SA`
(`SA.WF`). Functions return `none` for undefined behaviour (a lane that does not exist).
-/

namespace Vc.Model
open Vc.Spec Vc.Lemma

/-! ## Members -/

/-- The vectorized type of a data member (/repo/Vc/common/simdize.h:294-324): a vector of entries `β` whose
zero is `z`, or (for a `bool` member) a mask. -/
inductive Member : Type 1 where
  | vec (β : Type) (C : Cfg) (z : β)
  | mask (C : Cfg)

namespace Member

/-- The type of the member in the scalar object. -/
def Entry : Member → Type
  | vec β _ _ => β
  | mask _ => Bool

/-- The environment of the entry type. -/
def cfg : Member → Cfg
  | vec _ C _ => C
  | mask C => C

/-- `member[i]` (/repo/Vc/common/simdarray.h:374-377, /repo/Vc/common/simdmaskarray.h:226-229, 598-605). -/
def get : (K : Member) → (n : Nat) → SA K.Entry → Nat → Option K.Entry
  | vec _ C _, _, x, i => SA.get C x (Int.ofNat i)
  | mask _, n, x, i => SA.maskGet n x i

/-- `member[i] = v` (/repo/Vc/common/simdarray.h:378-383, /repo/Vc/common/simdmaskarray.h:230-235). -/
def set : (K : Member) → (n : Nat) → SA K.Entry → Nat → K.Entry → Option (SA K.Entry)
  | vec _ C _, _, x, i, v => SA.set C x (Int.ofNat i) v
  | mask _, n, x, i, v => SA.maskSet n x i v

/-- `member.shifted(k)` (/repo/Vc/common/simdarray.h:439-443, 1127-1165, /repo/Vc/common/simdmaskarray.h:664-674). -/
def shifted : (K : Member) → (n : Nat) → Int → SA K.Entry → Option (SA K.Entry)
  | vec _ C z, n, k, x => SA.shifted C z n k x
  | mask C, n, k, x => SA.maskShifted C n k x

/-- Construction of the member from a scalar (/repo/Vc/common/simdarray.h:755,
/repo/Vc/common/simdmaskarray.h:93, 435). -/
def broadcast (K : Member) (n : Nat) (v : K.Entry) : SA K.Entry := SA.broadcast K.cfg v n

end Member

section
variable {m : Nat} (K : Fin m → Member) (N : Nat)

/-- An object of the scalar type `S`: one value per data member. -/
abbrev Obj := (k : Fin m) → (K k).Entry

/-- An object of the type `Adapter<S, T, N>` (/repo/Vc/common/simdize.h:794-927): one vector per data
member. -/
abbrev Adapter := (k : Fin m) → SA (K k).Entry

variable {K}

/-- Replace the data member `k`. -/
def put {β : Fin m → Type} (a : (k : Fin m) → β k) (k : Fin m) (v : β k) : (k : Fin m) → β k :=
  fun j => if h : k = j then h ▸ v else a j

/-- An object of values that all have to be defined. -/
def pack {β : Fin m → Type} (f : (k : Fin m) → Option (β k)) : Option ((k : Fin m) → β k) :=
  if h : ∀ k, (f k).isSome then some fun k => (f k).get (h k) else none

/-- `assign_impl` (/repo/Vc/common/simdize.h:1002-1014): the members of `x` are copied, then
`get<k>(a)[i] = get<k>(tmp)` for every `k` in order. -/
def assignImpl (a : Adapter K) (i : Nat) (x : Obj K) : Option (Adapter K) :=
  (List.finRange m).foldlM (fun a k => ((K k).set N (a k) i (x k)).map (put a k)) a

/-- `extract_impl` (/repo/Vc/common/simdize.h:1032-1046). -/
def extractImpl (a : Adapter K) (i : Nat) : Option (Obj K) :=
  pack fun k => (K k).get N (a k) i

/-- `shifted_impl` (/repo/Vc/common/simdize.h:1049-1057); `r` is the default initialised result object. -/
def shiftedImpl (r a : Adapter K) (s : Int) : Option (Adapter K) :=
  (List.finRange m).foldlM (fun r k => ((K k).shifted N s (a k)).map (put r k)) r

/-- `swap(a, i, x)` (/repo/Vc/common/simdize.h:1078-1088, 1107-1111): `tmp` receives lane `i`, the members of
`x` are written to lane `i` one after the other, then `x` receives `tmp`. -/
def swapObj (a : Adapter K) (i : Nat) (x : Obj K) : Option (Adapter K × Obj K) := do
  let tmp ← pack fun k => (K k).get N (a k) i
  let a' ← (List.finRange m).foldlM (fun a k => ((K k).set N (a k) i (x k)).map (put a k)) a
  return (a', (List.finRange m).foldl (fun x k => put x k (tmp k)) x)

/-- A program state for `swap(a, i, b, j)`, whose arguments may be the same object: the adapters by name. -/
abbrev Adapters (K : Fin m → Member) := Nat → Adapter K

/-- Write one lane of one member of the object `p`. -/
def Adapters.write (s : Adapters K) (p : Nat) (k : Fin m) (i : Nat) (v : (K k).Entry) :
    Option (Adapters K) :=
  ((K k).set N (s p k) i v).map fun r => fun q => if q = p then put (s p) k r else s q

/-- `swap(a, i, b, j)` (/repo/Vc/common/simdize.h:1089-1101, 1112-1116) of the objects `p` and `q`. -/
def swapLanes (s : Adapters K) (p i q j : Nat) : Option (Adapters K) := do
  let tmp ← pack fun k => (K k).get N (s p k) i
  let s ← (List.finRange m).foldlM
    (fun s k => ((K k).get N (s q k) j).bind fun v => Adapters.write N s p k i v) s
  (List.finRange m).foldlM (fun s k => Adapters.write N s q k j (tmp k)) s

/-- The broadcast constructor (/repo/Vc/common/simdize.h:805-838, 867-874): every member is constructed from
the member of the scalar object. -/
def broadcastCtor (x : Obj K) : Adapter K := fun k => (K k).broadcast N (x k)

/-- The generator constructor (/repo/Vc/common/simdize.h:1320-1327): `Vc::assign(*this, i, fun(i))` for `i`
from 0 to `N - 1`. `a` is the object before; the generator has a state. -/
def generatorCtor {σ : Type} (a : Adapter K) (f : Nat → σ → Option (Obj K × σ)) (s : σ) :
    Option (Adapter K × σ) :=
  (List.range N).foldlM
    (fun (a, s) i => do
      let (x, s) ← f i s
      return (← assignImpl N a i x, s))
    (a, s)

/-- `load_interleaved(a, mem)` for objects whose members differ in size (/repo/Vc/common/simdize.h:1256-1267).
`mem` is the memory from the pointer on. -/
def loadObjects (a : Adapter K) (mem : List (Obj K)) : Option (Adapter K) :=
  (List.range N).foldlM (fun a i => mem[i]?.bind (assignImpl N a i)) a

/-- `store_interleaved(a, mem)` for objects whose members differ in size
(/repo/Vc/common/simdize.h:1277-1288). -/
def storeObjects (a : Adapter K) (mem : List (Obj K)) : Option (List (Obj K)) :=
  (List.range N).foldlM
    (fun mem i => (extractImpl N a i).bind fun x => if i < mem.length then some (mem.set i x) else none) mem

/-- `simd_cast<M2>(mask)` between masks of the same size (/repo/Vc/common/simdarray.h:2181-2278, the same
code for vectors and masks). -/
def castMask (CM C' : Cfg) (mask : SA Bool) : Option (SA Bool) :=
  Cast.simdCast ⟨CM, C', id, false, false⟩ N N [mask]

/-- One member of `conditional_assign<Operator::Assign>` (/repo/Vc/common/simdize.h:1860-1869). There is no
overload of `conditional_assign` for masks. -/
def condAssignMember (CM : Cfg) (mask : SA Bool) : (K : Member) → SA K.Entry → SA K.Entry → Option (SA K.Entry)
  | .vec _ C _, x, y => (castMask N CM C mask).bind fun mk => SA.assign x y mk
  | .mask _, _, _ => none

/-- `where(mask) | a = b` (/repo/Vc/common/simdize.h:1852-1870). -/
def condAssign (CM : Cfg) (mask : SA Bool) (a b : Adapter K) : Option (Adapter K) :=
  (List.finRange m).foldlM (fun a k => (condAssignMember N CM mask (K k) (a k) (b k)).map (put a k)) a

/-- One member of `where(mask) | a op= b`; `f` is the operation on the entries of the member. -/
def condOpMember (CM : Cfg) (mask : SA Bool) : (K : Member) → (K.Entry → K.Entry → Option K.Entry) →
    SA K.Entry → SA K.Entry → Option (SA K.Entry)
  | .vec _ C _, f, x, y => (castMask N CM C mask).bind fun mk => SA.maskedOp f x y mk
  | .mask _, _, _, _ => none

/-- `where(mask) | a op= b` (/repo/Vc/common/simdize.h:1852-1870). -/
def condOp (CM : Cfg) (mask : SA Bool) (f : (k : Fin m) → (K k).Entry → (K k).Entry → Option (K k).Entry)
    (a b : Adapter K) : Option (Adapter K) :=
  (List.finRange m).foldlM (fun a k => (condOpMember N CM mask (K k) (f k) (a k) (b k)).map (put a k)) a

end
end Vc.Model
