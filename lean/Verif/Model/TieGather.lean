import Verif.Model.Interleave
import Verif.Model.Subscript

/-!
# Assignment of subscript expressions to tuples of vectors (Vc/common/vectortuple.h:102-111)
-/

namespace Vc.Model

/-- `Vc::tie(v0, ..., v{k-1}) = data[indexes]...` for indexes of signed 32 bit: `gatherArguments()`
(/repo/Vc/common/subscript.h:286-299) scales the indexes if `need_explicit_scaling`, else the scale is a template
argument of its result, which the assignment does not look at. `m` is the memory by byte addresses; the accesses
of `InterleavedMemoryReadAccess<1, V, I>` are to entries counted from `args.address`. The pointer has to be one to
the entry type of `V`, here: the sizes agree. -/
def tieAssign (V : ILVec) (k : Nat) (m : Int → Option (BitVec V.width)) (o : SubOp 32) :
    Option (List (BitVec V.bits)) :=
  if V.width = 8 * o.esize then
    if needExplicitScaling o then
      if (applyScale o.num o.den (o.idx 0)).isSome then
        ilRead V 1 k (fun a => m (o.addr + a * Int.ofNat o.esize)) 0 fun l => (applyScale o.num o.den (o.idx l)).getD 0
      else none
    else ilRead V 1 k (fun a => m (o.addr + a * Int.ofNat o.esize)) 0 o.idx
  else none

end Vc.Model
