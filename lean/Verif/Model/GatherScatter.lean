import Verif.Model.Bits
import Verif.Model.SimdMask
import Verif.Model.Gather

/-!
# Masked gather and scatter of native vectors (Vc/common/gatherimplementation.h,
Vc/common/scatterimplementation.h)

Each strategy performs an action for some lanes: `v[i] = mem[indexes[i]]` (gather, the state is the
vector) or `mem[indexes[i]] = v[i]` (scatter, the state is the memory). `none` is undefined
behaviour: access outside of the memory or the vector, or bit scan of 0.
-/

namespace Vc.Model
open Vc.Spec

/-- `for (i = 0; i < V::Size; ++i) if (mask[i]) act(i)`, after the return for an empty mask. Models
Vc/common/gatherimplementation.h:63-87, Vc/common/scatterimplementation.h:51-66. -/
def simpleLoop (act : Nat → τ → Option τ) (mask : List Bool) (t : τ) : Option τ :=
  if mask.all (!·) then some t else go 0 mask t
where
  go : Nat → List Bool → τ → Option τ
    | _, [], t => some t
    | i, b :: bs, t => (if b then act i t else some t).bind (go (i + 1) bs)

/-- The loop with `bsf`, `bsr`, `btr`, `btr`; the `asm` version. At most `fuel` rounds. Models
Vc/common/gatherimplementation.h:96-107, Vc/common/scatterimplementation.h:75-85. -/
def bitScanLoop (act : Nat → τ → Option τ) : Nat → Nat → τ → Option τ
  | 0, bits, t => if bits > 0 then none else some t
  | fuel + 1, bits, t =>
    if bits > 0 then do
      let i ← bsf bits
      let j ← bsr bits
      let bits := btr (btr bits i) j
      let t ← act i t
      let t ← act j t
      bitScanLoop act fuel bits t
    else some t

/-- The loop with `_bit_scan_forward(bits)`, `bits &= bits - 1`; used without GNU assembler. Models
Vc/common/gatherimplementation.h:108-115. -/
def bitScanLoop' (act : Nat → τ → Option τ) : Nat → Nat → τ → Option τ
  | 0, bits, t => if bits ≠ 0 then none else some t
  | fuel + 1, bits, t =>
    if bits ≠ 0 then do
      let i ← bsf bits
      let t ← act i t
      bitScanLoop' act fuel (bits &&& (bits - 1)) t
    else some t

/-- The cases of the `switch`, falling through from case `c`: an even case is `high = bsr(bits);
act(high); high = (1 << high);`, an odd one `low = bsf(bits); bits ^= high | (1 << low);
act(low);`. Initially `high = 0`. Case 2 does not need to update `high`, and case 1 does not update
`bits`. Models Vc/common/gatherimplementation.h:133-206, 224-257, 275-291, 305-310,
Vc/common/scatterimplementation.h:111-169, 187-213, 231-243, 258-262. In the C++ code the highest odd
case (15, 7, 3) has `bits ^= 1 << low` instead, which is the same for `high == 0`. -/
def fallThrough (act : Nat → τ → Option τ) : Nat → Nat → Nat → τ → Option τ
  | 0, _, _, t => some t
  | 1, bits, _, t => do
    let low ← bsf bits
    act low t
  | c + 2, bits, high, t =>
    if c % 2 = 0 then do
      let hi ← bsr bits
      let t ← act hi t
      fallThrough act (c + 1) bits (2 ^ hi) t
    else do
      let low ← bsf bits
      let t ← act low t
      fallThrough act (c + 1) (bits ^^^ (high ||| 2 ^ low)) high t

/-- The population count used for a vector of `n` lanes. -/
def popcntFor (n : Nat) : Nat → Nat :=
  if n = 16 then popcnt16 else if n = 8 then popcnt8 else popcnt4

/-- `switch (popcnt(bits))` with case `n` the unmasked operation. -/
def popcntSwitch (act : Nat → τ → Option τ) (full : τ → Option τ) (n bits : Nat) (t : τ) :
    Option τ :=
  if popcntFor n bits = n then full t else fallThrough act (popcntFor n bits) bits 0 t

/-- The action of a gather: `v[i] = mem[indexes[i]]`. `p` is the base pointer as a position in the
memory. -/
def gatherAct (mem : List α) (p : Int) (idx : List Int) (i : Nat) (v : List α) : Option (List α) := do
  let j ← idx[i]?
  let x ← entry mem (p + j)
  if i < v.length then some (v.set i x) else none

/-- The action of a scatter: `mem[indexes[i]] = v[i]`. -/
def scatterAct (v : List α) (p : Int) (idx : List Int) (i : Nat) (mem : List α) : Option (List α) := do
  let j ← idx[i]?
  let x ← v[i]?
  SA.storeAt mem (p + j) x

/-- The unmasked gather: `v = {mem[indexes[0]], mem[indexes[1]], ...}`. Models
Vc/sse/vector.tcc:326-347, Vc/avx/vector.tcc:381-431. -/
def gatherFull (mem : List α) (p : Int) (idx : List Int) (v : List α) : Option (List α) :=
  if v.length ≤ idx.length then (idx.take v.length).mapM (fun j => entry mem (p + j)) else none

/-- The unmasked scatter: `mem[indexes[i]] = v[i]` in lane order. Models
Vc/sse/vector.tcc:372-378, Vc/avx/vector.tcc:455-460. -/
def scatterFull (v : List α) (p : Int) (idx : List Int) (mem : List α) : Option (List α) :=
  (List.range v.length).foldlM (fun mem i => scatterAct v p idx i mem) mem

/-- The four strategies. Models Vc/common/gatherimplementation.h:37-47. -/
inductive Strategy
  | simpleLoop | setIndexZero | bitScanLoop | bitScanLoop' | popcntSwitch
deriving DecidableEq

/-- `executeGather(strategy, v, mem, indexes, mask)`. The zeroed-index version: inactive indexes
become 0, everything is gathered, then `where(mask) | v = tmp`. Models
Vc/common/gatherimplementation.h:49-317; `toInt()` of the mask is `natToInt`. -/
def executeGather (s : Strategy) (mem : List α) (p : Int) (idx : List Int) (mask : List Bool)
    (v : List α) : Option (List α) :=
  match s with
  | .simpleLoop => simpleLoop (gatherAct mem p idx) mask v
  | .setIndexZero => do
    let idx := List.zipWith (fun (j : Int) b => if b then j else 0) idx mask
    let tmp ← gatherFull mem p idx v
    return SA.natAssign v tmp mask
  | .bitScanLoop => bitScanLoop (gatherAct mem p idx) 64 (natToInt mask).toNat v
  | .bitScanLoop' => bitScanLoop' (gatherAct mem p idx) 64 (natToInt mask).toNat v
  | .popcntSwitch =>
    popcntSwitch (gatherAct mem p idx) (gatherFull mem p idx) v.length (natToInt mask).toNat v

/-- `executeScatter(strategy, v, mem, indexes, mask)`: the memory afterwards. The zeroed-index
version gathers from memory into `v` and does not write to memory. Models
Vc/common/scatterimplementation.h:38-268. -/
def executeScatter (s : Strategy) (v : List α) (p : Int) (idx : List Int) (mask : List Bool)
    (mem : List α) : Option (List α) :=
  match s with
  | .simpleLoop => simpleLoop (scatterAct v p idx) mask mem
  | .setIndexZero => do
    let idx := List.zipWith (fun (j : Int) b => if b then j else 0) idx mask
    let _ ← gatherFull mem p idx v
    return mem
  | .bitScanLoop => bitScanLoop (scatterAct v p idx) 64 (natToInt mask).toNat mem
  | .bitScanLoop' => bitScanLoop' (scatterAct v p idx) 64 (natToInt mask).toNat mem
  | .popcntSwitch =>
    popcntSwitch (scatterAct v p idx) (scatterFull v p idx) v.length (natToInt mask).toNat mem

end Vc.Model
