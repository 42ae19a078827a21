import Verif.Model.SimdArray
import Verif.Model.Logical
import Verif.Model.Recip
import Verif.Model.FloatOps
import Verif.Model.FloatExp

/-!
# Constant vectors, generators and initializer lists
-/

namespace Vc.Model
open Vc.Spec Vc.Lemma

/-! ## Zero, One, IndexesFromZero -/

/-- `Vector(Zero)`, `Zero()`, `Vector()`: the default constructor of `Storage` is `data()`, i.e. zero
(/repo/Vc/common/storage.h:161,200,256,303, /repo/Vc/sse/vector.tcc:170-174, /repo/Vc/avx/vector.tcc:236-240). -/
def vZero (n : Nat) : BitVec n := 0#n

/-- `One()` of `float_v` and `double_v` (/repo/Vc/sse/intrinsics.h:88-91, /repo/src/const.cpp:283,287,
/repo/Vc/avx/intrinsics.h:117-118, /repo/src/const.cpp:169,176). -/
def vOneF (F : Fmt) (n w : Nat) : BitVec n := set1 w (oneBits F w)

/-- `SSE::_IndexesFromZero4` and `SSE::_IndexesFromZero8`, the tables for entries of 32 and 16 bits
(/repo/Vc/sse/detail.h:350-360, /repo/src/const.cpp:277,280). -/
def sseIndexTable (w : Nat) : List Nat := if w = 32 then [0, 1, 2, 3] else [0, 1, 2, 3, 4, 5, 6, 7]

/-- `IndexesFromZero()` of the integer vectors (/repo/Vc/sse/vector.tcc:184-196); the tables have the alignment of the
load. -/
def sseIndexes (w : Nat) : M128 := ofLanes w fun i => BitVec.ofNat w ((sseIndexTable w).getD i 0)

/-- `IndexesFromZero()` of `float_v` and `double_v`: conversions of that of `int_v` (/repo/Vc/sse/vector.tcc:198-208). -/
def sseIndexesPs : M128 := cvtepi32PsN (sseIndexes 32)
def sseIndexesPd : M128 := cvtepi32Pd (sseIndexes 32)

/-- A table in static memory: entries and what `alignas` says. -/
structure IndexTable where
  entries : List Nat
  align : Nat

/-- `AVX::_IndexesFromZero32`, `AVX::_IndexesFromZero16` (/repo/src/const.cpp:47-48, /repo/Vc/avx/const_data.h:39-40). -/
def avxTable32 : IndexTable := ⟨[0, 1, 2, 3, 4, 5, 6, 7], 64⟩
def avxTable16 : IndexTable := ⟨[0, 1, 2, 3, 4, 5, 6, 7, 8, 9, 10, 11, 12, 13, 14, 15], 16⟩

/-- `vmovdqa`: a load of `n` bits from a table at address `addr`; `none`: the address is not a multiple of the number of
bytes, which is an exception. -/
def loadAligned {n : Nat} (w : Nat) (t : IndexTable) (addr : Nat) : Option (BitVec n) :=
  if addr % (n / 8) = 0 then some (ofLanes w fun i => BitVec.ofNat w (t.entries.getD i 0)) else none

/-- `IndexesFromZero()` of the AVX vectors, given where the table is (/repo/Vc/avx/vector.tcc:248-264,
/repo/Vc/avx/const.h:40-52): integers are loaded, floating-point numbers are converted from `int`s, four of which are
one load of 16 bytes. -/
def avxIndexes32 (addr : Nat) : Option M256 := loadAligned 32 avxTable32 addr
def avxIndexes16 (addr : Nat) : Option M256 := loadAligned 16 avxTable16 addr
def avxIndexesPs (addr : Nat) : Option M256 := (loadAligned 32 avxTable32 addr : Option M256).map cvtepi32PsN
def avxIndexesPd (addr : Nat) : Option M256 := (loadAligned 32 avxTable32 addr : Option M128).map cvtepi32Pd256

/-! ## generate -/

/-- A functor object: a call with an index returns a value and changes the data members `ρ` of the object, which are
copied with it, and state `σ` that copies share (what references refer to). -/
abbrev GenFun (ρ σ β : Type) := Nat → ρ → σ → β × ρ × σ

/-- The calls `gen(i)`, ..., `gen(i + cnt - 1)` of one object. -/
def runCalls {ρ σ β : Type} (g : GenFun ρ σ β) : Nat → Nat → ρ → σ → List β × ρ × σ
  | _, 0, r, s => ([], r, s)
  | i, cnt + 1, r, s =>
    let c := g i r s
    let t := runCalls g (i + 1) cnt c.2.1 c.2.2
    (c.1 :: t.1, t.2)

/-- Native `generate(G gen)` and the constructor: the object is a copy (/repo/Vc/sse/vector.tcc:645-698,
/repo/Vc/avx/vector.tcc:147-231, /repo/Vc/scalar/vector.h:284-287, /repo/Vc/common/generalinterface.h:53-58); the
results are the arguments of `_mm_setr_*`. -/
def vGenerate {ρ σ : Type} (n w : Nat) (g : GenFun ρ σ (BitVec w)) (r : ρ) (s : σ) : BitVec n × σ :=
  let c := runCalls g 0 (n / w) r s
  (ofLanes w fun i => c.1.getD i 0#w, c.2.2)

/-- `SimdArray::generate(const G &gen)` and the constructor: the first half uses `gen`, the second half a lambda that
holds a reference to `gen`, i.e. an object without state of its own, for which the members of `gen` are shared
(/repo/Vc/common/simdarray.h:481-489, 724-741).  Returns also the members of `gen` after the call; the native vectors
in the array (lists in this layer) copy the functor.  The third case has no counterpart. -/
def SA.generateObj (C : Cfg) {β : Type} (n : Nat) {ρ σ : Type} (g : GenFun ρ σ β) (r : ρ) (s : σ) : SA β × ρ × σ :=
  if C.atomic n then
    let c := runCalls g 0 n r s
    (.atom c.1, r, c.2.2)
  else if _h : 2 ≤ n then
    let a := SA.generateObj C (leftSize n) g r s
    let ref : GenFun Unit (ρ × σ) β := fun i _ q =>
      let c := g (i + leftSize n) q.1 q.2
      (c.1, (), (c.2.1, c.2.2))
    let b := SA.generateObj C (rightSize n) ref () (a.2.1, a.2.2)
    (.node a.1 b.1, b.2.2.1, b.2.2.2)
  else (.atom [], r, s)
termination_by n
decreasing_by
  · exact leftSize_lt _h
  · exact rightSize_lt _h

/-- What a functor for an integer vector may return: an integer, or a floating-point number of which `t` is the
integer part. -/
inductive GenValue where
  | int (v : Int)
  | real (t : Int)

/-- Conversion to an integer type of `w` bits; `none`: undefined, a floating-point number out of range. -/
def GenValue.conv (sgn : Bool) (w : Nat) : GenValue → Option (BitVec w)
  | .int v => some (BitVec.ofInt w v)
  | .real t =>
    if sgn then (if -(2 ^ (w - 1) : Int) ≤ t ∧ t < 2 ^ (w - 1) then some (BitVec.ofInt w t) else none)
    else (if -1 < t ∧ t < 2 ^ w then some (BitVec.ofInt w t) else none)

/-- The conversion in `generate` of integer vectors: the arguments of `_mm_setr_epi32` are `int`s and those of
`_mm_setr_epi16` `short`s, also for the vectors of unsigned entries (/repo/Vc/sse/vector.tcc:659-698,
/repo/Vc/avx/vector.tcc:168-231). -/
def genParam (_sgn : Bool) (w : Nat) (x : GenValue) : Option (BitVec w) := x.conv true w

/-! ## Initializer lists -/

/-- Outcome of a constructor. -/
inductive InitRes (β : Type) where
  | ok (x : β)
  | assertion
  | undefined

/-- `SimdArray{a, b, c, ...}`: loads from the list, then `Vc_ASSERT(init.size() == size())`
(/repo/Vc/common/simdarray.h:202-206, 807-813). -/
def SA.ofInitList {α : Type} (debug : Bool) (C : Cfg) (n : Nat) (l : List α) : InitRes (SA α) :=
  match SA.load C l n 0 with
  | none => .undefined
  | some x => if debug && decide (l.length ≠ n) then .assertion else .ok x

end Vc.Model
