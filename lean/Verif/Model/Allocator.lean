import Verif.Model.LoadStore
import Verif.Model.Util
import Verif.Spec.Allocator

/-!
`Vc::Allocator<T>` (/repo/Vc/Allocator:120-233), on top of the global `operator new` and `operator delete`.

`size_t` and pointers have 64 bits.  Accessing memory that has not been allocated, and `operator delete` for anything
but a pointer from `operator new`, is undefined behaviour.
-/

namespace Vc.Model

open Vc.Spec

/-- `SimdAlignment` and `NaturalAlignment` (/repo/Vc/Allocator:131-146). -/
structure AllocPlatform where
  simd : Nat
  natural : Nat
  deriving DecidableEq, Repr

/-- `Alignment` (/repo/Vc/Allocator:147). -/
def allocAlignment (P : AllocPlatform) (T : ObjTy) : Nat := if T.align > P.simd then T.align else P.simd

/-- `ExtraBytes` (/repo/Vc/Allocator:164). -/
def extraBytes (P : AllocPlatform) (T : ObjTy) : Nat :=
  if allocAlignment P T > P.natural then allocAlignment P T else 0

/-- The blocks `operator new` handed out (address and size), and the memory: the bytes of these blocks. -/
structure Heap where
  blocks : List (Nat × Nat)
  mem : ByteMem

/-- How a function ends. -/
inductive AOut (α : Type) where
  | ok (r : α)
  | badAlloc
  | ub

/-- `operator new(size)` when it returns `p`; the memory is not initialised, `junk` is what happens to be there. -/
def opNew (h : Heap) (size p : Nat) (junk : Nat → BitVec 8) : Heap :=
  ⟨(p, size) :: h.blocks, fun x => if p ≤ x ∧ x < p + size then some (junk (x - p).toNat) else h.mem x⟩

/-- What is known about the address `operator new(size)` returns ([basic.stc.dynamic.allocation]). -/
def NewOK (P : AllocPlatform) (h : Heap) (size p : Nat) : Prop :=
  0 < p ∧ p % P.natural = 0 ∧ p + size ≤ 2 ^ 64 ∧
  ∀ b ∈ h.blocks, p + max size 1 ≤ b.1 ∨ b.1 + max b.2 1 ≤ p

/-- `operator delete(p)`. -/
def opDelete (h : Heap) (p : Nat) : AOut Heap :=
  match h.blocks.find? (·.1 == p) with
  | none => .ub
  | some b => .ok ⟨h.blocks.filter (·.1 != p), fun x => if p ≤ x ∧ x < p + b.2 then none else h.mem x⟩

/-- `max_size()` (/repo/Vc/Allocator:210). -/
def allocMaxSize (T : ObjTy) : Nat := (2 ^ 64 - 1) / T.size

/-- The number of bytes `allocate(n)` asks `operator new` for (/repo/Vc/Allocator:191). -/
def allocRequest (P : AllocPlatform) (T : ObjTy) (n : Nat) : Nat := wrap64 (wrap64 (n * T.size) + extraBytes P T)

/-- `allocate(n)` (/repo/Vc/Allocator:185-200); `new` is what `operator new` returns, `none` when it throws. -/
def allocate (P : AllocPlatform) (T : ObjTy) (h : Heap) (n : Nat) (new : Option (Nat × (Nat → BitVec 8))) :
    AOut (Heap × Nat) :=
  if n > allocMaxSize T then .badAlloc
  else
    match new with
    | none => .badAlloc
    | some (pp, junk) =>
      let h1 := opNew h (allocRequest P T n) pp junk
      if extraBytes P T > 0 then
        let p := pp + extraBytes P T
        let p := p - (p &&& (allocAlignment P T - 1))
        match storeu h1.mem ((p : Int) - 8) (BitVec.ofNat 64 pp) with
        | none => .ub
        | some m => .ok ({ h1 with mem := m }, p)
      else .ok (h1, pp)

/-- `deallocate(p, n)` (/repo/Vc/Allocator:202-208). -/
def deallocate (P : AllocPlatform) (T : ObjTy) (h : Heap) (p : Nat) : AOut Heap :=
  if extraBytes P T > 0 then
    match loadLE h.mem ((p : Int) - 8) 8 with
    | none => .ub
    | some q => opDelete h q
  else opDelete h p

/-- The program writes a byte. -/
def writeByte (h : Heap) (a : Int) (b : BitVec 8) : AOut Heap :=
  match storeu h.mem a b with
  | none => .ub
  | some m => .ok { h with mem := m }

/-- The executions of a program that allocates arrays of any types, deallocates those it allocated, and writes to
them: the states of the heap, with what the program did. -/
inductive Reach (P : AllocPlatform) : Heap → View → Prop
  | start : Reach P ⟨[], fun _ => none⟩ ⟨[], fun _ => none⟩
  | alloc {h v T n p junk h' q} : Reach P h v → T.OK → n * T.size + extraBytes P T < 2 ^ 64 →
      NewOK P h (allocRequest P T n) p → allocate P T h n (some (p, junk)) = .ok (h', q) →
      Reach P h' (v.alloc T n q)
  | dealloc {h v T n q h'} : Reach P h v → (T, n, q) ∈ v.live → deallocate P T h q = .ok h' →
      Reach P h' (v.dealloc T n q)
  | write {h v r a b h'} : Reach P h v → r ∈ v.live → InArray r a → writeByte h a b = .ok h' →
      Reach P h' (v.write a b)

end Vc.Model
