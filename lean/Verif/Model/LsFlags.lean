import Verif.Model.LoadStore

/-!
# Load/store flags (/repo/Vc/common/loadstoreflags.h) and prefetches (/repo/Vc/common/x86_prefetches.h)
-/

namespace Vc.Model

/-- The third parameter of `PrefetchFlag`: `void`, `Exclusive`, `Shared`. -/
inductive PfHint where
  | none | exclusive | shared
  deriving DecidableEq

/-- `StreamingFlag`, `UnalignedFlag`, `PrefetchFlag<L1, L2, H>` (/repo/Vc/common/loadstoreflags.h:50-62). -/
inductive LsFlag where
  | streaming
  | unaligned
  | prefetch (l1 l2 : Nat) (h : PfHint)
  deriving DecidableEq

/-- The first parameter of `ExtractType`. -/
inductive FlagBase where
  | streaming | unaligned | prefetch
  deriving DecidableEq

/-- `std::is_base_of<Base, T>`: the same class, or a `PrefetchFlag` for `PrefetchFlagBase`. -/
def FlagBase.isBaseOf : FlagBase → LsFlag → Bool
  | .streaming, .streaming => true
  | .unaligned, .unaligned => true
  | .prefetch, .prefetch _ _ _ => true
  | _, _ => false

/-- `ExtractType<Base, Default, Flags...>::type`; `none` stands for `Default` (/repo/Vc/common/loadstoreflags.h:64-71). -/
def extractType (b : FlagBase) : List LsFlag → Option LsFlag
  | [] => none
  | t :: ts => if b.isBaseOf t then some t else extractType b ts

/-- The static members of `LoadStoreFlags<Flags...>` (/repo/Vc/common/loadstoreflags.h:95-102); the specialization for no
flags has the same values (124-131). -/
def isStreaming (l : List LsFlag) : Bool := (extractType .streaming l).isSome
def isUnaligned (l : List LsFlag) : Bool := (extractType .unaligned l).isSome
def isAlignedFlag (l : List LsFlag) : Bool := !isUnaligned l
def isPrefetch (l : List LsFlag) : Bool := (extractType .prefetch l).isSome

/-- `Prefetch`, by default `PrefetchFlag<0, 0>` (/repo/Vc/common/loadstoreflags.h:90). -/
def prefetchOf (l : List LsFlag) : Nat × Nat × PfHint :=
  match extractType .prefetch l with
  | some (.prefetch a b h) => (a, b, h)
  | _ => (0, 0, .none)

/-- The flags as the loads and stores of `Verif.Model.LoadStore` use them. -/
def lflagsOf (l : List LsFlag) : LFlags := ⟨isUnaligned l, isStreaming l⟩

/-- The `EnableIf` types (/repo/Vc/common/loadstoreflags.h:110-117): whether the type is `void *`, i.e. the overload takes
part; the specialization for no flags has three of them, all `void *`, a type that does not exist removes the overload as
well (132-134). -/
inductive EnableIf where
  | aligned | streaming | unalignedNotStreaming | unalignedAndStreaming | unaligned | notUnaligned | prefetch | notPrefetch
  deriving DecidableEq

def EnableIf.takesPart (e : EnableIf) : List LsFlag → Bool
  | [] => match e with
    | .aligned | .notUnaligned | .notPrefetch => true
    | _ => false
  | t :: ts =>
    let l := t :: ts
    match e with
    | .aligned => isAlignedFlag l && !isStreaming l
    | .streaming => isAlignedFlag l && isStreaming l
    | .unalignedNotStreaming => isUnaligned l && !isStreaming l
    | .unalignedAndStreaming => isUnaligned l && isStreaming l
    | .unaligned => isUnaligned l
    | .notUnaligned => !isUnaligned l
    | .prefetch => isPrefetch l
    | .notPrefetch => !isPrefetch l

/-- What a program writes: the objects `Aligned`, `Unaligned`, `Streaming`, `PrefetchDefault`, `Prefetch<L1, L2, H>()` and
`|` (/repo/Vc/common/loadstoreflags.h:137-220). -/
inductive FlagExpr where
  | aligned | unaligned | streaming | prefetchDefault
  | prefetch (l1 l2 : Nat) (h : PfHint)
  | or (a b : FlagExpr)

/-- The type of the expression: `operator|` concatenates. -/
def FlagExpr.flags : FlagExpr → List LsFlag
  | .aligned => []
  | .unaligned => [.unaligned]
  | .streaming => [.streaming]
  | .prefetchDefault => [.prefetch (16 * 64) (128 * 64) .none]
  | .prefetch a b h => [.prefetch a b h]
  | .or a b => a.flags ++ b.flags

/-- A prefetch instruction: the hint (`T0` for `prefetchClose`, `T1` for `prefetchMid`) and the address.  The exclusive
variants are the same instructions, `exclusive_hint` is 0 (/repo/Vc/common/x86_prefetches.h:38-86). -/
inductive PfInstr where
  | t0 (addr : Nat)
  | t1 (addr : Nat)
  deriving DecidableEq

/-- `handlePrefetch<L1, L2, UseExclusivePrefetch>(addr)` (/repo/Vc/common/x86_prefetches.h:88-106). -/
def handlePrefetch (l1 l2 : Nat) (addr : Nat) : List PfInstr :=
  if l1 ≠ 0 ∧ l2 ≠ 0 then [.t0 (addr + l1), .t1 (addr + l2)]
  else if l1 = 0 ∧ l2 ≠ 0 then [.t1 (addr + l2)]
  else if l1 ≠ 0 ∧ l2 = 0 then [.t0 (addr + l1)]
  else []

/-- `handleLoadPrefetches`, `handleStorePrefetches` (/repo/Vc/common/x86_prefetches.h:108-122): of the two overloads the
one that takes part. -/
def handlePrefetches (l : List LsFlag) (addr : Nat) : List PfInstr :=
  if EnableIf.takesPart .prefetch l then handlePrefetch (prefetchOf l).1 (prefetchOf l).2.1 addr else []

end Vc.Model
