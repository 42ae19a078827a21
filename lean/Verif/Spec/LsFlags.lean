import Verif.Model.LsFlags

/-!
# What a combination of flags says

On the expression that the program contains, without the list of types it is turned into.
-/

namespace Vc.Spec
open Vc.Model

/-- The expression contains `Unaligned`, `Streaming`. -/
inductive SaysUnaligned : FlagExpr → Prop
  | base : SaysUnaligned .unaligned
  | left {a b} : SaysUnaligned a → SaysUnaligned (.or a b)
  | right {a b} : SaysUnaligned b → SaysUnaligned (.or a b)

inductive SaysStreaming : FlagExpr → Prop
  | base : SaysStreaming .streaming
  | left {a b} : SaysStreaming a → SaysStreaming (.or a b)
  | right {a b} : SaysStreaming b → SaysStreaming (.or a b)

/-- No prefetch flag in the expression. -/
inductive NoPrefetch : FlagExpr → Prop
  | aligned : NoPrefetch .aligned
  | unaligned : NoPrefetch .unaligned
  | streaming : NoPrefetch .streaming
  | or {a b} : NoPrefetch a → NoPrefetch b → NoPrefetch (.or a b)

/-- The leftmost prefetch flag has these strides. -/
inductive FirstPrefetch : FlagExpr → Nat → Nat → Prop
  | default : FirstPrefetch .prefetchDefault 1024 8192
  | flag (a b h) : FirstPrefetch (.prefetch a b h) a b
  | left {a b l1 l2} : FirstPrefetch a l1 l2 → FirstPrefetch (.or a b) l1 l2
  | right {a b l1 l2} : NoPrefetch a → FirstPrefetch b l1 l2 → FirstPrefetch (.or a b) l1 l2

end Vc.Spec
