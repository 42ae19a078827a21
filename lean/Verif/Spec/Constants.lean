/-!
# Sequences of calls (independent of the model)
-/

namespace Vc.Spec

/-- `for (i = 0; i < n; ++i) result[i] = f(i);` where `f` is one object whose state is `τ`: the results and the final
state. -/
inductive CallSeq {τ β : Type} (f : Nat → τ → β × τ) : Nat → τ → List β → τ → Prop where
  | nil (s : τ) : CallSeq f 0 s [] s
  | snoc {n : Nat} {s t u : τ} {l : List β} {b : β} (h : CallSeq f n s l t) (e : f n t = (b, u)) :
      CallSeq f (n + 1) s (l ++ [b]) u

end Vc.Spec
