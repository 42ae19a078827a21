import Verif.Model.Functor
import Verif.Spec.ForEach

/-!
What is expected of `simd_for_each` for the different kinds of functors.
-/

namespace Vc.Spec
open Vc.Model

/-- The call changes the object that it is called with: the parameter is a reference, and not to a constant. -/
def Refers (f : FSig) : Prop := (f.form = .lref ∨ f.form = .rref) ∧ f.const = false
instance (f : FSig) : Decidable (Refers f) := inferInstanceAs (Decidable (_ ∧ _))

/-- The range is visited in pieces of `w` elements and then single ones, in order; the memory afterwards has what the functor did to the
pieces if it refers to them, and is unchanged otherwise. -/
def ForEachOk {α σ : Type} (w : Nat) (f : FSig) (g : List α → σ → List α × σ) (first last : Nat) (mem : List α) (s : σ)
    (r : ForEachUse α σ) : Prop :=
  ∃ chunks, IsChunking w (slice mem first last) chunks ∧
    r = .run (some (if Refers f then splice mem first (seqMap g chunks s).1.flatten else mem, (seqMap g chunks s).2))

end Vc.Spec
