import Verif.Lemma.RelApx
import Verif.Lemma.TrigReal
import Verif.Lemma.TrigSign

/-!
Products of approximations on the same scale.
-/

namespace Vc.Lemma
open Vc.Model Vc.Spec

theorem RApx.mul1U {F : Fmt} {w : Nat} {s t : BitVec w} {p q P Q R β γ δ : ℝ} (hs : RApx F s 1 p (β * uRel F) P)
    (ht : RApx F t 1 q (γ * uRel F) Q) (h : FmtW F w) (hβ : 0 ≤ β) (hγ : 0 ≤ γ) (hP : 0 ≤ P) (hQ : 0 ≤ Q) (hR : P * Q ≤ R)
    (h1 : (P + β / 2 ^ 24) * (Q + γ / 2 ^ 24) ≤ 1000000)
    (h2 : β * Q + P * γ + β * γ / 2 ^ 24 + (P + β / 2 ^ 24) * (Q + γ / 2 ^ 24) + 1 / 2 ^ 20 ≤ δ) :
    RApx F (fMul F s t) 1 (p * q) (δ * uRel F) R := by
  have := hs.mulU ht h (by norm_num) (by rw [mul_one]; exact scale_one h) hβ hγ hP hQ hR h1 h2
  rwa [mul_one] at this

end Vc.Lemma
