import Verif.Lemma.ExpF4
import Verif.Lemma.Fma2

/-!
`exp` of float: infinities and NaNs.
-/

namespace Vc.Lemma
open Vc.Model Vc.Spec

attribute [local irreducible] LdexpR

theorem fLt_nan {F : Fmt} {w : Nat} {x : BitVec w} (hx : isNaN F x = true) (y : BitVec w) : fLt F x y = false := by
  unfold fLt; rw [hx]; rfl

theorem gtL_nan {F : Fmt} {w : Nat} {x : BitVec w} (hx : isNaN F x = true) (y : BitVec w) {B : CmpBuild}
    (hB : B ≠ .avx) : gtL B F x y = false := by
  cases B
  · simp [gtL, fLt, hx]
  · simp [gtL, fLt, hx]
  · exact absurd rfl hB

theorem gtL_avx_nan {F : Fmt} {w : Nat} {x : BitVec w} (hx : isNaN F x = true) (y : BitVec w) :
    gtL .avx F x y = true := by
  simp [gtL, fLe, hx]

theorem cvtt_nan {F : Fmt} {w : Nat} {x : BitVec w} (hx : isNaN F x = true) : (cvttF2I F x).toInt = -2147483648 := by
  unfold cvttF2I
  have : ¬isFinite F x = true := by
    unfold isNaN at hx; unfold isFinite
    have := of_decide_eq_true hx
    rw [decide_eq_true_eq]; omega
  rw [if_neg this]; rfl

theorem expArgL_nan {x : BitVec 32} (hx : isNaN f32 x = true) : isNaN f32 (expArgL x) = true :=
  fAdd_nan (.inl (fMul_nan (.inr hx)))

theorem expRedL_nan {x : BitVec 32} (hx : isNaN f32 x = true) (z : BitVec 32) : isNaN f32 (expRedL x z) = true :=
  isNaN_fSub_left (isNaN_fSub_left hx _) _

theorem expPolyL_nan {x : BitVec 32} (hx : isNaN f32 x = true) : isNaN f32 (expPolyL x) = true :=
  fAdd_nan (.inl (fAdd_nan (.inr hx)))

theorem ldexpR_nan {x r : BitVec 32} (h : LdexpR f32 x (-2147483648) r) (hx : isNaN f32 x = true) : r = x := by
  unfold LdexpR at h
  have : fmag f32 x ≠ 0 := by
    intro e; unfold isNaN at hx; rw [e] at hx; exact absurd hx (by decide)
  rw [if_neg this] at h
  obtain ⟨k, hk⟩ := h
  apply BitVec.eq_of_toNat_eq
  have h1 := x.isLt
  have h2 := r.isLt
  have : f32.m = 23 := rfl
  rw [this] at hk
  omega

theorem expF_nan {B : CmpBuild} {x r : BitVec 32} (h : ExpLaneF B x r) (hx : isNaN f32 x = true) (hB : B ≠ .avx) :
    isNaN f32 r = true := by
  obtain ⟨z, t, hz, ht, hr⟩ := h
  rw [fLt_nan hx, gtL_nan hx _ hB] at hr
  simp only [Bool.false_eq_true, if_false] at hr
  subst hr
  rw [cvtt_nan (hz.2.2 (expArgL_nan hx))] at ht
  have hn := expPolyL_nan (expRedL_nan hx z)
  rw [ldexpR_nan ht hn]
  exact hn

theorem expF_avx_nan {x r : BitVec 32} (h : ExpLaneF .avx x r) (hx : isNaN f32 x = true) : r = 0x7f800000#32 := by
  obtain ⟨z, t, hz, ht, hr⟩ := h
  rw [fLt_nan hx, gtL_avx_nan hx] at hr
  exact hr

theorem isInf_iff32 {x : BitVec 32} (h : isInf f32 x = true) : x = if fneg f32 x then 0xff800000#32 else 0x7f800000#32 := by
  have hs := toNat_sm .single x
  unfold isInf at h
  have hm := of_decide_eq_true h
  have e : infMag f32 = 0x7f800000 := by decide
  rw [hm, e] at hs
  apply BitVec.eq_of_toNat_eq
  rw [hs]
  cases fneg f32 x <;> rfl

theorem expF_inf {B : CmpBuild} {x r : BitVec 32} (h : ExpLaneF B x r) (hx : isInf f32 x = true) :
    r = if fneg f32 x then 0#32 else 0x7f800000#32 := by
  obtain ⟨z, t, hz, ht, hr⟩ := h
  have e := isInf_iff32 hx
  cases hs : fneg f32 x
  · rw [hs] at e
    simp only [Bool.false_eq_true, if_false] at e ⊢
    rw [hr, e]
    have h1 : fLt f32 0x7f800000#32 minlogf = false := by decide
    have h2 : gtL B f32 0x7f800000#32 maxlogf = true := by cases B <;> decide
    rw [h1, h2]; rfl
  · rw [hs] at e
    simp only [if_true] at e ⊢
    rw [hr, e]
    have h1 : fLt f32 0xff800000#32 minlogf = true := by decide
    rw [h1]; rfl

end Vc.Lemma
