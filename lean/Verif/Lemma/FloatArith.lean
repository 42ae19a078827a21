import Verif.Lemma.FloatNearest
import Verif.Lemma.FloatCvt2

/-!
The arithmetic operations of the model round to the nearest number; nearest numbers are monotone.
-/

namespace Vc.Lemma
open Vc.Model Vc.Spec

theorem fAdd_nearest {F : Fmt} {w : Nat} (h : FmtW F w) {a b : BitVec w} (ha : isFinite F a = true)
    (hb : isFinite F b = true) : NearestTo F (fval F a + fval F b) 1 (fAdd F a b) := by
  rw [fAdd_fin F ha hb]; exact roundInt_nearest h _ _

theorem fSub_nearest {F : Fmt} {w : Nat} (h : FmtW F w) {a b : BitVec w} (ha : isFinite F a = true)
    (hb : isFinite F b = true) : NearestTo F (fval F a - fval F b) 1 (fSub F a b) := by
  rw [fSub_fin F ha hb]; exact roundInt_nearest h _ _

theorem fMul_fin (F : Fmt) {w : Nat} {a b : BitVec w} (ha : isFinite F a = true) (hb : isFinite F b = true) :
    fMul F a b = mkFloat F w (fneg F a != fneg F b)
      (roundMag F ((fval F a).natAbs * (fval F b).natAbs) (2 ^ oneExp F)) := by
  obtain ⟨a1, a2⟩ := isFinite_not ha
  obtain ⟨b1, b2⟩ := isFinite_not hb
  unfold fMul; rw [a1, b1, a2, b2]; rfl

theorem signed_fmul {F : Fmt} {w : Nat} (a b : BitVec w) :
    signed (fneg F a != fneg F b) ((fval F a).natAbs * (fval F b).natAbs) = fval F a * fval F b := by
  unfold signed fval
  cases fneg F a <;> cases fneg F b <;> simp [Int.neg_mul, Int.mul_neg]

theorem fMul_nearest {F : Fmt} {w : Nat} (h : FmtW F w) {a b : BitVec w} (ha : isFinite F a = true)
    (hb : isFinite F b = true) : NearestTo F (fval F a * fval F b) (2 ^ oneExp F) (fMul F a b) := by
  rw [fMul_fin F ha hb, ← signed_fmul]
  exact mk_nearest h _ _ (pow_pos2 _)

/-- A number of the format on one side of the value is on that side of the nearest number. -/
theorem nearest_ge {F : Fmt} {w : Nat} {num : Int} {den : Nat} {r y : BitVec w} (hd : 0 < den)
    (h : NearestTo F num den r) (hy : isNaN F y = false) (hle : fval F y * den ≤ num) : fval F y ≤ fval F r := by
  rcases Int.lt_or_le (fval F r) (fval F y) with hlt | hge
  · exfalso
    have h1 := (h.2 y hy).1
    have h2 : fval F r * den < fval F y * den := Int.mul_lt_mul_of_pos_right hlt (by omega)
    omega
  · exact hge

theorem nearest_le {F : Fmt} {w : Nat} {num : Int} {den : Nat} {r y : BitVec w} (hd : 0 < den)
    (h : NearestTo F num den r) (hy : isNaN F y = false) (hle : num ≤ fval F y * den) : fval F r ≤ fval F y := by
  rcases Int.lt_or_le (fval F y) (fval F r) with hlt | hge
  · exfalso
    have h1 := (h.2 y hy).1
    have h2 : fval F y * den < fval F r * den := Int.mul_lt_mul_of_pos_right hlt (by omega)
    omega
  · exact hge

theorem nearest_eq {F : Fmt} {w : Nat} {num : Int} {den : Nat} {r y : BitVec w} (hd : 0 < den)
    (h : NearestTo F num den r) (hy : isNaN F y = false) (he : fval F y * den = num) : fval F r = fval F y :=
  Int.le_antisymm (nearest_le hd h hy (by omega)) (nearest_ge hd h hy (by omega))

theorem nearest_scale {F : Fmt} {w : Nat} {num : Int} {den k : Nat} {r : BitVec w} (hk : 0 < k) :
    NearestTo F (num * k) (den * k) r ↔ NearestTo F num den r := by
  have e : ∀ y : BitVec w, (fval F y * ((den * k : Nat) : Int) - num * k).natAbs = (fval F y * den - num).natAbs * k := by
    intro y
    rw [Int.natCast_mul, ← Int.mul_assoc, ← Int.sub_mul, Int.natAbs_mul, Int.natAbs_natCast]
  unfold NearestTo
  constructor
  · rintro ⟨h1, h2⟩
    refine ⟨h1, fun y hy => ?_⟩
    obtain ⟨p, q⟩ := h2 y hy
    rw [e, e] at p q
    exact ⟨Nat.le_of_mul_le_mul_right p hk, fun h => q (by rw [h])⟩
  · rintro ⟨h1, h2⟩
    refine ⟨h1, fun y hy => ?_⟩
    obtain ⟨p, q⟩ := h2 y hy
    rw [e, e]
    exact ⟨Nat.mul_le_mul_right k p, fun h => q (Nat.eq_of_mul_eq_mul_right hk h)⟩

/-- Only the value of the result matters, but for the parity in a tie. -/
theorem finite_of_val {F : Fmt} {w : Nat} {x y : BitVec w} (hy : isFinite F y = true)
    (h : fval F x = fval F y) : isFinite F x = true := by
  have e : ∀ z : BitVec w, (fval F z).natAbs = magVal F (fmag F z) := by
    intro z; unfold fval; split <;> simp
  have h2 := e x
  rw [h, e y] at h2
  have := magVal_inj F h2
  unfold isFinite at *
  rw [← this]
  exact hy

end Vc.Lemma
