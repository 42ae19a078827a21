import Verif.Lemma.AtanD
import Verif.Prop.Arc

/-!
C78: the documented precision of `atan`, in units in the last place.
-/

namespace Vc.Prop
open Vc.Model Vc.Spec Vc.Lemma

/-- The sign is put back at the end. -/
theorem atan_sign {F : Fmt} {w : Nat} (h : FmtW F w) {k : ℝ} {x c : BitVec w} (hf : isFinite F x = true)
    (hc : WithinUlps F k (Real.arctan (rval F (absL x))) c) :
    WithinUlps F k (Real.arctan (rval F x)) (if fLt F x 0#w then c ^^^ sgn w else c) := by
  have z : isFinite F 0#w = true ∧ rval F 0#w = 0 := by
    cases h
    · exact ⟨by decide, by unfold rval; rw [show fval f32 0#32 = 0 by decide +kernel]; simp⟩
    · exact ⟨by decide, by unfold rval; rw [show fval f64 0#64 = 0 by decide +kernel]; simp⟩
  obtain ⟨-, -, -, ha⟩ := rval_absL h x
  rw [fLt_real hf z.1, z.2]
  rw [ha] at hc
  by_cases hx : rval F x < 0
  · rw [if_pos (decide_eq_true hx)]
    have := within_neg h hc
    rwa [abs_of_neg hx, Real.arctan_neg, neg_neg] at this
  · rw [if_neg (by simpa using hx)]
    rwa [abs_of_nonneg (not_lt.mp hx)] at hc

/-- Float: the arcus tangens of a finite number is correct up to 3 units in the last place, for numbers of any size. -/
theorem C78_float {n : Nat} {E : ArcEnv n} (h : ArcVF n E) (x : BitVec n) {i : Nat} (hi : 32 * (i + 1) ≤ n)
    (hf : isFinite f32 (lane 32 x i) = true) :
    WithinUlps f32 3 (Real.arctan (rval f32 (lane 32 x i))) (lane 32 (atanF (vArc E f32 32) x) i) := by
  rw [atanF_lane h.ok hi (v := x) rfl, atanF_core, (isFinite_not hf).1, if_neg (by decide)]
  obtain ⟨-, h0, h1, -⟩ := rval_absL .single (lane 32 x i)
  exact atan_sign .single hf (coreF_within E.B (h1.trans hf) h0)

/-- Witness: a number between the two limits, and a large negative one. -/
example : ArcVF 256 (arcAvxF .avxGcc) ∧ lane 32 (set1 (n := 256) 32 0x3f19999a#32) 7 = 0x3f19999a#32 ∧
    isFinite f32 0x3f19999a#32 = true ∧ isFinite f32 0xff7fffff#32 = true ∧ rval f32 0x3f19999a#32 = 5033165 / 8388608 := by
  refine ⟨.avx _, by decide +kernel, by decide, by decide, ?_⟩
  exact rval_lit false 126 1677722 (-24) (by decide) (by decide) (by decide) (by decide) (by decide) (by norm_num [f32])

/-- Double: the arcus tangens of a finite number is correct up to 2 units in the last place, for numbers of any size. -/
theorem C78_double {n : Nat} {E : ArcEnv n} (h : ArcVD n E) (x : BitVec n) {i : Nat} (hi : 64 * (i + 1) ≤ n)
    (hf : isFinite f64 (lane 64 x i) = true) :
    WithinUlps f64 2 (Real.arctan (rval f64 (lane 64 x i))) (lane 64 (atanD (vArc E f64 64) x) i) := by
  rw [atanD_lane h.ok hi (v := x) rfl, atanD_core, (isFinite_not hf).1, if_neg (by decide), hf]
  obtain ⟨-, h0, h1, -⟩ := rval_absL .double (lane 64 x i)
  exact atan_sign .double hf (coreD_within E.B (h1.trans hf) h0)

/-- Witness: next to an infinity. -/
example : ArcVD 128 (arcSseD sse42) ∧ lane 64 (0x7ff00000000000004199000000000000#128) 0 = 0x4199000000000000#64 ∧
    isFinite f64 0x4199000000000000#64 = true ∧ rval f64 0x4199000000000000#64 = 104857600 := by
  refine ⟨.sse _, by decide, by decide, ?_⟩
  exact rval_lit false 1049 2533274790395904 (-26) (by decide) (by decide) (by decide) (by decide) (by decide) (by norm_num [f64])

/-- What a unit in the last place is: results next to `1` are allowed to be off by three times `2^-23`, and no more. -/
example : ¬ WithinUlps f32 3 1 0x3f800008#32 := by
  intro h
  have h2 := h.2.2 0 (by norm_num) (by norm_num)
  rw [rval_lit (v := 1048577 / 1048576) false 127 8 (-23) (by decide) (by decide) (by decide) (by decide) (by decide) (by norm_num [f32])] at h2
  rw [show max (0 - (f32.m : Int)) (-(oneExp f32 : Int)) = -23 by decide] at h2
  norm_num at h2

end Vc.Prop
