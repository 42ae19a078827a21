import Verif.Lemma.TrigFoldF
import Verif.Lemma.TrigSerF
import Verif.Lemma.TrigSerD

/-!
`sin` and `cos`: from the folded argument to the result.
-/

namespace Vc.Lemma
open Vc.Model Vc.Spec

section
variable {F : Fmt} {w : Nat}

theorem fneg_xor (x y : BitVec w) : fneg F (x ^^^ y) = (fneg F x != fneg F y) := by
  unfold fneg
  rw [BitVec.testBit_toNat, BitVec.testBit_toNat, BitVec.testBit_toNat, BitVec.getLsbD_xor]

theorem fneg_and' (x y : BitVec w) : fneg F (x &&& y) = (fneg F x && fneg F y) := by
  unfold fneg
  rw [BitVec.testBit_toNat, BitVec.testBit_toNat, BitVec.testBit_toNat, BitVec.getLsbD_and]

/-- What the signs and the choice between the two series are, for the four quadrants. -/
structure QuadTable (F : Fmt) (w : Nat) (one two half twoHalf : BitVec w) : Prop where
  even : ∀ r < 4, (fEq F (cvtI2F F w (BitVec.ofNat 32 r)) 0#w || fEq F (cvtI2F F w (BitVec.ofNat 32 r)) two) =
    decide (r = 0 ∨ r = 2)
  sin : ∀ r < 4, fneg F (fSub F one (cvtI2F F w (BitVec.ofNat 32 r))) = decide (r = 2 ∨ r = 3)
  cos : ∀ r < 4, (fneg F (fSub F half (cvtI2F F w (BitVec.ofNat 32 r))) &&
    fneg F (fSub F (cvtI2F F w (BitVec.ofNat 32 r)) twoHalf)) = decide (r = 1 ∨ r = 2)

theorem quadTable_double : QuadTable f64 64 0x3ff0000000000000#64 0x4000000000000000#64 0x3fe0000000000000#64
    0x4004000000000000#64 := ⟨by decide +kernel, by decide +kernel, by decide +kernel⟩

theorem quadTable_single : QuadTable f32 32 0x3f800000#32 0x40000000#32 0x3f000000#32 0x40200000#32 :=
  ⟨by decide +kernel, by decide +kernel, by decide +kernel⟩

variable {one two half twoHalf : BitVec w} {r : Nat}

theorem sinEnd_val (h : FmtW F w) (T : QuadTable F w one two half twoHalf) (hr : r < 4) (x : BitVec w) {s c : BitVec w}
    (hs : isFinite F s = true) (hc : isFinite F c = true) :
    isFinite F (trigSinL F (sgn w) one two x (cvtI2F F w (BitVec.ofNat 32 r)) s c) = true ∧
    rval F (trigSinL F (sgn w) one two x (cvtI2F F w (BitVec.ofNat 32 r)) s c) =
      (if fneg F x then -1 else 1) * quadSin r (rval F s) (rval F c) := by
  unfold trigSinL
  rw [T.even r hr, (sgn_xor h _ _).1, (sgn_xor h _ _).2, fneg_xor, T.sin r hr]
  unfold quadSin
  rcases (show r = 0 ∨ r = 1 ∨ r = 2 ∨ r = 3 by omega) with e | e | e | e <;> subst e <;> cases fneg F x <;> simp [hs, hc]

theorem cosEnd_val (h : FmtW F w) (T : QuadTable F w one two half twoHalf) (hr : r < 4) {s c : BitVec w}
    (hs : isFinite F s = true) (hc : isFinite F c = true) :
    isFinite F (trigCosL F (sgn w) half two twoHalf (cvtI2F F w (BitVec.ofNat 32 r)) s c) = true ∧
    rval F (trigCosL F (sgn w) half two twoHalf (cvtI2F F w (BitVec.ofNat 32 r)) s c) = quadCos r (rval F s) (rval F c) := by
  unfold trigCosL
  rw [T.even r hr, (sgn_xor h _ _).1, (sgn_xor h _ _).2, fneg_and', T.cos r hr]
  unfold quadCos
  rcases (show r = 0 ∨ r = 1 ∨ r = 2 ∨ r = 3 by omega) with e | e | e | e <;> subst e <;> simp [hs, hc]

/-- The errors of the series and of the folding add up. -/
theorem end_ok (h : FmtW F w) (T : QuadTable F w one two half twoHalf) {x t q s c : BitVec w} {δ ε : ℝ}
    (hf : Folded F (rval F (absL x)) δ t q) (hs : ApproxAbs F (Real.sin (rval F t)) ε s) (hc : ApproxAbs F (Real.cos (rval F t)) ε c) :
    ApproxAbs F (Real.sin (rval F x)) (ε + δ) (trigSinL F (sgn w) one two x q s c) ∧
    ApproxAbs F (Real.cos (rval F x)) (ε + δ) (trigCosL F (sgn w) half two twoHalf q s c) := by
  obtain ⟨Y, rfl, hY⟩ := hf.near
  have hr : Y % 4 < 4 := Nat.mod_lt _ (by decide)
  have sv := sinEnd_val h T hr x hs.1 hc.1
  have cv := cosEnd_val h T hr hs.1 hc.1
  obtain ⟨q1, q2⟩ := sin_quad (rval F (absL x) - Y * (Real.pi / 2)) Y
  rw [sub_add_cancel] at q1 q2
  have l1 := sin_lip (rval F t) (rval F (absL x) - Y * (Real.pi / 2))
  have l2 := cos_lip (rval F t) (rval F (absL x) - Y * (Real.pi / 2))
  have s1 : |rval F s - Real.sin (rval F (absL x) - Y * (Real.pi / 2))| ≤ ε + δ := by
    refine le_trans (abs_sub_le _ (Real.sin (rval F t)) _) ?_
    linarith [hs.2]
  have c1 : |rval F c - Real.cos (rval F (absL x) - Y * (Real.pi / 2))| ≤ ε + δ := by
    refine le_trans (abs_sub_le _ (Real.cos (rval F t)) _) ?_
    linarith [hc.2]
  obtain ⟨n1, n2⟩ := quad_near (r := Y % 4) s1 c1
  rw [← q1] at n1
  rw [← q2] at n2
  have ex := (rval_absL h x).1
  refine ⟨⟨sv.1, ?_⟩, ⟨cv.1, ?_⟩⟩
  · rw [sv.2, ex]
    cases fneg F x
    · simpa using n1
    · simp only [if_true, neg_one_mul, Real.sin_neg]
      rw [show -quadSin (Y % 4) (rval F s) (rval F c) - -Real.sin (rval F (absL x)) =
        -(quadSin (Y % 4) (rval F s) (rval F c) - Real.sin (rval F (absL x))) by ring, abs_neg]
      exact n1
  · rw [cv.2, ex]
    cases fneg F x
    · simpa using n2
    · simp only [if_true, neg_one_mul, Real.cos_neg]
      exact n2
end

theorem approx_mono {F : Fmt} {w : Nat} {v ε ε' : ℝ} {r : BitVec w} (h : ApproxAbs F v ε r) (he : ε ≤ ε') : ApproxAbs F v ε' r :=
  ⟨h.1, le_trans h.2 he⟩

/-- One double, in any mode. -/
theorem trigDL_ok (I : Isa) {m : DMode} {x : BitVec 64} (hf : isFinite f64 x = true) (hx : |rval f64 x| ≤ 2 ^ 27)
    (hm : ModeAtD m (absL x)) :
    ApproxAbs f64 (Real.sin (rval f64 x)) (1 / 2 ^ 51) (sinDL (roundDSse I) m x) ∧
    ApproxAbs f64 (Real.cos (rval f64 x)) (1 / 2 ^ 51) (cosDL (roundDSse I) m x) := by
  obtain ⟨-, h0, h1, h2⟩ := rval_absL .double x
  have fo := foldD_ok I (h1.trans hf) h0 (by rw [h2]; exact hx) hm
  unfold sinDL cosDL sinEndD cosEndD
  generalize foldDL (roundDSse I) m (absL x) = f at *
  have hsm : |rval f64 f.1| ≤ 1571 / 2000 := by have := fo.small; norm_num at this ⊢; exact this
  have ue : uRel f64 = 1 / 2 ^ 53 := by norm_num [uRel, f64]
  have se := approx_mono (sinD_err fo.fin hsm) (ε' := 2363 / 1000 * uRel f64) (by rw [ue]; norm_num)
  have ce := cosD_err fo.fin hsm
  have r := end_ok .double quadTable_double fo se ce
  have e : sgn 64 = 0x8000000000000000#64 := by decide
  rw [e] at r
  exact ⟨approx_mono r.1 (by rw [ue]; norm_num), approx_mono r.2 (by rw [ue]; norm_num)⟩

/-- One float, in any mode. -/
theorem trigFL_ok (I : Isa) {m : FMode} {x : BitVec 32} (hf : isFinite f32 x = true) (hx : |rval f32 x| ≤ 527449)
    (hm : ModeAtF m (absL x)) :
    ApproxAbs f32 (Real.sin (rval f32 x)) (1 / 2 ^ 22) (sinFL (roundFSse I) (roundDSse I) m x) ∧
    ApproxAbs f32 (Real.cos (rval f32 x)) (1 / 2 ^ 22) (cosFL (roundFSse I) (roundDSse I) m x) := by
  obtain ⟨-, h0, h1, h2⟩ := rval_absL .single x
  have fo := foldF_ok I (h1.trans hf) h0 (by rw [h2]; exact hx) hm
  unfold sinFL cosFL sinEndF cosEndF
  generalize foldFL (roundFSse I) (roundDSse I) m (absL x) = f at *
  have hsm : |rval f32 f.1| ≤ 1571 / 2000 := by have := fo.small; norm_num at this ⊢; exact this
  have ue : uRel f32 = 1 / 2 ^ 24 := by norm_num [uRel, f32]
  have se := approx_mono (sinF_err fo.fin hsm) (ε' := 3151 / 1000 * uRel f32) (by rw [ue]; norm_num)
  have ce := cosF_err fo.fin hsm
  have r := end_ok .single quadTable_single fo se ce
  have e : sgn 32 = 0x80000000#32 := by decide
  rw [e] at r
  exact ⟨approx_mono r.1 (by rw [ue]; norm_num), approx_mono r.2 (by rw [ue]; norm_num)⟩

/-- A small double as a float. -/
theorem narrow_ok {v : ℝ} {r : BitVec 64} (hv : |v| ≤ 1) (h : ApproxAbs f64 v (1 / 2 ^ 51) r) :
    ApproxAbs f32 v (1 / 2 ^ 22) (cvtF2F f64 f32 32 r) := by
  have e := h.2
  rw [abs_le] at hv e
  have c := cvtF2F_err .single (k := 1) (by decide) h.1 (by
    rw [zpow_one, abs_le]
    norm_num at e ⊢
    constructor <;> linarith [hv.1, hv.2, e.1, e.2])
  rw [show (2 : ℝ) ^ ((1 : Int) - (f32.m : Nat) - 2) = 1 / 2 ^ 24 by norm_num [f32]] at c
  have ce := c.2
  refine ⟨c.1, ?_⟩
  rw [abs_le] at ce ⊢
  norm_num at e ce ⊢
  constructor <;> linarith [e.1, e.2, ce.1, ce.2]

end Vc.Lemma
