import Verif.Lemma.TrigLane
import Verif.Spec.Trig
import Verif.Prop.FloatBits

/-!
Changing signs.
-/

namespace Vc.Lemma
open Vc.Model Vc.Spec

def sgn (w : Nat) : BitVec w := BitVec.ofNat w (2 ^ (w - 1))

theorem signPattern_lane {n w i : Nat} {g : BitVec n} (hw : 0 < w) (h : SignPattern w g) (hi : w * (i + 1) ≤ n) :
    lane w g i = 0#w ∨ lane w g i = sgn w := by
  have hb : ∀ j, j < w → j + 1 ≠ w → (lane w g i).getLsbD j = false := by
    intro j hj hne
    unfold lane
    rw [BitVec.getLsbD_extractLsb']
    have : w * i + j < n := by rw [Nat.mul_add] at hi; omega
    rw [h (w * i + j) this]
    · simp
    · rw [Nat.add_assoc, Nat.mul_add_mod, Nat.mod_eq_of_lt (by omega)]; omega
  have hs : ∀ j, (sgn w).getLsbD j = decide (j + 1 = w) := by
    intro j
    unfold sgn
    rw [BitVec.getLsbD_ofNat, Nat.testBit_two_pow]
    by_cases e : j + 1 = w
    · simp [e]; omega
    · simp [e]; omega
  cases ht : (lane w g i).getLsbD (w - 1) with
  | false =>
    left
    apply BitVec.eq_of_getLsbD_eq
    intro j hj
    by_cases e : j + 1 = w
    · rw [show j = w - 1 by omega, ht]; simp
    · rw [hb j hj e]; simp
  | true =>
    right
    apply BitVec.eq_of_getLsbD_eq
    intro j hj
    rw [hs]
    by_cases e : j + 1 = w
    · rw [show j = w - 1 by omega, ht]; simp; omega
    · rw [hb j hj e]; simp [e]

theorem signPattern_of {n w : Nat} {g : BitVec n} (hw : 0 < w) (hd : w ∣ n)
    (h : ∀ i, w * (i + 1) ≤ n → lane w g i = 0#w ∨ lane w g i = sgn w) : SignPattern w g := by
  intro j hj hm
  obtain ⟨c, rfl⟩ := hd
  have h1 : j / w < c := Nat.div_lt_of_lt_mul hj
  have h2 : w * (j / w + 1) ≤ w * c := Nat.mul_le_mul_left _ h1
  have h3 := Nat.mod_lt j hw
  have e : (lane w g (j / w)).getLsbD (j % w) = g.getLsbD j := by
    unfold lane
    rw [BitVec.getLsbD_extractLsb', Nat.div_add_mod]
    simp [h3]
  rw [← e]
  rcases h _ h2 with h | h
  · rw [h]; simp
  · rw [h]
    unfold sgn
    rw [BitVec.getLsbD_ofNat, Nat.testBit_two_pow]
    have : j % w + 1 ≠ w := by
      intro hh
      apply hm
      rw [← Nat.div_add_mod j w, Nat.add_assoc, hh, ← Nat.mul_succ, Nat.mul_mod_right]
    simp; omega

section
variable {F : Fmt} {w : Nat}

theorem FmtW.w_eq (h : FmtW F w) : F.e + F.m = w - 1 ∧ 0 < w := by cases h <;> decide

theorem fmag_flip (h : FmtW F w) (x : BitVec w) : fmag F (x ^^^ sgn w) = fmag F x := by
  have ⟨e, hp⟩ := h.w_eq
  unfold fmag
  rw [e]
  apply Nat.eq_of_testBit_eq
  intro j
  rw [Nat.testBit_mod_two_pow, Nat.testBit_mod_two_pow, BitVec.testBit_toNat, BitVec.testBit_toNat, BitVec.getLsbD_xor]
  unfold sgn
  rw [BitVec.getLsbD_ofNat, Nat.testBit_two_pow]
  by_cases hj : j < w - 1
  · have : w - 1 ≠ j := by omega
    simp [this]
  · simp [hj]

theorem fneg_flip (h : FmtW F w) (x : BitVec w) : fneg F (x ^^^ sgn w) = !fneg F x := by
  have ⟨e, hp⟩ := h.w_eq
  unfold fneg
  rw [e, BitVec.testBit_toNat, BitVec.testBit_toNat, BitVec.getLsbD_xor]
  unfold sgn
  rw [BitVec.getLsbD_ofNat, Nat.testBit_two_pow]
  have : w - 1 < w := by omega
  simp [this]

theorem mkFloat_not (h : FmtW F w) (s : Bool) (m : Nat) :
    mkFloat F w (!s) m = mkFloat F w s m ^^^ sgn w := by
  have ⟨e, hp⟩ := h.w_eq
  have key : BitVec.ofNat w (m + 2 ^ (F.e + F.m)) = BitVec.ofNat w m ^^^ sgn w := by
    apply BitVec.eq_of_getLsbD_eq
    intro j hj
    unfold sgn
    rw [BitVec.getLsbD_xor, BitVec.getLsbD_ofNat, BitVec.getLsbD_ofNat, BitVec.getLsbD_ofNat, Nat.testBit_two_pow,
      Nat.add_comm, e]
    rcases Nat.lt_or_ge j (w - 1) with h1 | h1
    · rw [Nat.testBit_two_pow_add_gt h1]
      have : w - 1 ≠ j := by omega
      simp [this]
    · have : w - 1 = j := by omega
      subst this
      rw [Nat.testBit_two_pow_add_eq]
      simp [hj]
  unfold mkFloat
  cases s
  · simp only [Bool.not_false, if_true, Bool.false_eq_true, if_false, Nat.add_zero]
    exact key
  · simp only [Bool.not_true, if_true, Bool.false_eq_true, if_false, Nat.add_zero]
    rw [key, BitVec.xor_assoc, BitVec.xor_self, BitVec.xor_zero]

theorem quiet_flip (h : FmtW F w) (x : BitVec w) : quiet F (x ^^^ sgn w) = quiet F x ^^^ sgn w := by
  unfold quiet sgn
  apply BitVec.eq_of_getLsbD_eq
  intro j hj
  simp only [BitVec.getLsbD_or, BitVec.getLsbD_xor, BitVec.getLsbD_ofNat, Nat.testBit_two_pow]
  have : F.m - 1 ≠ w - 1 := by cases h <;> decide
  by_cases h1 : F.m - 1 = j
  · have h2 : w - 1 ≠ j := by omega
    simp [h1, h2]
  · simp [h1]
end

/-- Conversions between the formats keep the sign. -/
theorem cvtF2F_flip {F G : Fmt} {w v : Nat} (hF : FmtW F w) (hG : FmtW G v) (x : BitVec w) :
    cvtF2F F G v (x ^^^ sgn w) = cvtF2F F G v x ^^^ sgn v := by
  unfold cvtF2F
  have e1 : isNaN F (x ^^^ sgn w) = isNaN F x := by unfold isNaN; rw [fmag_flip hF]
  have e2 : isInf F (x ^^^ sgn w) = isInf F x := by unfold isInf; rw [fmag_flip hF]
  rw [e1, e2, fneg_flip hF, fmag_flip hF]
  split
  · rw [mkFloat_not hG, quiet_flip hG]
  · split <;> rw [mkFloat_not hG]

theorem and_sgn {w : Nat} (a : BitVec w) : a &&& sgn w = 0#w ∨ a &&& sgn w = sgn w := by
  have h : ∀ j, (a &&& sgn w).getLsbD j = (a.getLsbD j && (decide (j < w) && decide (w - 1 = j))) := by
    intro j
    unfold sgn
    rw [BitVec.getLsbD_and, BitVec.getLsbD_ofNat, Nat.testBit_two_pow]
  cases ht : a.getLsbD (w - 1) with
  | false =>
    left
    apply BitVec.eq_of_getLsbD_eq
    intro j hj
    rw [h]
    by_cases e : w - 1 = j
    · rw [← e, ht]; simp
    · simp [e]
  | true =>
    right
    apply BitVec.eq_of_getLsbD_eq
    intro j hj
    rw [h]
    unfold sgn
    rw [BitVec.getLsbD_ofNat, Nat.testBit_two_pow]
    by_cases e : w - 1 = j
    · rw [← e, ht]; simp
    · simp [e]

theorem fmag_sgn {F : Fmt} {w : Nat} (h : FmtW F w) (a x : BitVec w) : fmag F ((a &&& sgn w) ^^^ x) = fmag F x := by
  rcases and_sgn a with e | e
  · rw [e, BitVec.zero_xor]
  · rw [e, BitVec.xor_comm, fmag_flip h]

theorem isNaN_sgn {F : Fmt} {w : Nat} (h : FmtW F w) (a x : BitVec w) : isNaN F ((a &&& sgn w) ^^^ x) = isNaN F x := by
  unfold isNaN; rw [fmag_sgn h]

/-- Clearing the sign of one number. -/
theorem absL_spec {F : Fmt} {w : Nat} (h : FmtW F w) (x : BitVec w) :
    fneg F (absL x) = false ∧ fmag F (absL x) = fmag F x := by
  have e : (BitVec.allOnes w >>> 1) = BitVec.ofNat w (2 ^ (F.e + F.m) - 1) := by cases h <;> decide +kernel
  unfold absL
  rw [e]
  exact sm_abs h.width x

theorem absL_flip {w : Nat} (hw : 0 < w) (x : BitVec w) : absL (x ^^^ sgn w) = absL x := by
  unfold absL sgn
  apply BitVec.eq_of_getLsbD_eq
  intro j hj
  simp only [BitVec.getLsbD_and, BitVec.getLsbD_xor, BitVec.getLsbD_ofNat, Nat.testBit_two_pow, BitVec.getLsbD_ushiftRight,
    BitVec.getLsbD_allOnes]
  by_cases e : w - 1 = j
  · have : ¬ (1 + j < w) := by omega
    simp [this]
  · simp [e]

theorem isNaN_absL {F : Fmt} {w : Nat} (h : FmtW F w) (x : BitVec w) : isNaN F (absL x) = isNaN F x := by
  unfold isNaN; rw [(absL_spec h x).2]

theorem fval_absL {F : Fmt} {w : Nat} (h : FmtW F w) (x : BitVec w) : fval F (absL x) = ((fval F x).natAbs : Int) := by
  rw [natAbs_fval]
  unfold fval
  rw [(absL_spec h x).1, (absL_spec h x).2]; rfl

theorem trigSinL_flip {F : Fmt} {w : Nat} (one two x q s c : BitVec w) :
    trigSinL F (sgn w) one two (x ^^^ sgn w) q s c = trigSinL F (sgn w) one two x q s c ^^^ sgn w := by
  unfold trigSinL
  generalize (if (fEq F q 0#w || fEq F q two) = true then s else c) = t
  generalize fSub F one q = d
  apply BitVec.eq_of_getLsbD_eq
  intro j hj
  simp only [BitVec.getLsbD_and, BitVec.getLsbD_xor]
  cases x.getLsbD j <;> cases (sgn w).getLsbD j <;> cases t.getLsbD j <;> cases d.getLsbD j <;> rfl

/-! ### NaN -/

section
variable {x : BitVec 64} {y : BitVec 32}

theorem horner_nan {F : Fmt} {w : Nat} {x : BitVec w} (hx : isNaN F x = true) (y c : BitVec w) (cs : List (BitVec w)) :
    isNaN F (horner (sArith F w) x y (c :: cs)) = true := by
  unfold horner
  have : ∀ (cs : List (BitVec w)) (a : BitVec w), isNaN F a = true →
      isNaN F (cs.foldl (fun y c => (sArith F w).add ((sArith F w).mul y x) ((sArith F w).c c)) a) = true := by
    intro cs
    induction cs with
    | nil => exact fun a h => h
    | cons c cs ih => exact fun a h => ih _ (fAdd_nan (.inl (fMul_nan (.inr hx))))
  exact this cs _ (fAdd_nan (.inl (fMul_nan (.inr hx))))

theorem sinSeriesD_nan (hx : isNaN f64 x = true) : isNaN f64 (sinSeriesD (sArith f64 64) x) = true := by
  unfold sinSeriesD
  simp only
  generalize horner _ _ _ _ = u
  simp only [sArith]
  exact fAdd_nan (.inr hx)
theorem sinSeriesF_nan (hx : isNaN f32 y = true) : isNaN f32 (sinSeriesF (sArith f32 32) y) = true := by
  unfold sinSeriesF
  simp only
  generalize horner _ _ _ _ = u
  simp only [sArith]
  exact fAdd_nan (.inr hx)
theorem cosSeriesD_nan (hx : isNaN f64 x = true) : isNaN f64 (cosSeriesD (sArith f64 64) x) = true := by
  unfold cosSeriesD
  simp only
  generalize horner _ _ _ _ = u
  simp only [sArith]
  generalize fSub f64 (fMul f64 u _) _ = z
  exact fAdd_nan (.inl (fMul_nan (.inr (fMul_nan (.inr hx)))))
theorem cosSeriesF_nan (hx : isNaN f32 y = true) : isNaN f32 (cosSeriesF (sArith f32 32) y) = true := by
  unfold cosSeriesF
  simp only
  generalize horner _ _ _ _ = z
  simp only [sArith]
  exact fAdd_nan (.inl (isNaN_fSub_left (fMul_nan (.inr (fMul_nan (.inl (fMul_nan (.inl hx)))))) _))

theorem endD_nan {f : BitVec 64 × BitVec 64} (hf : isNaN f64 f.1 = true) :
    isNaN f64 (sinEndD x f) = true ∧ isNaN f64 (cosEndD f) = true := by
  have e : 0x8000000000000000#64 = sgn 64 := rfl
  unfold sinEndD cosEndD trigSinL trigCosL
  rw [e, isNaN_sgn .double, isNaN_sgn .double]
  constructor
  · split
    · exact sinSeriesD_nan hf
    · exact cosSeriesD_nan hf
  · split
    · exact cosSeriesD_nan hf
    · exact sinSeriesD_nan hf

theorem endF_nan {f : BitVec 32 × BitVec 32} (hf : isNaN f32 f.1 = true) :
    isNaN f32 (sinEndF y f) = true ∧ isNaN f32 (cosEndF f) = true := by
  have e : 0x80000000#32 = sgn 32 := rfl
  unfold sinEndF cosEndF trigSinL trigCosL
  rw [e, isNaN_sgn .single, isNaN_sgn .single]
  constructor
  · split
    · exact sinSeriesF_nan hf
    · exact cosSeriesF_nan hf
  · split
    · exact cosSeriesF_nan hf
    · exact sinSeriesF_nan hf

theorem foldDL_nan (rnd : BitVec 64 → BitVec 64) (m : DMode) (hx : isNaN f64 x = true) :
    isNaN f64 (foldDL rnd m x).1 = true := by
  cases m with
  | near => exact hx
  | mid => exact isNaN_fSub_left (isNaN_fSub_left (isNaN_fSub_left hx _) _) _
  | far => exact isNaN_fSub_left (isNaN_fSub_left (isNaN_fSub_left hx _) _) _
  | huge => exact isNaN_fSub_left (isNaN_fSub_left (isNaN_fSub_left (isNaN_fSub_left (isNaN_fSub_left
      (isNaN_fSub_left (isNaN_fSub_left hx _) _) _) _) _) _) _

theorem foldFL_nan (rnd : BitVec 32 → BitVec 32) (rndD : BitVec 64 → BitVec 64) (m : FMode) (hy : isNaN f32 y = true) :
    isNaN f32 (foldFL rnd rndD m y).1 = true := by
  cases m with
  | near => exact hy
  | mid => exact isNaN_fSub_left (isNaN_fSub_left hy _) _
  | far =>
    show isNaN f32 (cvtF2F f64 f32 32 (fSub f64 (cvtF2F f32 f64 64 y) _)) = true
    rw [(cvtF2F_spec (F := f64) (G := f32) (v := 32) .single _).2.1]
    apply isNaN_fSub_left
    rw [(cvtF2F_spec (F := f32) (G := f64) (v := 64) .double _).2.1]
    exact hy
end

end Vc.Lemma
