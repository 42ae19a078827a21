import Verif.Lemma.TrigFoldD

/-!
Folding the argument of `sin` and `cos` of double: the way for the largest numbers, and all ways together.
-/

namespace Vc.Lemma
open Vc.Model Vc.Spec

/-- Integers of at most 27 bits have no low bits. -/
theorem int_mask {y : BitVec 64} {Y : Nat} (hv : fval f64 y = Y * 2 ^ oneExp f64) (hY : Y < 2 ^ 27) :
    y &&& (BitVec.allOnes 64 <<< 26) = y := by
  have hm : magVal f64 (fmag f64 y) = Y * 2 ^ oneExp f64 := by
    have : (fval f64 y).natAbs = Y * 2 ^ oneExp f64 := by
      rw [hv, Int.natAbs_mul, Int.natAbs_pow]; rfl
    rw [← this, natAbs_fval]
  have hlow : fmag f64 y % 2 ^ 26 = 0 := by
    unfold magVal at hm
    have e52 : (2 : Nat) ^ f64.m = 2 ^ 52 := rfl
    have eo : oneExp f64 = 1074 := rfl
    rw [e52, eo] at hm
    split at hm
    · rename_i h0
      have h1 : fmag f64 y < 2 ^ 52 := by
        rcases Nat.lt_or_ge (fmag f64 y) (2 ^ 52) with h' | h'
        · exact h'
        · have := Nat.div_pos h' (by decide); omega
      rcases Nat.eq_zero_or_pos Y with h2 | h2
      · rw [hm, h2, Nat.zero_mul, Nat.zero_mod]
      · exfalso
        have h3 : 1 * 2 ^ 1074 ≤ Y * 2 ^ 1074 := Nat.mul_le_mul_right _ h2
        have h4 : (2 : Nat) ^ 52 ≤ 2 ^ 1074 := Nat.pow_le_pow_right (by decide) (by decide)
        rw [Nat.one_mul] at h3
        exact absurd (lt_of_le_of_lt (le_trans h4 h3) (hm ▸ h1)) (lt_irrefl _)
    · rename_i h0
      generalize hE : fmag f64 y / 2 ^ 52 = E at *
      generalize hM : fmag f64 y % 2 ^ 52 = M at *
      have hk : fmag f64 y = 2 ^ 52 * E + M := by rw [← hE, ← hM]; exact (Nat.div_add_mod _ _).symm
      have hlt : 2 ^ (52 + (E - 1)) < 2 ^ (27 + 1074) := by
        obtain ⟨B, hB⟩ : ∃ B : Nat, B = 2 ^ 1074 := ⟨_, rfl⟩
        rw [Nat.pow_add 2 52, Nat.pow_add 2 27, ← hB]
        rw [← hB] at hm
        have hBp : 0 < B := by rw [hB]; exact pow_pos2 _
        have h1 : 2 ^ 52 * 2 ^ (E - 1) ≤ (2 ^ 52 + M) * 2 ^ (E - 1) := Nat.mul_le_mul_right _ (by omega)
        rw [hm] at h1
        exact Nat.lt_of_le_of_lt h1 (Nat.mul_lt_mul_of_pos_right hY hBp)
      have hE2 := (Nat.pow_lt_pow_iff_right (by decide : 1 < 2)).mp hlt
      have e : 2 ^ 52 + M = Y * 2 ^ (1074 - (E - 1)) := by
        have : (2 : Nat) ^ 1074 = 2 ^ (1074 - (E - 1)) * 2 ^ (E - 1) := by rw [← Nat.pow_add]; congr 1; omega
        rw [this, ← Nat.mul_assoc] at hm
        exact Nat.eq_of_mul_eq_mul_right (pow_pos2 _) hm
      have hd : 2 ^ 26 ∣ 2 ^ 52 + M := by rw [e]; exact Dvd.dvd.mul_left (pow_dvd_pow _ (by omega)) _
      rw [hk]
      omega
  have hy : y.toNat % 2 ^ 26 = 0 := by
    unfold fmag at hlow
    rw [show f64.e + f64.m = 63 from rfl, Nat.mod_mod_of_dvd _ (by decide)] at hlow
    exact hlow
  apply BitVec.eq_of_getLsbD_eq
  intro j hj
  rw [BitVec.getLsbD_and, BitVec.getLsbD_shiftLeft, BitVec.getLsbD_allOnes]
  by_cases hc : j < 26
  · have : y.getLsbD j = false := by
      rw [← BitVec.testBit_toNat]
      have h2 := Nat.testBit_mod_two_pow y.toNat 26 j
      rw [hy] at h2
      simp only [hc, decide_true, Bool.true_and, Nat.zero_testBit] at h2
      exact h2.symm
    rw [this, Bool.false_and]
  · have : j - 26 < 64 := by omega
    simp [hj, hc, this]

theorem max_zero {a b : BitVec 64} (ha : isFinite f64 a = true) (hb : isFinite f64 b = true) (h : 0 ≤ rval f64 a) (h0 : rval f64 b = 0) :
    isFinite f64 (fMax f64 a b) = true ∧ rval f64 (fMax f64 a b) = rval f64 a := by
  unfold fMax
  rw [fLt_real hb ha]
  split
  · exact ⟨ha, rfl⟩
  · rename_i hc
    refine ⟨hb, ?_⟩
    rw [decide_eq_true_eq, h0] at hc
    rw [h0]; linarith

theorem min_zero {a b : BitVec 64} (ha : isFinite f64 a = true) (hb : isFinite f64 b = true) (h : 0 ≤ rval f64 a) (h0 : rval f64 b = 0) :
    isFinite f64 (fMin f64 a b) = true ∧ rval f64 (fMin f64 a b) = 0 := by
  unfold fMin
  rw [fLt_real ha hb, if_neg (by rw [decide_eq_true_eq, h0]; linarith)]
  exact ⟨hb, h0⟩

section
variable {v y : BitVec 64} {Y : Nat}

/-- The sum if `y` has no low bits: what is subtracted. -/
theorem sum_steps (hy : isFinite f64 y = true)
    {t1 : BitVec 64} (ht1 : fSub f64 v (fMul f64 y 0x3ff921fb50000000#64) = t1)
    {m2 m3 m4 : BitVec 64} (hm2 : fMul f64 y 0x3e5110b460000000#64 = m2) (hm3 : fMul f64 y 0x3c91a62630000000#64 = m3)
    (hm4 : fMul f64 y 0x3ae8a2e03707344a#64 = m4) (f2 : isFinite f64 m2 = true) (f3 : isFinite f64 m3 = true)
    (f4 : isFinite f64 m4 = true) (p2 : 0 ≤ rval f64 m2) (p3 : 0 ≤ rval f64 m3) (p4 : 0 ≤ rval f64 m4) {ε : ℝ}
    (hs2 : |rval f64 t1 - rval f64 m2| ≤ 1 → ∀ r : BitVec 64, rval f64 r = rval f64 m2 → isFinite f64 r = true →
      isFinite f64 (fSub f64 t1 r) = true ∧ |rval f64 (fSub f64 t1 r) - (rval f64 t1 - rval f64 m2)| ≤ ε)
    (b2 : |rval f64 t1 - rval f64 m2| ≤ 9 / 10) (b3 : rval f64 m3 ≤ 1 / 100) (b4 : rval f64 m4 ≤ 1 / 100) (hε : ε ≤ 1 / 100) :
    ApproxAbs f64 (rval f64 t1 - rval f64 m2 - rval f64 m3 - rval f64 m4) (ε + 1 / 2 ^ 53)
      (foldSumD (sArith f64 64) (fMin f64) (fMax f64) v y y) := by
  have z : isFinite f64 (fSub f64 y y) = true ∧ rval f64 (fSub f64 y y) = 0 :=
    fSub_repr .double hy hy (repr_zero .double) (by ring)
  have zp : ∀ {c : BitVec 64}, isFinite f64 c = true → isFinite f64 (fMul f64 (fSub f64 y y) c) = true ∧
      rval f64 (fMul f64 (fSub f64 y y) c) = 0 := fun hc => fMul_zero' .double z.1 hc z.2
  have z1 := zp tdP1.1
  have z2 := zp tdP2.1
  have z3 := zp tdP3.1
  simp only [foldSumD, sArith, id]
  rw [ht1, hm2, hm3, hm4]
  have x2 := max_zero f2 z1.1 p2 z1.2
  have n2 := min_zero f2 z1.1 p2 z1.2
  have x3 := max_zero f3 z2.1 p3 z2.2
  have n3 := min_zero f3 z2.1 p3 z2.2
  have x4 := max_zero f4 z3.1 p4 z3.2
  have n4 := min_zero f4 z3.1 p4 z3.2
  have s2 := hs2 (le_trans b2 (by norm_num)) _ x2.2 x2.1
  generalize fMax f64 m2 (fMul f64 (fSub f64 y y) 0x3ff921fb50000000#64) = X2 at *
  generalize fMin f64 m2 (fMul f64 (fSub f64 y y) 0x3ff921fb50000000#64) = N2 at *
  generalize fMax f64 m3 (fMul f64 (fSub f64 y y) 0x3e5110b460000000#64) = X3 at *
  generalize fMin f64 m3 (fMul f64 (fSub f64 y y) 0x3e5110b460000000#64) = N3 at *
  generalize fMax f64 m4 (fMul f64 (fSub f64 y y) 0x3c91a62630000000#64) = X4 at *
  generalize fMin f64 m4 (fMul f64 (fSub f64 y y) 0x3c91a62630000000#64) = N4 at *
  have u2 := fSub_zero' .double s2.1 n2.1 n2.2
  have s2e := s2.2
  rw [← u2.2] at s2e
  generalize fSub f64 (fSub f64 t1 X2) N2 = T2 at *
  rw [abs_le] at s2e b2
  have s3 := sub64 u2.1 x3.1 (by
    rw [x3.2, abs_le]
    norm_num at s2e b2 b3 hε ⊢
    constructor <;> linarith [s2e.1, s2e.2, b2.1, b2.2])
  have u3 := fSub_zero' .double s3.1 n3.1 n3.2
  have s3e := s3.2
  rw [← u3.2, x3.2] at s3e
  generalize fSub f64 (fSub f64 T2 X3) N3 = T3 at *
  rw [abs_le] at s3e
  have s4 := sub64 u3.1 x4.1 (by
    rw [x4.2, abs_le]
    norm_num at s2e b2 b3 b4 hε s3e ⊢
    constructor <;> linarith [s2e.1, s2e.2, b2.1, b2.2, s3e.1, s3e.2])
  have u4 := fSub_zero' .double s4.1 n4.1 n4.2
  have s4e := s4.2
  rw [← u4.2, x4.2] at s4e
  generalize fSub f64 (fSub f64 T3 X4) N4 = T4 at *
  rw [abs_le] at s4e
  refine ⟨u4.1, ?_⟩
  rw [abs_le]
  norm_num at s2e s3e s4e ⊢
  constructor <;> linarith [s2e.1, s2e.2, s3e.1, s3e.2, s4e.1, s4e.2]

theorem huge_ok (hf : isFinite f64 v = true) (hy : isFinite f64 y = true) (hyv : rval f64 y = Y) (hY : 1 ≤ Y)
    (hle : (Y : ℝ) ≤ 90000000) (hred : |rval f64 v - Y * (Real.pi / 2)| ≤ 78541 / 100000) :
    ApproxAbs f64 (rval f64 v - Y * (Real.pi / 2)) (1 / 2 ^ 53 + 1 / 2 ^ 60)
      (foldSumD (sArith f64 64) (fMin f64) (fMax f64) v y y) := by
  have a1 := pi_lo
  have a2 := pi_hi
  have hY1 : (1 : ℝ) ≤ Y := by exact_mod_cast hY
  have s1 := first_step hf hy hyv hY hle hred (g := -24) (by decide) (by decide) (by norm_num; linarith) tdP1.1
    ⟨26353589, by rw [tdP1.2]; norm_num⟩ (by rw [tdP1.2, abs_le]; norm_num at a1 a2 ⊢; constructor <;> linarith)
  have g2 : OnGrid (-49) (rval f64 0x3e5110b460000000#64) := ⟨8947107, by rw [tdP2.2]; norm_num⟩
  have m2 := fMul_int .double hy tdP2.1 hyv g2 (by
    rw [show (2 : ℝ) ^ ((-49 : Int) + (f64.m + 1 : Nat)) = 2 ^ 4 by norm_num [f64], tdP2.2, abs_of_nonneg (by positivity)]
    norm_num; linarith) (by decide) (by decide)
  have m3 := mulTiny hy tdP3.1 (by
    rw [hyv, tdP3.2, abs_of_nonneg (by positivity)]
    norm_num; linarith)
  have m4 := mulTiny hy tdP4.1 (by
    rw [hyv, tdP4.2, abs_of_nonneg (by positivity)]
    norm_num; linarith)
  have q3 : 0 ≤ rval f64 (fMul f64 y 0x3c91a62630000000#64) := by
    have := m3.2
    rw [hyv, tdP3.2, abs_le] at this
    norm_num at this ⊢
    linarith [this.1]
  have q4 : 0 ≤ rval f64 (fMul f64 y 0x3ae8a2e03707344a#64) := by
    have := (fMul_err .double (k := -53) (by decide) hy tdP4.1 (by
      rw [show (2 : ℝ) ^ (-53 : Int) = 1 / 2 ^ 53 by norm_num, hyv, tdP4.2, abs_of_nonneg (by positivity)]
      norm_num; linarith)).2
    rw [hyv, tdP4.2, abs_le, show (2 : ℝ) ^ ((-53 : Int) - (f64.m : Nat) - 2) = 1 / 2 ^ 107 by norm_num [f64]] at this
    norm_num at this ⊢
    linarith [this.1]
  rw [tdP1.2] at s1
  have hb2 := split_err (c := 26353589 / 16777216 + 8947107 / 562949953421312) (e := 1 / 10 ^ 14) (by linarith) hle (by
    rw [abs_le]; norm_num at a1 a2 ⊢; constructor <;> linarith)
  have hb4 := split_err (c := 26353589 / 16777216 + 8947107 / 562949953421312 + 18506339 / 302231454903657293676544 + 3467241660324389 / 5444517870735015415413993718908291383296) (e := 1 / 10 ^ 38) (by linarith) hle (by
    rw [abs_le]; norm_num at a1 a2 ⊢; constructor <;> linarith)
  have m3e := m3.2
  have m4e := m4.2
  rw [hyv, tdP3.2, abs_le] at m3e
  rw [hyv, tdP4.2, abs_le] at m4e
  rw [abs_le] at hred hb2 hb4
  have m2v := m2.2
  rw [tdP2.2] at m2v
  have res := sum_steps (ε := 0) hy rfl rfl rfl rfl m2.1 m3.1 m4.1 (by rw [m2v]; positivity) q3 q4
    (fun hb r hr hrf => by
      have := fSub_grid .double s1.1 hrf s1.2.2 (by rw [hr, m2.2]; exact (g2.natMul Y).finer (by decide)) (by
        rw [show (2 : ℝ) ^ ((-53 : Int) + (f64.m + 1 : Nat)) = 1 by norm_num [f64], hr]; exact hb) (by decide) (by decide)
      refine ⟨this.1, ?_⟩
      rw [this.2, hr, sub_self, abs_zero]) (by
      rw [s1.2.1, m2v, abs_le]
      norm_num at hred hb2 ⊢
      constructor <;> linarith [hred.1, hred.2, hb2.1, hb2.2]) (by
      norm_num at m3e ⊢
      linarith [m3e.2]) (by
      norm_num at m4e ⊢
      linarith [m4e.2]) (by norm_num)
  refine ⟨res.1, ?_⟩
  have e := res.2
  rw [s1.2.1, m2v] at e
  rw [abs_le] at e ⊢
  norm_num at e m3e m4e hb4 ⊢
  constructor <;> linarith [e.1, e.2, m3e.1, m3e.2, m4e.1, m4e.2, hb4.1, hb4.2]

theorem huge_zero (hf : isFinite f64 v = true) (hy : isFinite f64 y = true) (h0 : rval f64 y = 0) (hs : |rval f64 v| ≤ 9 / 10) :
    ApproxAbs f64 (rval f64 v) (1 / 2 ^ 53) (foldSumD (sArith f64 64) (fMin f64) (fMax f64) v y y) := by
  have m1 := fMul_zero' .double hy tdP1.1 h0
  have m2 := fMul_zero' .double hy tdP2.1 h0
  have m3 := fMul_zero' .double hy tdP3.1 h0
  have m4 := fMul_zero' .double hy tdP4.1 h0
  have s1 := fSub_zero' .double hf m1.1 m1.2
  have res := sum_steps (v := v) (ε := 0) hy rfl rfl rfl rfl m2.1 m3.1 m4.1 (by rw [m2.2]) (by rw [m3.2]) (by rw [m4.2])
    (fun _ r hr hrf => by
      have := fSub_zero' .double s1.1 hrf (by rw [hr, m2.2])
      refine ⟨this.1, ?_⟩
      rw [this.2, m2.2, sub_zero, sub_self, abs_zero]) (by rw [m2.2, s1.2, sub_zero]; exact hs)
    (by rw [m3.2]; norm_num) (by rw [m4.2]; norm_num) (by norm_num)
  refine ⟨res.1, ?_⟩
  have e := res.2
  rw [s1.2, m2.2, m3.2, m4.2, sub_zero, sub_zero, sub_zero, zero_add] at e
  exact e

theorem tdMid : isFinite f64 midD = true ∧ rval f64 midD ≤ 806 := by
  have h : isFinite f64 midD = true ∧ fval f64 midD ≤ 806 * ((2 ^ 1074 : Nat) : Int) := by decide +kernel
  refine ⟨h.1, ?_⟩
  have h2 : ((fval f64 midD : Int) : ℝ) ≤ 806 * ((2 ^ 1074 : Nat) : ℝ) := by exact_mod_cast h.2
  unfold rval
  rw [div_le_iff₀ (by positivity)]
  refine le_trans h2 ?_
  rw [Nat.cast_pow, Nat.cast_ofNat]
  exact le_refl _

/-- Every way to fold a double of at most `2^27` gives the quadrant and, up to the rounding of one subtraction, the rest. -/
theorem foldD_ok (I : Isa) {m : DMode} (hf : isFinite f64 v = true) (h0 : 0 ≤ rval f64 v) (h1 : rval f64 v ≤ 2 ^ 27)
    (hm : ModeAtD m v) :
    Folded f64 (rval f64 v) (1 / 2 ^ 53 + 1 / 2 ^ 60) (foldDL (roundDSse I) m v).1 (foldDL (roundDSse I) m v).2 := by
  have key : ∀ {t : BitVec 64} {Y : Nat}, |rval f64 v - Y * (Real.pi / 2)| ≤ 78541 / 100000 →
      ApproxAbs f64 (rval f64 v - Y * (Real.pi / 2)) (1 / 2 ^ 53 + 1 / 2 ^ 60) t →
      Folded f64 (rval f64 v) (1 / 2 ^ 53 + 1 / 2 ^ 60) t (cvtI2F f64 64 (BitVec.ofNat 32 (Y % 4))) := by
    intro t Y a b
    refine ⟨b.1, ?_, Y, rfl, b.2⟩
    have := b.2
    rw [abs_le] at a this ⊢
    norm_num at a this ⊢
    constructor <;> linarith [a.1, a.2, this.1, this.2]
  have ⟨hy, Y, hyv, hyr, hY, hred⟩ := foldYD_spec I hf h0 h1
  have hYn : Y ≤ 90000000 := by exact_mod_cast hY
  have hq := quad_spec hy hyv (by omega)
  cases m with
  | near =>
    have := key (t := v) (Y := 0) (by
      have : fLt f64 v 0x3fe921fb54442d18#64 = true := hm.1 rfl
      rw [fLt_real hf tdPi4.1, decide_eq_true_eq, tdPi4.2] at this
      rw [Nat.cast_zero, zero_mul, sub_zero, abs_of_nonneg h0]
      norm_num at this ⊢
      linarith) ⟨hf, by rw [Nat.cast_zero, zero_mul, sub_zero, sub_self, abs_zero]; positivity⟩
    have e : cvtI2F f64 64 (BitVec.ofNat 32 (0 % 4)) = 0#64 := by decide +kernel
    rw [e] at this
    exact this
  | mid =>
    show Folded f64 _ _ _ (quadL f64 64 (foldYD (roundDSse I) v))
    rw [hq]
    refine key hred ?_
    show ApproxAbs f64 _ _ (foldStepsD _ _ _ _ v (foldYD (roundDSse I) v))
    rcases Nat.eq_zero_or_pos Y with hz | hz
    · subst hz
      have := steps_zero hf hy (by rw [hyr, Nat.cast_zero]) tdM1.1 tdM2.1 tdM3.1
      refine ⟨this.1, ?_⟩
      rw [this.2, Nat.cast_zero, zero_mul, sub_zero, sub_self, abs_zero]; positivity
    · refine mid_ok hf hy hyr hz ?_ hred
      have a := hm.2 rfl
      rw [fLt_real hf tdMid.1, decide_eq_true_eq] at a
      have a1 := pi_lo
      rw [abs_le] at hred
      have b := hred.1
      have c := tdMid.2
      have hYp : (0 : ℝ) ≤ Y := Nat.cast_nonneg _
      have : (Y : ℝ) * (3 / 2) ≤ Y * (Real.pi / 2) := mul_le_mul_of_nonneg_left (by norm_num at a1 ⊢; linarith) hYp
      linarith
  | far =>
    show Folded f64 _ _ _ (quadL f64 64 (foldYD (roundDSse I) v))
    rw [hq]
    refine key hred ?_
    show ApproxAbs f64 _ _ (foldStepsD _ _ _ _ v (foldYD (roundDSse I) v))
    rcases Nat.eq_zero_or_pos Y with hz | hz
    · subst hz
      have := steps_zero hf hy (by rw [hyr, Nat.cast_zero]) tdF1.1 tdF2.1 tdF3.1
      refine ⟨this.1, ?_⟩
      rw [this.2, Nat.cast_zero, zero_mul, sub_zero, sub_self, abs_zero]; positivity
    · exact far_ok hf hy hyr hz hY hred
  | huge =>
    show Folded f64 _ _ _ (quadL f64 64 (foldYD (roundDSse I) v))
    rw [hq]
    refine key hred ?_
    show ApproxAbs f64 _ _ (foldSumD _ _ _ v (foldYD (roundDSse I) v) _)
    rw [int_mask hyv (lt_of_le_of_lt hYn (by decide))]
    rcases Nat.eq_zero_or_pos Y with hz | hz
    · subst hz
      rw [Nat.cast_zero, zero_mul, sub_zero] at hred ⊢
      have := huge_zero hf hy (by rw [hyr, Nat.cast_zero]) (le_trans hred (by norm_num))
      exact ⟨this.1, le_trans this.2 (by norm_num)⟩
    · exact huge_ok hf hy hyr hz hY hred

end

end Vc.Lemma
