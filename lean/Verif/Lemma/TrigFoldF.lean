import Verif.Lemma.TrigFoldD2
import Verif.Lemma.FloatCvt2

/-!
Folding the argument of `sin` and `cos` of float.
-/

namespace Vc.Lemma
open Vc.Model Vc.Spec

theorem tfPi4 : isFinite f32 0x3f490fdb#32 = true ∧ rval f32 0x3f490fdb#32 = 13176795 / 16777216 := by
  refine ⟨by decide, rval_lit false 126 4788187 (-24) (by decide) (by decide) (by decide) (by decide) (by decide) ?_⟩
  norm_num [f32]

theorem tf2Pi : isFinite f32 0x3f22f983#32 = true ∧ rval f32 0x3f22f983#32 = 10680707 / 16777216 := by
  refine ⟨by decide, rval_lit false 126 2292099 (-24) (by decide) (by decide) (by decide) (by decide) (by decide) ?_⟩
  norm_num [f32]

theorem tfM1 : isFinite f32 0x3fc90fe0#32 = true ∧ rval f32 0x3fc90fe0#32 = 411775 / 262144 := by
  refine ⟨by decide, rval_lit false 127 4788192 (-23) (by decide) (by decide) (by decide) (by decide) (by decide) ?_⟩
  norm_num [f32]

theorem tfM2 : isFinite f32 0xb52bbbd3#32 = true ∧ rval f32 0xb52bbbd3#32 = -(11254739 / 17592186044416) := by
  refine ⟨by decide, rval_lit true 106 2866131 (-44) (by decide) (by decide) (by decide) (by decide) (by decide) ?_⟩
  norm_num [f32]


/-- Rounding to another format. -/
theorem cvtF2F_err {F G : Fmt} {w v : Nat} (hG : FmtW G v) {k : Int} (hk : KRange G k) {x : BitVec w} (hx : isFinite F x = true)
    (hv : |rval F x| ≤ 2 ^ k) :
    isFinite G (cvtF2F F G v x) = true ∧ |rval G (cvtF2F F G v x) - rval F x| ≤ 2 ^ (k - G.m - 2) := by
  obtain ⟨hn, hi⟩ := isFinite_not hx
  have hp := one_pos F
  have hq := one_pos G
  have e : ((magVal F (fmag F x) * 2 ^ oneExp G : Nat) : ℝ) / ((2 ^ oneExp F : Nat) : ℝ) / 2 ^ oneExp G =
      (magVal F (fmag F x) : ℝ) / 2 ^ oneExp F := by
    push_cast
    field_simp
  have hs : rval F x = (if fneg F x then -1 else 1) * ((magVal F (fmag F x) : ℝ) / 2 ^ oneExp F) := by
    rw [rval_sign, natAbs_fval, mul_div_assoc]
  have := mk_err hG (fneg F x) (magVal F (fmag F x) * 2 ^ oneExp G) (den := 2 ^ oneExp F) (pow_pos2 _) hk.1 hk.2 (by
    rw [e]
    rw [hs, sign_abs, abs_of_nonneg (by positivity)] at hv
    exact hv)
  rw [e, ← hs] at this
  unfold cvtF2F
  rw [if_neg (by rw [hn]; decide), if_neg (by rw [hi]; decide)]
  exact this

/-- Float to double keeps the value. -/
theorem cvtF2F_rval {x : BitVec 32} (hx : isFinite f32 x = true) :
    isFinite f64 (cvtF2F f32 f64 64 x) = true ∧ rval f64 (cvtF2F f32 f64 64 x) = rval f32 x := by
  obtain ⟨h1, h2⟩ := cvtF2F_exact hx
  refine ⟨h1, ?_⟩
  unfold rval
  rw [div_eq_div_iff (ne_of_gt (one_pos _)) (ne_of_gt (one_pos _))]
  exact_mod_cast h2

theorem sub32 {a b : BitVec 32} (ha : isFinite f32 a = true) (hb : isFinite f32 b = true) (h : |rval f32 a - rval f32 b| ≤ 1) :
    isFinite f32 (fSub f32 a b) = true ∧ |rval f32 (fSub f32 a b) - (rval f32 a - rval f32 b)| ≤ 1 / 2 ^ 25 := by
  have := fSub_err .single (k := 0) (by decide) ha hb (by simpa using h)
  rw [show (2 : ℝ) ^ ((0 : Int) - (f32.m : Nat) - 2) = 1 / 2 ^ 25 by norm_num [f32]] at this
  exact this

theorem roundFSse_eq (I : Isa) : roundFSse I = roundAny f32 32 I.sse41 := rfl

theorem tfMid : isFinite f32 midF = true ∧ rval f32 midF ≤ 26 := by
  have h : isFinite f32 midF = true ∧ fval f32 midF ≤ 26 * ((2 ^ 149 : Nat) : Int) := by decide +kernel
  refine ⟨h.1, ?_⟩
  have h2 : ((fval f32 midF : Int) : ℝ) ≤ 26 * ((2 ^ 149 : Nat) : ℝ) := by exact_mod_cast h.2
  unfold rval
  rw [div_le_iff₀ (by positivity)]
  refine le_trans h2 ?_
  rw [Nat.cast_pow, Nat.cast_ofNat]
  exact le_refl _

section
variable {v : BitVec 32}

/-- The number of quarter turns, with float arithmetic. -/
theorem foldYF_spec (I : Isa) (hf : isFinite f32 v = true) (h0 : 0 ≤ rval f32 v) (h1 : rval f32 v ≤ 26) :
    isFinite f32 (foldYF (roundFSse I) v) = true ∧ ∃ Y : Nat, fval f32 (foldYF (roundFSse I) v) = Y * 2 ^ oneExp f32 ∧
      rval f32 (foldYF (roundFSse I) v) = Y ∧ (Y : ℝ) ≤ 18 ∧ |rval f32 v - Y * (Real.pi / 2)| ≤ 78541 / 100000 := by
  have ⟨c1, c2⟩ := tf2Pi
  have hd := fMul_err .single (k := 5) (by decide) hf c1 (by
    rw [c2, abs_of_nonneg (by positivity)]; norm_num; linarith)
  rw [c2, show (2 : ℝ) ^ ((5 : Int) - (f32.m : Nat) - 2) = 1 / 2 ^ 20 by norm_num [f32]] at hd
  obtain ⟨d1, d2⟩ := hd
  rw [abs_le] at d2
  have d3 := d2.1
  have d4 := d2.2
  norm_num at d3 d4
  obtain ⟨r1, Y, r2, r3⟩ := round_near .single I.sse41 d1 (by linarith) (by norm_num; linarith)
  unfold foldYF
  rw [roundFSse_eq]
  rw [abs_le] at r3
  have hYle : (Y : ℝ) ≤ 18 := by norm_num at r3; linarith [r3.1]
  refine ⟨r1, Y, r2, ?_, hYle, ?_⟩
  · have := rval_int (n := (Y : Int)) r2
    rw [this]; simp
  · have a1 := pi_lo
    have a2 := pi_hi
    have hY0 : (0 : ℝ) ≤ Y := by positivity
    obtain ⟨P, hP⟩ : ∃ P, P = Real.pi / 2 := ⟨_, rfl⟩
    rw [← hP] at a1 a2 ⊢
    norm_num at a1 a2 r3
    generalize rval f32 v = V at *
    generalize rval f32 (fMul f32 v 0x3f22f983#32) = z at *
    have e1 : V * (10680707 / 16777216 * P - 1) ≤ 1 / 10 ^ 6 := by
      have : 10680707 / 16777216 * P - 1 ≤ 1 / 10 ^ 8 := by norm_num; linarith
      nlinarith
    have e2 : -(2 / 10 ^ 6) ≤ V * (10680707 / 16777216 * P - 1) := by
      have : -(6 / 10 ^ 8) ≤ 10680707 / 16777216 * P - 1 := by norm_num; linarith
      nlinarith
    have g1 : (Y - V * 10680707 / 16777216) * P ≤ (1 / 2 + 1 / 1000000) * P :=
      mul_le_mul_of_nonneg_right (by norm_num; linarith [r3.1]) (by linarith)
    have g2 : -((1 / 2 + 1 / 1000000) * P) ≤ (Y - V * 10680707 / 16777216) * P := by
      rw [neg_mul_eq_neg_mul]
      exact mul_le_mul_of_nonneg_right (by norm_num; linarith [r3.2]) (by linarith)
    have hV : V - Y * P = -((Y - V * 10680707 / 16777216) * P) - V * (10680707 / 16777216 * P - 1) := by ring
    rw [hV, abs_le]
    norm_num at e1 e2 g1 g2 ⊢
    constructor <;> linarith

theorem steps_ok {y : BitVec 32} {Y : Nat} (hf : isFinite f32 v = true) (hy : isFinite f32 y = true) (hyv : rval f32 y = Y)
    (hle : (Y : ℝ) ≤ 18) (hred : |rval f32 v - Y * (Real.pi / 2)| ≤ 78541 / 100000) :
    ApproxAbs f32 (rval f32 v - Y * (Real.pi / 2)) (1 / 2 ^ 25 + 1 / 2 ^ 33) (foldStepsF (sArith f32 32) v y) := by
  simp only [foldStepsF, sArith, id]
  rcases Nat.eq_zero_or_pos Y with hz | hz
  · subst hz
    have h0 : rval f32 y = 0 := by rw [hyv, Nat.cast_zero]
    have m1 := fMul_zero' .single hy tfM1.1 h0
    have m2 := fMul_zero' .single hy tfM2.1 h0
    have s1 := fSub_zero' .single hf m1.1 m1.2
    have s2 := fSub_zero' .single s1.1 m2.1 m2.2
    refine ⟨s2.1, ?_⟩
    rw [s2.2, s1.2, Nat.cast_zero, zero_mul, sub_zero, sub_self, abs_zero]; positivity
  have a1 := pi_lo
  have a2 := pi_hi
  have hY1 : (1 : ℝ) ≤ Y := by exact_mod_cast hz
  rw [abs_le] at hred
  have hb : ∀ c e : ℝ, |c - Real.pi / 2| ≤ e → |Y * c - Y * (Real.pi / 2)| ≤ 18 * e := fun c e hc => by
    rw [← mul_sub, abs_mul, abs_of_nonneg (by linarith : (0 : ℝ) ≤ Y)]
    exact mul_le_mul hle hc (abs_nonneg _) (by norm_num)
  have b1 := hb (411775 / 262144) (1 / 10 ^ 6) (by rw [abs_le]; norm_num at a1 a2 ⊢; constructor <;> linarith)
  have b2 := hb (411775 / 262144 + -(11254739 / 17592186044416)) (1 / 10 ^ 14) (by rw [abs_le]; norm_num at a1 a2 ⊢; constructor <;> linarith)
  rw [abs_le] at b1 b2
  have g1 : OnGrid (-18) (rval f32 0x3fc90fe0#32) := ⟨411775, by rw [tfM1.2]; norm_num⟩
  have m1 := fMul_int .single hy tfM1.1 hyv g1 (by
    rw [show (2 : ℝ) ^ ((-18 : Int) + (f32.m + 1 : Nat)) = 2 ^ 6 by norm_num [f32], tfM1.2, abs_of_nonneg (by positivity)]
    norm_num; linarith) (by decide) (by decide)
  have hV : (1 / 2 : ℝ) ≤ rval f32 v := by
    norm_num at a1 a2 ⊢
    nlinarith [hred.1]
  have hgv : OnGrid (-24) (rval f32 v) := by
    have := grid_of_le (F := f32) (x := v) (j := -1) (by decide) (by norm_num at hV ⊢; exact hV)
    rwa [show (-1 : Int) - (f32.m : Nat) = -24 from rfl] at this
  have s1 := fSub_grid .single hf m1.1 hgv (by rw [m1.2]; exact (g1.natMul Y).finer (by decide)) (by
    rw [show (2 : ℝ) ^ ((-24 : Int) + (f32.m + 1 : Nat)) = 1 by norm_num [f32], m1.2, tfM1.2, abs_le]
    norm_num at hred b1 ⊢
    constructor <;> linarith [hred.1, hred.2, b1.1, b1.2]) (by decide) (by decide)
  have s1v := s1.2
  rw [m1.2, tfM1.2] at s1v
  have m2 := fMul_err .single (k := -16) (by decide) hy tfM2.1 (by
    rw [hyv, tfM2.2, abs_le]; norm_num; constructor <;> linarith)
  rw [hyv, tfM2.2, show (2 : ℝ) ^ ((-16 : Int) - (f32.m : Nat) - 2) = 1 / 2 ^ 41 by norm_num [f32], abs_le] at m2
  have s2 := sub32 s1.1 m2.1 (by
    rw [s1v, abs_le]
    norm_num at hred b2 m2 ⊢
    constructor <;> linarith [hred.1, hred.2, b2.1, b2.2, m2.2.1, m2.2.2])
  refine ⟨s2.1, ?_⟩
  have e := s2.2
  rw [s1v] at e
  rw [abs_le] at e ⊢
  norm_num at e m2 b2 ⊢
  constructor <;> linarith [e.1, e.2, m2.2.1, m2.2.2, b2.1, b2.2]

/-- With double arithmetic. -/
theorem wide_ok (I : Isa) (hf : isFinite f32 v = true) (h0 : 0 ≤ rval f32 v) (h1 : rval f32 v ≤ 527449) :
    Folded f32 (rval f32 v) (1 / 2 ^ 25 + 1 / 2 ^ 33) (foldWideF (roundDSse I) v).1 (foldWideF (roundDSse I) v).2 := by
  obtain ⟨xf, xv⟩ := cvtF2F_rval hf
  have ⟨c1, c2⟩ := td2Pi
  unfold foldWideF
  simp only
  generalize cvtF2F f32 f64 64 v = xd at *
  have hd := fMul_err .double (k := 19) (by decide) xf c1 (by
    rw [c2, xv, abs_of_nonneg (by positivity)]; norm_num; linarith)
  rw [c2, xv, show (2 : ℝ) ^ ((19 : Int) - (f64.m : Nat) - 2) = 1 / 2 ^ 35 by norm_num [f64]] at hd
  obtain ⟨d1, d2⟩ := hd
  rw [abs_le] at d2
  have d3 := d2.1
  have d4 := d2.2
  norm_num at d3 d4
  obtain ⟨r1, Y, r2, r3⟩ := round_near .double I.sse41 d1 (by linarith) (by norm_num; linarith)
  rw [← roundDSse_eq] at r1 r2
  rw [abs_le] at r3
  have hyv := rval_int (n := (Y : Int)) r2
  generalize roundDSse I (fMul f64 xd 0x3fe45f306dc9c883#64) = y at *
  rw [Int.cast_natCast] at hyv
  have hYle : (Y : ℝ) ≤ 400000 := by norm_num at r3; linarith [r3.1]
  have hYn : Y ≤ 400000 := by exact_mod_cast hYle
  have a1 := pi_lo
  have a2 := pi_hi
  have hY0 : (0 : ℝ) ≤ Y := by positivity
  have hred : |rval f32 v - Y * (Real.pi / 2)| ≤ 78541 / 100000 := by
    obtain ⟨P, hP⟩ : ∃ P, P = Real.pi / 2 := ⟨_, rfl⟩
    rw [← hP] at a1 a2 ⊢
    norm_num at a1 a2 r3
    generalize rval f32 v = V at *
    generalize rval f64 (fMul f64 xd 0x3fe45f306dc9c883#64) = z at *
    have e1 : V * (5734161139222659 / 9007199254740992 * P - 1) ≤ 1 / 10 ^ 6 := by
      have : 5734161139222659 / 9007199254740992 * P - 1 ≤ 1 / 10 ^ 15 := by norm_num; linarith
      nlinarith
    have e2 : -(2 / 10 ^ 6) ≤ V * (5734161139222659 / 9007199254740992 * P - 1) := by
      have : -(1 / 10 ^ 15) ≤ 5734161139222659 / 9007199254740992 * P - 1 := by norm_num; linarith
      nlinarith
    have g1 : (Y - V * 5734161139222659 / 9007199254740992) * P ≤ (1 / 2 + 1 / 1000000) * P :=
      mul_le_mul_of_nonneg_right (by norm_num; linarith [r3.1]) (by linarith)
    have g2 : -((1 / 2 + 1 / 1000000) * P) ≤ (Y - V * 5734161139222659 / 9007199254740992) * P := by
      rw [neg_mul_eq_neg_mul]
      exact mul_le_mul_of_nonneg_right (by norm_num; linarith [r3.2]) (by linarith)
    have hV : V - Y * P = -((Y - V * 5734161139222659 / 9007199254740992) * P) - V * (5734161139222659 / 9007199254740992 * P - 1) := by ring
    rw [hV, abs_le]
    norm_num at e1 e2 g1 g2 ⊢
    constructor <;> linarith
  have b1 := split_err (c := 884279719003555 / 562949953421312) (e := 1 / 10 ^ 16) hY0 (by linarith) (by
    rw [abs_le]; norm_num at a1 a2 ⊢; constructor <;> linarith)
  have b2 : |Y * (884279719003555 / 562949953421312) - Y * (Real.pi / 2)| ≤ 400000 * (1 / 10 ^ 16) := by
    rw [← mul_sub, abs_mul, abs_of_nonneg hY0]
    refine mul_le_mul hYle ?_ (abs_nonneg _) (by norm_num)
    rw [abs_le]; norm_num at a1 a2 ⊢; constructor <;> linarith
  rw [abs_le] at hred b2
  have hp : |(Y : ℝ) * (884279719003555 / 562949953421312)| ≤ 2 ^ (20 : Int) := by
    rw [abs_le]; norm_num; constructor <;> linarith
  have m1 := fMul_err .double (k := 20) (by decide) r1 tdPi2.1 (by rw [hyv, tdPi2.2]; exact hp)
  rw [hyv, tdPi2.2, show (2 : ℝ) ^ ((20 : Int) - (f64.m : Nat) - 2) = 1 / 2 ^ 34 by norm_num [f64], abs_le] at m1
  have s1 := sub64 xf m1.1 (by
    rw [xv, abs_le]
    norm_num at hred b2 m1 ⊢
    constructor <;> linarith [hred.1, hred.2, b2.1, b2.2, m1.2.1, m1.2.2])
  have s1e := s1.2
  rw [xv, abs_le] at s1e
  generalize fMul f64 y 0x3ff921fb54442d18#64 = p at *
  generalize fSub f64 xd p = t at *
  have cv := cvtF2F_err .single (k := 0) (by decide) s1.1 (by
    rw [zpow_zero, abs_le]
    norm_num at hred b2 m1 s1e ⊢
    constructor <;> linarith [hred.1, hred.2, b2.1, b2.2, m1.2.1, m1.2.2, s1e.1, s1e.2])
  rw [show (2 : ℝ) ^ ((0 : Int) - (f32.m : Nat) - 2) = 1 / 2 ^ 25 by norm_num [f32], abs_le] at cv
  have ce := cv.2
  have me := m1.2
  refine ⟨cv.1, ?_, Y, ?_, ?_⟩
  · rw [abs_le]
    norm_num at hred b2 me s1e ce ⊢
    constructor <;> linarith [hred.1, hred.2, b2.1, b2.2, me.1, me.2, s1e.1, s1e.2, ce.1, ce.2]
  · congr 1
    have e : cvttF2I f64 y = BitVec.ofNat 32 Y := by
      unfold cvttF2I intOrIndefinite
      rw [if_pos r1, r2, Int.mul_tdiv_cancel _ (Int.pow_ne_zero (by decide)), if_pos (by omega)]
      simp
    rw [e]
    apply BitVec.eq_of_toNat_eq
    rw [BitVec.toNat_and]
    simp only [BitVec.toNat_ofNat]
    rw [show (3 % 2 ^ 32 : Nat) = 2 ^ 2 - 1 by decide, Nat.and_two_pow_sub_one_eq_mod]
    omega
  · rw [abs_le]
    norm_num at b2 me s1e ce ⊢
    constructor <;> linarith [b2.1, b2.2, me.1, me.2, s1e.1, s1e.2, ce.1, ce.2]

/-- Every way to fold a float of at most 527449. -/
theorem foldF_ok (I : Isa) {m : FMode} (hf : isFinite f32 v = true) (h0 : 0 ≤ rval f32 v) (h1 : rval f32 v ≤ 527449)
    (hm : ModeAtF m v) : Folded f32 (rval f32 v) (1 / 2 ^ 25 + 1 / 2 ^ 33) (foldFL (roundFSse I) (roundDSse I) m v).1
      (foldFL (roundFSse I) (roundDSse I) m v).2 := by
  cases m with
  | near =>
    have hlt : fLt f32 v 0x3f490fdb#32 = true := hm.1 rfl
    rw [fLt_real hf tfPi4.1, decide_eq_true_eq, tfPi4.2] at hlt
    have e : cvtI2F f32 32 (BitVec.ofNat 32 (0 % 4)) = 0#32 := by decide +kernel
    refine ⟨hf, ?_, 0, e.symm, ?_⟩
    · rw [show (foldFL (roundFSse I) (roundDSse I) .near v).1 = v from rfl, abs_of_nonneg h0]
      norm_num at hlt ⊢
      linarith
    · rw [show (foldFL (roundFSse I) (roundDSse I) .near v).1 = v from rfl, Nat.cast_zero, zero_mul, sub_zero, sub_self, abs_zero]
      positivity
  | mid =>
    have hlt := hm.2 rfl
    rw [fLt_real hf tfMid.1, decide_eq_true_eq] at hlt
    have hle : rval f32 v ≤ 26 := by linarith [tfMid.2]
    obtain ⟨y1, Y, y2, y3, y4, y5⟩ := foldYF_spec I hf h0 hle
    have hYn : Y ≤ 18 := by exact_mod_cast y4
    have st := steps_ok hf y1 y3 y4 y5
    have se := st.2
    refine ⟨st.1, ?_, Y, quad_spec y1 y2 (by omega), se⟩
    show |rval f32 (foldStepsF (sArith f32 32) v (foldYF (roundFSse I) v))| ≤ _
    rw [abs_le] at se y5 ⊢
    norm_num at se y5 ⊢
    constructor <;> linarith [se.1, se.2, y5.1, y5.2]
  | far => exact wide_ok I hf h0 h1

end

end Vc.Lemma
