import Verif.Lemma.TrigEnd
import Verif.Lemma.TrigRel
import Verif.Spec.Ulp

/-!
`sin` and `cos` of small arguments, in units in the last place.
-/

namespace Vc.Lemma
open Vc.Model Vc.Spec

/-! ### Small arguments are not folded -/

theorem sel_zero {a b : BitVec 64} (ha : isFinite f64 a = true ∧ rval f64 a = 0) (hb : isFinite f64 b = true ∧ rval f64 b = 0) :
    (isFinite f64 (fMax f64 a b) = true ∧ rval f64 (fMax f64 a b) = 0) ∧ (isFinite f64 (fMin f64 a b) = true ∧ rval f64 (fMin f64 a b) = 0) := by
  unfold fMax fMin
  constructor <;> split <;> assumption

theorem sum_zero {v y : BitVec 64} (hf : isFinite f64 v = true) (hy : isFinite f64 y = true) (h0 : rval f64 y = 0) :
    isFinite f64 (foldSumD (sArith f64 64) (fMin f64) (fMax f64) v y y) = true ∧
    rval f64 (foldSumD (sArith f64 64) (fMin f64) (fMax f64) v y y) = rval f64 v := by
  have z : isFinite f64 (fSub f64 y y) = true ∧ rval f64 (fSub f64 y y) = 0 :=
    fSub_repr .double hy hy (repr_zero .double) (by ring)
  have m1 := fMul_zero' .double hy tdP1.1 h0
  have m2 := fMul_zero' .double hy tdP2.1 h0
  have m3 := fMul_zero' .double hy tdP3.1 h0
  have m4 := fMul_zero' .double hy tdP4.1 h0
  have l1 := fMul_zero' .double z.1 tdP1.1 z.2
  have l2 := fMul_zero' .double z.1 tdP2.1 z.2
  have l3 := fMul_zero' .double z.1 tdP3.1 z.2
  have x2 := sel_zero m2 l1
  have x3 := sel_zero m3 l2
  have x4 := sel_zero m4 l3
  simp only [foldSumD, sArith, id]
  have s1 := fSub_zero' .double hf m1.1 m1.2
  have s2 := fSub_zero' .double s1.1 x2.1.1 x2.1.2
  have s3 := fSub_zero' .double s2.1 x2.2.1 x2.2.2
  have s4 := fSub_zero' .double s3.1 x3.1.1 x3.1.2
  have s5 := fSub_zero' .double s4.1 x3.2.1 x3.2.2
  have s6 := fSub_zero' .double s5.1 x4.1.1 x4.1.2
  have s7 := fSub_zero' .double s6.1 x4.2.1 x4.2.2
  exact ⟨s7.1, by rw [s7.2, s6.2, s5.2, s4.2, s3.2, s2.2, s1.2]⟩

theorem no_turn {V : ℝ} {Y : Nat} (h1 : V ≤ 157 / 200) (hred : |V - Y * (Real.pi / 2)| ≤ 78541 / 100000) : Y = 0 := by
  by_contra hc
  have hY : (1 : ℝ) ≤ Y := by exact_mod_cast Nat.one_le_iff_ne_zero.mpr hc
  have a1 := pi_lo
  rw [abs_le] at hred
  have := hred.1
  norm_num at a1 this h1
  nlinarith

theorem foldD_small (I : Isa) {m : DMode} {v : BitVec 64} (hf : isFinite f64 v = true) (h0 : 0 ≤ rval f64 v) (h1 : rval f64 v ≤ 157 / 200) :
    isFinite f64 (foldDL (roundDSse I) m v).1 = true ∧ rval f64 (foldDL (roundDSse I) m v).1 = rval f64 v ∧
    (foldDL (roundDSse I) m v).2 = cvtI2F f64 64 (BitVec.ofNat 32 0) := by
  obtain ⟨hy, Y, hyv, hyr, -, hred⟩ := foldYD_spec I hf h0 (le_trans h1 (by norm_num))
  have hY := no_turn h1 hred
  subst hY
  have hq := quad_spec hy hyv (by decide)
  have hz : rval f64 (foldYD (roundDSse I) v) = 0 := by rw [hyr, Nat.cast_zero]
  cases m with
  | near =>
    have e : cvtI2F f64 64 (BitVec.ofNat 32 0) = 0#64 := by decide +kernel
    exact ⟨hf, rfl, e.symm⟩
  | mid =>
    have := steps_zero hf hy hz tdM1.1 tdM2.1 tdM3.1
    exact ⟨this.1, this.2, hq⟩
  | far =>
    have := steps_zero hf hy hz tdF1.1 tdF2.1 tdF3.1
    exact ⟨this.1, this.2, hq⟩
  | huge =>
    have := sum_zero hf hy hz
    have e : (foldDL (roundDSse I) .huge v).1 = foldSumD (sArith f64 64) (fMin f64) (fMax f64) v (foldYD (roundDSse I) v)
      (foldYD (roundDSse I) v) := by
      unfold foldDL; simp only
      rw [int_mask hyv (by decide)]
    rw [e]
    exact ⟨this.1, this.2, hq⟩

theorem foldF_small (I : Isa) {m : FMode} {v : BitVec 32} (hf : isFinite f32 v = true) (h0 : 0 ≤ rval f32 v) (h1 : rval f32 v ≤ 157 / 200) :
    isFinite f32 (foldFL (roundFSse I) (roundDSse I) m v).1 = true ∧ rval f32 (foldFL (roundFSse I) (roundDSse I) m v).1 = rval f32 v ∧
    (foldFL (roundFSse I) (roundDSse I) m v).2 = cvtI2F f32 32 (BitVec.ofNat 32 0) := by
  cases m with
  | near =>
    have e : cvtI2F f32 32 (BitVec.ofNat 32 0) = 0#32 := by decide +kernel
    exact ⟨hf, rfl, e.symm⟩
  | mid =>
    obtain ⟨hy, Y, hyv, hyr, -, hred⟩ := foldYF_spec I hf h0 (le_trans h1 (by norm_num))
    have hY := no_turn h1 hred
    subst hY
    have hq := quad_spec hy hyv (by decide)
    have hz : rval f32 (foldYF (roundFSse I) v) = 0 := by rw [hyr, Nat.cast_zero]
    have m1 := fMul_zero' .single hy tfM1.1 hz
    have m2 := fMul_zero' .single hy tfM2.1 hz
    have s1 := fSub_zero' .single hf m1.1 m1.2
    have s2 := fSub_zero' .single s1.1 m2.1 m2.2
    have e : (foldFL (roundFSse I) (roundDSse I) .mid v).1 = foldStepsF (sArith f32 32) v (foldYF (roundFSse I) v) := rfl
    rw [e]
    simp only [foldStepsF, sArith, id]
    exact ⟨s2.1, by rw [s2.2, s1.2], hq⟩
  | far =>
    obtain ⟨xf, xv⟩ := cvtF2F_rval hf
    have ⟨c1, c2⟩ := td2Pi
    have hd := fMul_err .double (k := 0) (by decide) xf c1 (by
      rw [c2, xv, zpow_zero, abs_of_nonneg (by positivity)]; linarith)
    rw [c2, xv, show (2 : ℝ) ^ ((0 : Int) - (f64.m : Nat) - 2) = 1 / 2 ^ 54 by norm_num [f64]] at hd
    obtain ⟨d1, d2⟩ := hd
    rw [abs_le] at d2
    have d3 := d2.1
    have d4 := d2.2
    norm_num at d3 d4 h1
    obtain ⟨r1, Y, r2, r3⟩ := round_near .double I.sse41 d1 (by linarith) (by norm_num; linarith)
    rw [← roundDSse_eq] at r1 r2
    rw [abs_le] at r3
    have hY : Y = 0 := by
      by_contra hc
      have hY : (1 : ℝ) ≤ Y := by exact_mod_cast Nat.one_le_iff_ne_zero.mpr hc
      norm_num at r3
      linarith [r3.1]
    subst hY
    have hyv := rval_int (n := ((0 : Nat) : Int)) r2
    have hq := quad_spec r1 r2 (by decide)
    have e : foldFL (roundFSse I) (roundDSse I) .far v = foldWideF (roundDSse I) v := rfl
    rw [e]
    unfold foldWideF
    simp only
    generalize cvtF2F f32 f64 64 v = xd at *
    generalize roundDSse I (fMul f64 xd 0x3fe45f306dc9c883#64) = y at *
    have m1 := fMul_zero' .double r1 tdPi2.1 (by rw [hyv]; simp)
    have s1 := fSub_zero' .double xf m1.1 m1.2
    generalize fSub f64 xd (fMul f64 y 0x3ff921fb54442d18#64) = t at *
    have back : isFinite f32 (cvtF2F f64 f32 32 t) = true ∧ rval f32 (cvtF2F f64 f32 32 t) = rval f32 v := by
      have hn := (cvtF2F_spec (F := f64) FmtW.single t).2.2.2 s1.1
      have e2 : fval f32 v * ((2 ^ oneExp f64 : Nat) : Int) = fval f64 t * 2 ^ oneExp f32 := by
        have e3 : rval f64 t = rval f32 v := by rw [s1.2, xv]
        unfold rval at e3
        rw [div_eq_div_iff (ne_of_gt (one_pos _)) (ne_of_gt (one_pos _))] at e3
        exact_mod_cast e3.symm
      have := nearest_eq (pow_pos2 _) hn (isFinite_not hf).1 e2
      exact ⟨finite_of_val hf this, by unfold rval; rw [this]⟩
    refine ⟨back.1, back.2, ?_⟩
    have q2 : cvttF2I f64 y &&& 3#32 = BitVec.ofNat 32 0 := by
      have e : cvttF2I f64 y = BitVec.ofNat 32 0 := by
        unfold cvttF2I intOrIndefinite
        rw [if_pos r1, r2]
        simp
      rw [e]; decide
    rw [q2]

/-! ### Units in the last place -/

theorem cvtF2F_rel {F G : Fmt} {w v : Nat} (hG : FmtW G v) {k : Int} (hk : KRange G k) {x : BitVec w} (hx : isFinite F x = true)
    (hv : |rval F x| ≤ 2 ^ k) : isFinite G (cvtF2F F G v x) = true ∧ RelErr G (rval F x) (rval G (cvtF2F F G v x)) := by
  obtain ⟨hn, hi⟩ := isFinite_not hx
  have hp := one_pos F
  have hq := one_pos G
  have e : ((magVal F (fmag F x) * 2 ^ oneExp G : Nat) : ℝ) / ((2 ^ oneExp F : Nat) : ℝ) / 2 ^ oneExp G =
      (magVal F (fmag F x) : ℝ) / 2 ^ oneExp F := by
    push_cast
    field_simp
  have hs : rval F x = (if fneg F x then -1 else 1) * ((magVal F (fmag F x) : ℝ) / 2 ^ oneExp F) := by
    rw [rval_sign, natAbs_fval, mul_div_assoc]
  have := mk_rel hG (fneg F x) (magVal F (fmag F x) * 2 ^ oneExp G) (den := 2 ^ oneExp F) (pow_pos2 _) hk (by
    rw [e]
    rw [hs, sign_abs, abs_of_nonneg (by positivity)] at hv
    exact hv)
  rw [e, ← hs] at this
  unfold cvtF2F
  rw [if_neg (by rw [hn]; decide), if_neg (by rw [hi]; decide)]
  exact this

section
variable {F : Fmt} {w : Nat}

/-- Relative errors and half of the smallest number. -/
theorem within_of_rel {k c d v : ℝ} {r : BitVec w} (hf : isFinite F r = true) (hc : 0 ≤ c) (hd : 0 ≤ d)
    (h : |rval F r - v| ≤ c * uRel F * |v| + if v = 0 then 0 else d * uAbs F) (hk : c + d / 2 ≤ k) : WithinUlps F k v r := by
  refine ⟨hf, fun h0 => ?_, fun e h1 h2 => ?_⟩
  · subst h0
    simpa using h
  · have hu := uRel_pos F
    have hv : v ≠ 0 := by
      rintro rfl
      have : (0 : ℝ) < 2 ^ e := by positivity
      rw [abs_zero] at h1; linarith
    rw [if_neg hv] at h
    refine le_trans h ?_
    have hM : (2 : ℝ) ^ (e - F.m) ≤ 2 ^ max (e - F.m) (-(oneExp F : Int)) := zpow_le_zpow_right₀ (by norm_num) (le_max_left _ _)
    have hO : (2 : ℝ) ^ (-(oneExp F : Int)) ≤ 2 ^ max (e - F.m) (-(oneExp F : Int)) := zpow_le_zpow_right₀ (by norm_num) (le_max_right _ _)
    have e1 : uRel F * 2 ^ (e + 1) = 2 ^ (e - F.m) := by
      unfold uRel; rw [← zpow_add₀ (by norm_num)]; congr 1; ring
    have e2 : uAbs F = 2 ^ (-(oneExp F : Int)) / 2 := by
      unfold uAbs; rw [neg_add, zpow_add₀ (by norm_num)]; norm_num; ring
    have h3 : uRel F * |v| ≤ 2 ^ (e - F.m) := by rw [← e1]; exact mul_le_mul_of_nonneg_left h2.le hu.le
    generalize (2 : ℝ) ^ max (e - F.m) (-(oneExp F : Int)) = M at *
    have h4 : 0 ≤ M := le_trans (by positivity) hM
    have h5 := mul_le_mul_of_nonneg_left (le_trans h3 hM) hc
    have h6 : d * uAbs F ≤ d / 2 * M := by
      rw [e2]
      have := mul_le_mul_of_nonneg_left hO hd
      linarith
    have h7 := mul_le_mul_of_nonneg_right hk h4
    linarith

/-- Absolute errors of numbers of at least one half. -/
theorem within_of_abs {k c v : ℝ} {r : BitVec w} (hf : isFinite F r = true) (hv : 1 / 2 ≤ |v|) (hc : 0 ≤ c)
    (h : |rval F r - v| ≤ c * uRel F) (hk : c ≤ k) : WithinUlps F k v r := by
  refine ⟨hf, fun h0 => ?_, fun e h1 h2 => ?_⟩
  · rw [h0, abs_zero] at hv; norm_num at hv
  · have he : -1 ≤ e := by
      by_contra hc
      have : (2 : ℝ) ^ (e + 1) ≤ 2 ^ (-1 : Int) := zpow_le_zpow_right₀ (by norm_num) (by omega)
      norm_num at this
      norm_num at hv
      linarith
    have hM : uRel F ≤ 2 ^ max (e - F.m) (-(oneExp F : Int)) := by
      unfold uRel
      refine zpow_le_zpow_right₀ (by norm_num) (le_trans ?_ (le_max_left _ _))
      omega
    refine le_trans h (mul_le_mul hk hM (uRel_pos F).le (le_trans hc hk))

theorem within_mono {k k' v : ℝ} {r : BitVec w} (h : WithinUlps F k v r) (hk : k ≤ k') : WithinUlps F k' v r :=
  ⟨h.1, h.2.1, fun e h1 h2 => le_trans (h.2.2 e h1 h2) (mul_le_mul_of_nonneg_right hk (by positivity))⟩

/-- The end of `sin` and `cos`, if there is no turn. -/
theorem end_small (h : FmtW F w) {one two half twoHalf : BitVec w} (T : QuadTable F w one two half twoHalf) {x t q s c : BitVec w}
    {ε η : ℝ} (ht : rval F t = rval F (absL x)) (hq : q = cvtI2F F w (BitVec.ofNat 32 0))
    (hs : isFinite F s = true ∧ |rval F s - Real.sin (rval F t)| ≤ η * |rval F t|)
    (hc : ApproxAbs F (Real.cos (rval F t)) ε c) :
    (isFinite F (trigSinL F (sgn w) one two x q s c) = true ∧
      |rval F (trigSinL F (sgn w) one two x q s c) - Real.sin (rval F x)| ≤ η * |rval F x|) ∧
    ApproxAbs F (Real.cos (rval F x)) ε (trigCosL F (sgn w) half two twoHalf q s c) := by
  subst hq
  have sv := sinEnd_val h T (r := 0) (by decide) x hs.1 hc.1
  have cv := cosEnd_val h T (r := 0) (by decide) hs.1 hc.1
  obtain ⟨ex, -, -, ea⟩ := rval_absL h x
  have hs2 := hs.2
  have hc2 := hc.2
  rw [ht] at hs2 hc2
  refine ⟨⟨sv.1, ?_⟩, ⟨cv.1, ?_⟩⟩
  · rw [sv.2, ← ea]
    rw [abs_of_nonneg (a := rval F (absL x)) (rval_absL h x).2.1] at hs2
    simp only [quadSin, if_true]
    rw [ex]
    cases fneg F x
    · simpa using hs2
    · simp only [if_true, neg_one_mul, Real.sin_neg]
      rw [show -rval F s - -Real.sin (rval F (absL x)) = -(rval F s - Real.sin (rval F (absL x))) by ring, abs_neg]
      exact hs2
  · rw [cv.2]
    simp only [quadCos, if_true]
    rw [ex]
    cases fneg F x
    · simpa using hc2
    · simp only [if_true, neg_one_mul, Real.cos_neg]
      exact hc2
end

/-- The sine is not much less than the argument. -/
theorem arg_le_sin {t : ℝ} (ht : |t| ≤ 157 / 200) : |t| ≤ 139 / 125 * |Real.sin t| := by
  have key : ∀ u : ℝ, 0 ≤ u → u ≤ 157 / 200 → u ≤ 139 / 125 * Real.sin u := by
    intro u h0 h1
    have h2 := (taylor (t := u) (by rw [abs_of_nonneg h0]; linarith) (n := 3) (by decide)).2
    simp only [sinTaylor, pEval] at h2
    rw [abs_of_nonneg h0, show Nat.factorial (2 * 3) = 720 by decide] at h2
    norm_num [Nat.factorial] at h2
    rw [abs_le] at h2
    have h3 := h2.2
    have b2 : u * u ≤ 617 / 1000 := by nlinarith
    have b5 : u ^ 5 ≤ (157 / 200) ^ 5 := pow_le_pow_left₀ h0 h1 5
    have b0 : 0 ≤ u * u := mul_self_nonneg u
    have a1 : 9003 / 10000 ≤ 1 + u * u * (-(1 / 6) + u * u * (1 / 120)) := by
      generalize u * u = s at *
      nlinarith
    have a2 := mul_le_mul_of_nonneg_left a1 h0
    have a3 := mul_le_mul_of_nonneg_left b5 h0
    norm_num at a3
    have e : u * u ^ 5 = u ^ 6 := by ring
    rw [e] at a3
    linarith
  rcases le_total 0 t with h0 | h0
  · rw [abs_of_nonneg h0] at ht ⊢
    have := key t h0 ht
    have h2 : 0 ≤ Real.sin t := by linarith
    rw [abs_of_nonneg h2]; exact this
  · rw [abs_of_nonpos h0] at ht ⊢
    have := key (-t) (by linarith) ht
    rw [Real.sin_neg] at this
    have h2 : Real.sin t ≤ 0 := by linarith
    rw [abs_of_nonpos h2]; exact this

theorem cos_ge {t : ℝ} (ht : |t| ≤ 157 / 200) : 1 / 2 ≤ |Real.cos t| := by
  have h := Real.one_sub_sq_div_two_le_cos (x := t)
  have h2 : t ^ 2 ≤ (157 / 200) ^ 2 := by rw [← sq_abs]; exact pow_le_pow_left₀ (abs_nonneg _) ht 2
  refine le_trans ?_ (le_abs_self _)
  norm_num at h2
  linarith

end Vc.Lemma
