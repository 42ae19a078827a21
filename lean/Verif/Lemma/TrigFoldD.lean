import Verif.Lemma.TrigRed

/-!
Folding the argument of `sin` and `cos` of double.
-/

namespace Vc.Lemma
open Vc.Model Vc.Spec

theorem tdPi2 : isFinite f64 0x3ff921fb54442d18#64 = true ∧ rval f64 0x3ff921fb54442d18#64 = 884279719003555 / 562949953421312 := by
  refine ⟨by decide, rval_lit false 1023 2570638124657944 (-52) (by decide) (by decide) (by decide) (by decide) (by decide) ?_⟩
  norm_num [f64]

theorem tdPi4 : isFinite f64 0x3fe921fb54442d18#64 = true ∧ rval f64 0x3fe921fb54442d18#64 = 884279719003555 / 1125899906842624 := by
  refine ⟨by decide, rval_lit false 1022 2570638124657944 (-53) (by decide) (by decide) (by decide) (by decide) (by decide) ?_⟩
  norm_num [f64]

theorem tdM1 : isFinite f64 0x3ff921fb54443000#64 = true ∧ rval f64 0x3ff921fb54443000#64 = 1727108826179 / 1099511627776 := by
  refine ⟨by decide, rval_lit false 1023 2570638124658688 (-52) (by decide) (by decide) (by decide) (by decide) (by decide) ?_⟩
  norm_num [f64]

theorem tdM2 : isFinite f64 0xbd473dcb3b39a000#64 = true ∧ rval f64 0xbd473dcb3b39a000#64 = -(798567815629 / 4835703278458516698824704) := by
  refine ⟨by decide, rval_lit true 980 2038267918262272 (-95) (by decide) (by decide) (by decide) (by decide) (by decide) ?_⟩
  norm_num [f64]

theorem tdM3 : isFinite f64 0x3a945c06e0e68948#64 = true ∧ rval f64 0x3a945c06e0e68948#64 = 716335518372137 / 43556142965880123323311949751266331066368 := by
  refine ⟨by decide, rval_lit false 937 1227084519606600 (-138) (by decide) (by decide) (by decide) (by decide) (by decide) ?_⟩
  norm_num [f64]

theorem tdF1 : isFinite f64 0x3ff921fb40000000#64 = true ∧ rval f64 0x3ff921fb40000000#64 = 6588397 / 4194304 := by
  refine ⟨by decide, rval_lit false 1023 2570637784645632 (-52) (by decide) (by decide) (by decide) (by decide) (by decide) ?_⟩
  norm_num [f64]

theorem tdF2 : isFinite f64 0x3e74442d00000000#64 = true ∧ rval f64 0x3e74442d00000000#64 = 1328173 / 17592186044416 := by
  refine ⟨by decide, rval_lit false 999 1200859971059712 (-76) (by decide) (by decide) (by decide) (by decide) (by decide) ?_⟩
  norm_num [f64]

theorem tdF3 : isFinite f64 0x3cf8469898cc5170#64 = true ∧ rval f64 0x3cf8469898cc5170#64 = 427063790847255 / 79228162514264337593543950336 := by
  refine ⟨by decide, rval_lit false 975 2329421026185584 (-100) (by decide) (by decide) (by decide) (by decide) (by decide) ?_⟩
  norm_num [f64]

theorem tdP1 : isFinite f64 0x3ff921fb50000000#64 = true ∧ rval f64 0x3ff921fb50000000#64 = 26353589 / 16777216 := by
  refine ⟨by decide, rval_lit false 1023 2570638053081088 (-52) (by decide) (by decide) (by decide) (by decide) (by decide) ?_⟩
  norm_num [f64]

theorem tdP2 : isFinite f64 0x3e5110b460000000#64 = true ∧ rval f64 0x3e5110b460000000#64 = 8947107 / 562949953421312 := by
  refine ⟨by decide, rval_lit false 997 299841867481088 (-78) (by decide) (by decide) (by decide) (by decide) (by decide) ?_⟩
  norm_num [f64]

theorem tdP3 : isFinite f64 0x3c91a62630000000#64 = true ∧ rval f64 0x3c91a62630000000#64 = 18506339 / 302231454903657293676544 := by
  refine ⟨by decide, rval_lit false 969 464157920985088 (-106) (by decide) (by decide) (by decide) (by decide) (by decide) ?_⟩
  norm_num [f64]

theorem tdP4 : isFinite f64 0x3ae8a2e03707344a#64 = true ∧ rval f64 0x3ae8a2e03707344a#64 = 3467241660324389 / 5444517870735015415413993718908291383296 := by
  refine ⟨by decide, rval_lit false 942 2430883693278282 (-133) (by decide) (by decide) (by decide) (by decide) (by decide) ?_⟩
  norm_num [f64]

theorem td2Pi : isFinite f64 0x3fe45f306dc9c883#64 = true ∧ rval f64 0x3fe45f306dc9c883#64 = 5734161139222659 / 9007199254740992 := by
  refine ⟨by decide, rval_lit false 1022 1230561511852163 (-53) (by decide) (by decide) (by decide) (by decide) (by decide) ?_⟩
  norm_num [f64]


theorem pi_lo : (1.5707963267948966192313216916397514420985 : ℝ) ≤ Real.pi / 2 := by have := pi_gt_d50; linarith
theorem pi_hi : Real.pi / 2 ≤ (1.5707963267948966192313216916397514420986 : ℝ) := by have := pi_lt_d50; linarith

theorem sub64 {a b : BitVec 64} (ha : isFinite f64 a = true) (hb : isFinite f64 b = true) (h : |rval f64 a - rval f64 b| ≤ 1) :
    isFinite f64 (fSub f64 a b) = true ∧ |rval f64 (fSub f64 a b) - (rval f64 a - rval f64 b)| ≤ 1 / 2 ^ 54 := by
  have := fSub_err .double (k := 0) (by decide) ha hb (by simpa using h)
  rw [show (2 : ℝ) ^ ((0 : Int) - (f64.m : Nat) - 2) = 1 / 2 ^ 54 by norm_num [f64]] at this
  exact this

theorem mulTiny {a b : BitVec 64} (ha : isFinite f64 a = true) (hb : isFinite f64 b = true)
    (h : |rval f64 a * rval f64 b| ≤ 1 / 2 ^ 20) :
    isFinite f64 (fMul f64 a b) = true ∧ |rval f64 (fMul f64 a b) - rval f64 a * rval f64 b| ≤ 1 / 2 ^ 74 := by
  have := fMul_err .double (k := -20) (by decide) ha hb (by rw [show (2 : ℝ) ^ (-20 : Int) = 1 / 2 ^ 20 by norm_num]; exact h)
  rw [show (2 : ℝ) ^ ((-20 : Int) - (f64.m : Nat) - 2) = 1 / 2 ^ 74 by norm_num [f64]] at this
  exact this

theorem roundDSse_eq (I : Isa) : roundDSse I = roundAny f64 64 I.sse41 := rfl

/-- The number of quarter turns. -/
theorem foldYD_spec (I : Isa) {v : BitVec 64} (hf : isFinite f64 v = true) (h0 : 0 ≤ rval f64 v) (h1 : rval f64 v ≤ 2 ^ 27) :
    isFinite f64 (foldYD (roundDSse I) v) = true ∧ ∃ Y : Nat, fval f64 (foldYD (roundDSse I) v) = Y * 2 ^ oneExp f64 ∧
      rval f64 (foldYD (roundDSse I) v) = Y ∧ (Y : ℝ) ≤ 90000000 ∧ |rval f64 v - Y * (Real.pi / 2)| ≤ 78541 / 100000 := by
  have ⟨c1, c2⟩ := tdPi2
  have hq : |rval f64 v / rval f64 0x3ff921fb54442d18#64| ≤ 2 ^ (27 : Int) := by
    rw [c2, abs_of_nonneg (by positivity), div_le_iff₀ (by norm_num)]
    norm_num at h1 ⊢
    linarith
  have hd := fDiv_err .double (k := 27) (by decide) hf c1 (by rw [c2]; norm_num) hq
  rw [c2, show (2 : ℝ) ^ ((27 : Int) - (f64.m : Nat) - 2) = 1 / 2 ^ 27 by norm_num [f64]] at hd
  obtain ⟨d1, d2⟩ := hd
  rw [abs_le] at d2
  have hpos : 0 ≤ rval f64 v / (884279719003555 / 562949953421312) := by positivity
  have hle : rval f64 v / (884279719003555 / 562949953421312) ≤ 86000000 := by
    rw [div_le_iff₀ (by norm_num)]
    norm_num at h1 ⊢; linarith
  have hz0 : -(1 / 4) ≤ rval f64 (fDiv f64 v 0x3ff921fb54442d18#64) := by
    have := d2.1
    norm_num at this ⊢; linarith
  have hz1 : rval f64 (fDiv f64 v 0x3ff921fb54442d18#64) ≤ 2 ^ 30 := by
    have := d2.2
    norm_num at this ⊢; linarith
  obtain ⟨r1, Y, r2, r3⟩ := round_near .double I.sse41 d1 hz0 hz1
  unfold foldYD
  rw [roundDSse_eq]
  rw [abs_le] at r3
  refine ⟨r1, Y, r2, ?_, ?_, ?_⟩
  · have := rval_int (n := (Y : Int)) r2
    rw [this]; simp
  · have := d2.2
    norm_num at this; linarith
  · have hV : rval f64 v = rval f64 v / (884279719003555 / 562949953421312) * (884279719003555 / 562949953421312) := by
      rw [div_mul_cancel₀ _ (by norm_num)]
    have a1 := pi_lo
    have a2 := pi_hi
    have hY0 : (0 : ℝ) ≤ Y := by positivity
    have hYle : (Y : ℝ) ≤ 90000000 := by
      have := d2.2
      norm_num at this; linarith
    have e1 : (Y : ℝ) * (884279719003555 / 562949953421312 - Real.pi / 2) ≤ 1 / 10 ^ 7 := by
      norm_num at a1 a2 ⊢
      nlinarith
    have e2 : -(1 / 10 ^ 7) ≤ (Y : ℝ) * (884279719003555 / 562949953421312 - Real.pi / 2) := by
      norm_num at a1 a2 ⊢
      nlinarith
    have d3 := d2.1
    have d4 := d2.2
    generalize rval f64 v / (884279719003555 / 562949953421312) = Q at *
    generalize rval f64 (fDiv f64 v 0x3ff921fb54442d18#64) = z at *
    rw [hV]
    norm_num at d3 d4 e1 e2 r3 ⊢
    rw [abs_le]
    constructor <;> nlinarith [r3.1, r3.2]

/-- The constants of `π / 2` times an integer. -/
theorem split_err {Y c e : ℝ} (h0 : 0 ≤ Y) (h1 : Y ≤ 90000000) (hc : |c - Real.pi / 2| ≤ e) :
    |Y * c - Y * (Real.pi / 2)| ≤ 90000000 * e := by
  rw [← mul_sub, abs_mul, abs_of_nonneg h0]
  exact mul_le_mul h1 hc (abs_nonneg _) (by norm_num)

section
variable {v y : BitVec 64} {Y : Nat}

/-- No quarter turn. -/
theorem steps_zero (hf : isFinite f64 v = true) (hy : isFinite f64 y = true) (h0 : rval f64 y = 0) {c1 c2 c3 : BitVec 64}
    (h1 : isFinite f64 c1 = true) (h2 : isFinite f64 c2 = true) (h3 : isFinite f64 c3 = true) :
    isFinite f64 (foldStepsD (sArith f64 64) c1 c2 c3 v y) = true ∧ rval f64 (foldStepsD (sArith f64 64) c1 c2 c3 v y) = rval f64 v := by
  have m1 := fMul_zero' .double hy h1 h0
  have m2 := fMul_zero' .double hy h2 h0
  have m3 := fMul_zero' .double hy h3 h0
  have s1 := fSub_zero' .double hf m1.1 m1.2
  have s2 := fSub_zero' .double s1.1 m2.1 m2.2
  have s3 := fSub_zero' .double s2.1 m3.1 m3.2
  simp only [foldStepsD, sArith, id]
  exact ⟨s3.1, by rw [s3.2, s2.2, s1.2]⟩

/-- The first step is exact. -/
theorem first_step (hf : isFinite f64 v = true) (hy : isFinite f64 y = true) (hyv : rval f64 y = Y) (hY : 1 ≤ Y)
    (hle : (Y : ℝ) ≤ 90000000) (hred : |rval f64 v - Y * (Real.pi / 2)| ≤ 78541 / 100000) {c : BitVec 64} {g : Int}
    (hg0 : -42 ≤ g) (hg1 : g ≤ 0) (hYg : (Y : ℝ) * 2 ≤ 2 ^ (g + 53))
    (hc : isFinite f64 c = true) (hg : OnGrid g (rval f64 c)) (hd : |rval f64 c - Real.pi / 2| ≤ 1 / 10 ^ 7) :
    isFinite f64 (fSub f64 v (fMul f64 y c)) = true ∧ rval f64 (fSub f64 v (fMul f64 y c)) = rval f64 v - Y * rval f64 c ∧
    OnGrid (-53) (rval f64 (fSub f64 v (fMul f64 y c))) := by
  have a1 := pi_lo
  have a2 := pi_hi
  have hY1 : (1 : ℝ) ≤ Y := by exact_mod_cast hY
  have hd' := hd
  rw [abs_le] at hd hred
  have hs := split_err (by linarith) hle hd'
  rw [abs_le] at hs
  have m1 : isFinite f64 (fMul f64 y c) = true ∧ rval f64 (fMul f64 y c) = Y * rval f64 c := by
    refine fMul_int .double hy hc hyv hg ?_ (by show 0 ≤ g + 1074; omega) (by show g + 1074 + 3 < 2048; omega)
    rw [show g + (f64.m + 1 : Nat) = g + 53 from rfl, abs_of_nonneg (by
      norm_num at a1 hd ⊢
      exact mul_nonneg (by linarith) (by linarith))]
    refine le_trans ?_ hYg
    norm_num at a1 a2 hd ⊢
    nlinarith
  have hV : (1 / 2 : ℝ) ≤ rval f64 v := by
    norm_num at a1 a2 ⊢
    nlinarith [hred.1]
  have hgv : OnGrid (-53) (rval f64 v) := by
    have := grid_of_le (F := f64) (x := v) (j := -1) (by decide) (by norm_num at hV ⊢; exact hV)
    rwa [show (-1 : Int) - (f64.m : Nat) = -53 from rfl] at this
  have gp : OnGrid g (rval f64 (fMul f64 y c)) := by rw [m1.2]; exact hg.natMul Y
  have main : isFinite f64 (fSub f64 v (fMul f64 y c)) = true ∧ rval f64 (fSub f64 v (fMul f64 y c)) = rval f64 v - rval f64 (fMul f64 y c) := by
    rcases le_or_gt (1024 : ℝ) (rval f64 v) with hb | hb
    · have hgv : OnGrid (-42) (rval f64 v) := by
        have := grid_of_le (F := f64) (x := v) (j := 10) (by decide) (by norm_num at hb ⊢; exact hb)
        rwa [show (10 : Int) - (f64.m : Nat) = -42 from rfl] at this
      refine fSub_grid .double hf m1.1 hgv (gp.finer (by omega)) ?_ (by decide) (by decide)
      rw [show (2 : ℝ) ^ ((-42 : Int) + (f64.m + 1 : Nat)) = 2 ^ 11 by norm_num [f64], m1.2, abs_le]
      norm_num at hs hred ⊢
      constructor <;> linarith [hs.1, hs.2, hred.1, hred.2]
    · refine fSub_grid .double hf m1.1 hgv (gp.finer (by omega)) ?_ (by decide) (by decide)
      rw [show (2 : ℝ) ^ ((-53 : Int) + (f64.m + 1 : Nat)) = 1 by norm_num [f64], m1.2, abs_le]
      have hY2 : (Y : ℝ) ≤ 700 := by
        norm_num at a1 a2 hb hred
        by_contra hc
        nlinarith [hred.1]
      have e1 : (Y : ℝ) * rval f64 c - Y * (Real.pi / 2) ≤ 1 / 1000 := by
        norm_num at hd ⊢; nlinarith [hd.2]
      have e2 : -(1 / 1000) ≤ (Y : ℝ) * rval f64 c - Y * (Real.pi / 2) := by
        norm_num at hd ⊢; nlinarith [hd.1]
      norm_num at hred e1 e2 ⊢
      constructor <;> linarith [hred.1, hred.2]
  rw [m1.2] at main
  refine ⟨main.1, main.2, ?_⟩
  rw [main.2]
  exact hgv.sub ((hg.natMul Y).finer (by omega))

/-- The two ways with three steps. -/
theorem far_ok (hf : isFinite f64 v = true) (hy : isFinite f64 y = true) (hyv : rval f64 y = Y) (hY : 1 ≤ Y)
    (hle : (Y : ℝ) ≤ 90000000) (hred : |rval f64 v - Y * (Real.pi / 2)| ≤ 78541 / 100000) :
    ApproxAbs f64 (rval f64 v - Y * (Real.pi / 2)) (1 / 2 ^ 53 + 1 / 2 ^ 60)
      (foldStepsD (sArith f64 64) 0x3ff921fb40000000#64 0x3e74442d00000000#64 0x3cf8469898cc5170#64 v y) := by
  have a1 := pi_lo
  have a2 := pi_hi
  have hY1 : (1 : ℝ) ≤ Y := by exact_mod_cast hY
  have s1 := first_step hf hy hyv hY hle hred (g := -22) (by decide) (by decide) (by norm_num; linarith) tdF1.1
    ⟨6588397, by rw [tdF1.2]; norm_num⟩ (by rw [tdF1.2, abs_le]; norm_num at a1 a2 ⊢; constructor <;> linarith)
  have g2 : OnGrid (-44) (rval f64 0x3e74442d00000000#64) := ⟨1328173, by rw [tdF2.2]; norm_num⟩
  have m2 := fMul_int .double hy tdF2.1 hyv g2 (by
    rw [show (2 : ℝ) ^ ((-44 : Int) + (f64.m + 1 : Nat)) = 2 ^ 9 by norm_num [f64], tdF2.2, abs_of_nonneg (by positivity)]
    norm_num; linarith) (by decide) (by decide)
  have c12 : |(1.570796251296997 : ℝ)| ≤ 2 := by norm_num [abs_le]
  rw [tdF1.2] at s1
  have hb2 := split_err (c := 6588397 / 4194304 + 1328173 / 17592186044416) (e := 1 / 10 ^ 14) (by linarith) hle (by
    rw [abs_le]; norm_num at a1 a2 ⊢; constructor <;> linarith)
  have s2 := fSub_grid .double s1.1 m2.1 s1.2.2 (by rw [m2.2]; exact (g2.natMul Y).finer (by decide)) (by
    rw [show (2 : ℝ) ^ ((-53 : Int) + (f64.m + 1 : Nat)) = 1 by norm_num [f64], s1.2.1, m2.2, tdF2.2]
    rw [abs_le] at hred hb2 ⊢
    norm_num at hred hb2 ⊢
    constructor <;> linarith [hred.1, hred.2, hb2.1, hb2.2]) (by decide) (by decide)
  rw [s1.2.1, m2.2, tdF2.2] at s2
  have m3 := mulTiny hy tdF3.1 (by
    rw [hyv, tdF3.2, abs_of_nonneg (by positivity)]
    norm_num; linarith)
  rw [hyv, tdF3.2] at m3
  have hb3 := split_err (c := 6588397 / 4194304 + 1328173 / 17592186044416 + 427063790847255 / 79228162514264337593543950336)
    (e := 1 / 10 ^ 30) (by linarith) hle (by
    rw [abs_le]; norm_num at a1 a2 ⊢; constructor <;> linarith)
  have m3e := m3.2
  rw [abs_le] at m3e hb3 hred
  have s3 := sub64 s2.1 m3.1 (by
    rw [s2.2, abs_le]
    norm_num at m3e hb3 hred ⊢
    constructor <;> linarith [hred.1, hred.2, hb3.1, hb3.2, m3e.1, m3e.2])
  rw [s2.2] at s3
  simp only [foldStepsD, sArith, id]
  refine ⟨s3.1, ?_⟩
  have s3e := s3.2
  rw [abs_le] at s3e ⊢
  norm_num at m3e hb3 s3e ⊢
  constructor <;> linarith [s3e.1, s3e.2, hb3.1, hb3.2, m3e.1, m3e.2]

theorem mid_ok (hf : isFinite f64 v = true) (hy : isFinite f64 y = true) (hyv : rval f64 y = Y) (hY : 1 ≤ Y)
    (hle : (Y : ℝ) ≤ 4000) (hred : |rval f64 v - Y * (Real.pi / 2)| ≤ 78541 / 100000) :
    ApproxAbs f64 (rval f64 v - Y * (Real.pi / 2)) (1 / 2 ^ 53 + 1 / 2 ^ 60)
      (foldStepsD (sArith f64 64) 0x3ff921fb54443000#64 0xbd473dcb3b39a000#64 0x3a945c06e0e68948#64 v y) := by
  have a1 := pi_lo
  have a2 := pi_hi
  have hY1 : (1 : ℝ) ≤ Y := by exact_mod_cast hY
  have hle' : (Y : ℝ) ≤ 90000000 := by linarith
  have s1 := first_step hf hy hyv hY hle' hred (g := -40) (by decide) (by decide) (by norm_num; linarith) tdM1.1
    ⟨1727108826179, by rw [tdM1.2]; norm_num⟩ (by rw [tdM1.2, abs_le]; norm_num at a1 a2 ⊢; constructor <;> linarith)
  rw [tdM1.2] at s1
  have m2 := mulTiny hy tdM2.1 (by
    rw [hyv, tdM2.2, abs_le]
    norm_num; constructor <;> linarith)
  rw [hyv, tdM2.2] at m2
  have hb2 := split_err (c := 1727108826179 / 1099511627776 + -(798567815629 / 4835703278458516698824704)) (e := 1 / 10 ^ 24) (by linarith) hle' (by
    rw [abs_le]; norm_num at a1 a2 ⊢; constructor <;> linarith)
  have m2e := m2.2
  rw [abs_le] at m2e hb2 hred
  have s2 := sub64 s1.1 m2.1 (by
    rw [s1.2.1, abs_le]
    norm_num at m2e hb2 hred ⊢
    constructor <;> linarith [hred.1, hred.2, hb2.1, hb2.2, m2e.1, m2e.2])
  rw [s1.2.1] at s2
  have m3 := mulTiny hy tdM3.1 (by
    rw [hyv, tdM3.2, abs_le]
    norm_num; constructor <;> linarith)
  rw [hyv, tdM3.2] at m3
  have hb3 := split_err (c := 1727108826179 / 1099511627776 + -(798567815629 / 4835703278458516698824704) + 716335518372137 / 43556142965880123323311949751266331066368)
    (e := 1 / 10 ^ 37) (by linarith) hle' (by
    rw [abs_le]; norm_num at a1 a2 ⊢; constructor <;> linarith)
  have m3e := m3.2
  have s2e := s2.2
  rw [abs_le] at m3e hb3 s2e
  have s3 := sub64 s2.1 m3.1 (by
    rw [abs_le]
    norm_num at m2e m3e hb3 hred s2e ⊢
    constructor <;> linarith [hred.1, hred.2, hb3.1, hb3.2, m3e.1, m3e.2, m2e.1, m2e.2, s2e.1, s2e.2])
  simp only [foldStepsD, sArith, id]
  refine ⟨s3.1, ?_⟩
  have s3e := s3.2
  rw [abs_le] at s3e ⊢
  norm_num at m2e m3e hb3 s2e s3e ⊢
  constructor <;> linarith [s3e.1, s3e.2, hb3.1, hb3.2, m3e.1, m3e.2, m2e.1, m2e.2, s2e.1, s2e.2]

end

end Vc.Lemma
