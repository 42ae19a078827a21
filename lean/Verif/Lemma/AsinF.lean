import Verif.Lemma.AsinSerF
import Verif.Lemma.AsinSpecial

/-!
The precision of `asin` of float.
-/

namespace Vc.Lemma
open Vc.Model Vc.Spec

/-- Doubling a number that is not small nor large. -/
theorem fAdd_dbl {F : Fmt} {w : Nat} (h : FmtW F w) {v : BitVec w} (hf : isFinite F v = true) (h0 : 1 / 2 ^ 60 ≤ rval F v) (h1 : rval F v ≤ 1) :
    isFinite F (fAdd F v v) = true ∧ rval F (fAdd F v v) = 2 * rval F v := by
  have hp : 0 < rval F v := lt_of_lt_of_le (by norm_num) h0
  obtain ⟨j, j1, j2⟩ := exists_mem_Ico_zpow (x := rval F v) (y := 2) hp (by norm_num)
  have l1 : -60 < j + 1 := by
    refine (zpow_lt_zpow_iff_right₀ (by norm_num : (1 : ℝ) < 2)).mp (lt_of_le_of_lt ?_ j2)
    refine le_trans (le_of_eq ?_) h0
    norm_num
  have l2 : j ≤ 0 := by
    refine (zpow_le_zpow_iff_right₀ (by norm_num : (1 : ℝ) < 2)).mp (le_trans j1 ?_)
    simpa using h1
  have g := grid_of_le (F := F) (j := j) (by cases h <;> simp [oneExp, bias, f32, f64] <;> omega) j1
  have g2 : OnGrid (j + 1 - F.m) (2 * rval F v) := by
    obtain ⟨k, hk⟩ := g
    refine ⟨k, ?_⟩
    rw [hk, show (j + 1 - F.m : Int) = (j - F.m) + 1 by ring, zpow_add₀ (by norm_num)]
    simp only [zpow_one]; ring
  refine fAdd_repr h hf hf (g2.repr (F := F) ?_ ?_ ?_) (by ring)
  · rw [abs_of_pos (by linarith), show (j + 1 - F.m + (F.m + 1 : Nat) : Int) = (j + 1) + 1 by push_cast; ring, zpow_add₀ (by norm_num)]
    have := j2.le
    simp only [zpow_one]; linarith
  · cases h <;> simp [oneExp, bias, f32, f64] <;> omega
  · cases h <;> simp [oneExp, bias, f32, f64] <;> omega

theorem asTR_le {z : ℝ} (h0 : 0 ≤ z) (h1 : z ≤ 1 / 4) : asTR z ≤ 0.189 * z := by
  rw [asTR_eq]
  refine mul_le_mul_of_nonneg_right ?_ h0
  have hh : ∀ (c d e y : ℝ), 0 ≤ c → y ≤ c → 0 ≤ y → c * (1 / 4) + d ≤ e → y * z + d ≤ e := by
    intro c d e y hc hy hy0 he
    have := mul_le_mul hy h1 h0 hc
    linarith
  refine hh 0.0886 _ _ _ (by norm_num) ?_ (by positivity) (by norm_num)
  refine hh 0.0543 _ _ _ (by norm_num) ?_ (by positivity) (by norm_num)
  refine hh 0.0348 _ _ _ (by norm_num) ?_ (by positivity) (by norm_num)
  refine hh 0.0422 _ _ _ (by norm_num) ?_ (by positivity) (by norm_num)
  norm_num

/-- An upper bound. -/
theorem arcsin_upper {t : ℝ} (h0 : 0 ≤ t) (h1 : t ≤ 1 / 2) : Real.arcsin t ≤ 1.048 * t := by
  have h := asF_apx h0 h1
  have hT := asTR_le (mul_self_nonneg t) (by nlinarith)
  have hA := Real.arcsin_nonneg.mpr h0
  rw [uRel32] at h
  have h2 := (abs_le.mp h).1
  have : t * asTR (t * t) ≤ t * 0.04725 := mul_le_mul_of_nonneg_left (by nlinarith) h0
  nlinarith

/-- The series after the reduction. -/
theorem asL_err {z : BitVec 32} {σ : ℝ} (hf : isFinite f32 z = true) (h0 : 1 / 2 ^ 30 ≤ rval f32 z) (h1 : rval f32 z ≤ 1 / 4 - 1 / 2 ^ 30)
    (hσ : rval f32 z ≤ σ ^ 2) (hσ0 : 0 ≤ σ) (hσ1 : σ ≤ 1 / 2) {v : BitVec 32} (hv : v = fAdd f32 (fMul f32 (asTF z) (fSqrt f32 z)) (fSqrt f32 z)) :
    isFinite f32 v = true ∧ |rval f32 v - Real.arcsin (Real.sqrt (rval f32 z))| ≤
      ((1.2342 + 0.378 * σ ^ 2) * σ + 0.251 + 0.0473 * σ ^ 2) * uRel f32 := by
  have hz0 : 0 < rval f32 z := lt_of_lt_of_le (by norm_num) h0
  have hu := uRel32
  generalize hZ : rval f32 z = Z at *
  have hs0 := Real.sqrt_nonneg Z
  have hsq := Real.mul_self_sqrt hz0.le
  have hsσ : Real.sqrt Z ≤ σ := by rw [Real.sqrt_le_left hσ0]; exact hσ
  have hslo : 1 / 2 ^ 15 ≤ Real.sqrt Z := by
    apply Real.le_sqrt_of_sq_le; norm_num at h0 ⊢; exact h0
  have hshi : Real.sqrt Z ≤ 1 / 2 - 1 / 2 ^ 31 := by
    rw [Real.sqrt_le_left (by norm_num)]; norm_num at h1 ⊢; linarith
  obtain ⟨fs, es⟩ := fSqrt_err .single (k := -1) (by decide) hf (by rw [hZ]; exact hz0) (by
    rw [hZ]; refine le_trans hshi ?_
    norm_num [oneExp, bias, f32])
  rw [hZ] at es
  have es' : |rval f32 (fSqrt f32 z) - Real.sqrt Z| ≤ 0.2501 * uRel f32 := by
    refine le_trans es ?_
    rw [hu]; norm_num [oneExp, bias, f32]
  clear es
  have e1 := abs_le.mp es'
  rw [hu] at e1
  have ht := asTF_apx0 (z := z) (v := Z) (by
    have := Apx.exact (F := f32) (P := 1 / 4) hf (by rw [hZ, abs_of_pos hz0]; linarith)
    rwa [hZ] at this)
  have hT0 := asTR_nonneg hz0.le
  have hT1 := asTR_le hz0.le (by linarith)
  have ht' : Apx f32 (asTF z) (asTR Z) _ (0.189 * σ ^ 2) := ⟨ht.fin, ht.err, by rw [abs_of_nonneg hT0]; linarith⟩
  have hσ2 : σ ^ 2 ≤ 1 / 4 := by nlinarith
  obtain ⟨fv, ev⟩ := asin_tail .single ht' fs (by norm_num at hslo e1 ⊢; linarith) (by norm_num at hshi e1; linarith) (by linarith)
    (by rw [hu]; norm_num) hv (.inl rfl)
  refine ⟨fv, ?_⟩
  have ap := asF_apx hs0 (by linarith)
  rw [hsq] at ap
  have au := arcsin_upper hs0 (by linarith)
  have e2 : |(rval f32 (fSqrt f32 z) - Real.sqrt Z) * (1 + asTR Z)| ≤ 0.2501 * uRel f32 * (1 + 0.189 * σ ^ 2) := by
    rw [abs_mul, abs_of_nonneg (show 0 ≤ 1 + asTR Z by linarith)]
    exact mul_le_mul es' (by linarith) (by linarith) (by rw [hu]; norm_num)
  have hr : rval f32 (fSqrt f32 z) ≤ σ + 1 / 2 ^ 25 := by norm_num at e1 ⊢; linarith
  have hr0 : 0 ≤ rval f32 (fSqrt f32 z) := by norm_num at hslo e1; linarith
  rw [show rval f32 v - Real.arcsin (Real.sqrt Z) = (rval f32 v - rval f32 (fSqrt f32 z) * (1 + asTR Z)) +
    (rval f32 (fSqrt f32 z) - Real.sqrt Z) * (1 + asTR Z) + (Real.sqrt Z * (1 + asTR Z) - Real.arcsin (Real.sqrt Z)) by ring]
  refine le_trans (abs_add_three _ _ _) ?_
  refine le_trans (add_le_add (add_le_add ev e2) ap) ?_
  rw [hu]
  generalize rval f32 (fSqrt f32 z) = s at *
  have k1 : Real.arcsin (Real.sqrt Z) ≤ 1.048 * σ := by linarith
  have k2 : (1.0717 + 0.378 * σ ^ 2) * s ≤ (1.0717 + 0.378 * σ ^ 2) * (σ + 1 / 2 ^ 25) := mul_le_mul_of_nonneg_left hr (by positivity)
  nlinarith

theorem asF_lim : isFinite f32 0x38d1b717#32 = true ∧ rval f32 0x38d1b717#32 = 13743895 / 137438953472 := by
  refine ⟨by decide, rval_lit false 113 5355287 (-37) (by decide) (by decide) (by decide) (by decide) (by decide) ?_⟩
  norm_num [f32]

/-- `asin` of float, split by the size of the argument. -/
theorem asF_eq (B : CmpBuild) {a : BitVec 32} (hf : isFinite f32 a = true) : asF B a =
    if rval f32 a < 13743895 / 137438953472 then a
    else if 1 / 2 < rval f32 a then
      fSub f32 0x3fc90fdb#32 (fAdd f32 (fAdd f32 (fMul f32 (asTF (fMul f32 (fSub f32 0x3f800000#32 a) 0x3f000000#32))
        (fSqrt f32 (fMul f32 (fSub f32 0x3f800000#32 a) 0x3f000000#32))) (fSqrt f32 (fMul f32 (fSub f32 0x3f800000#32 a) 0x3f000000#32)))
        (fAdd f32 (fMul f32 (asTF (fMul f32 (fSub f32 0x3f800000#32 a) 0x3f000000#32))
        (fSqrt f32 (fMul f32 (fSub f32 0x3f800000#32 a) 0x3f000000#32))) (fSqrt f32 (fMul f32 (fSub f32 0x3f800000#32 a) 0x3f000000#32))))
    else fAdd f32 (fMul f32 (asTF (fMul f32 a a)) a) a := by
  have h1 := gtL_real B hf asF_half.1
  have h2 := fLt_real hf asF_lim.1
  rw [asF_half.2] at h1
  rw [asF_lim.2] at h2
  unfold asF
  simp only [sArc, sArith, horner, List.foldl, id, h1, h2]
  by_cases c1 : rval f32 a < 13743895 / 137438953472
  · rw [if_pos c1]; simp only [decide_eq_true c1, if_true]
  · rw [if_neg c1]
    by_cases c2 : 1 / 2 < rval f32 a
    · rw [if_pos c2]
      simp only [decide_eq_true c2, decide_eq_false c1, Bool.false_eq_true, if_false, if_true, asTF]
    · rw [if_neg c2]
      simp only [decide_eq_false c2, decide_eq_false c1, Bool.false_eq_true, if_false, asTF]

/-- Arguments up to one half. -/
theorem asF_small_err (B : CmpBuild) {a : BitVec 32} (hf : isFinite f32 a = true) (h0 : 0 ≤ rval f32 a) (h1 : rval f32 a ≤ 1 / 2) :
    WithinUlps f32 2 (Real.arcsin (rval f32 a)) (asF B a) := by
  have hu := uRel32
  have hA := Real.arcsin_nonneg.mpr h0
  have hl := le_arcsin h0 (by linarith)
  rw [asF_eq B hf]
  have ap := asF_apx h0 h1
  by_cases c1 : rval f32 a < 13743895 / 137438953472
  · rw [if_pos c1]
    refine within_of_rel (c := 1) (d := 0) hf (by norm_num) (by norm_num) ?_ (by norm_num)
    rw [abs_of_nonneg hA, hu, abs_le]
    have hT := asTR_le (mul_self_nonneg (rval f32 a)) (by nlinarith)
    rw [hu] at ap
    have hT2 : rval f32 a * asTR (rval f32 a * rval f32 a) ≤ rval f32 a * (0.189 * (1 / 10 ^ 8)) :=
      mul_le_mul_of_nonneg_left (by nlinarith) h0
    have := abs_le.mp ap
    simp only [zero_mul, ite_self, add_zero]
    constructor <;> nlinarith
  · rw [if_neg c1, if_neg (by linarith)]
    have h2 : 1 / 2 ^ 14 ≤ rval f32 a := by norm_num at c1 ⊢; linarith
    have ax : Apx f32 a (rval f32 a) 0 (1 / 2) := Apx.exact hf (by rw [abs_of_nonneg h0]; exact h1)
    have az := ax.mul ax .single (-2) (by decide) (R := 1 / 4) (by rw [abs_mul, abs_of_nonneg h0]; nlinarith) (by norm_num) (d := 1 / 134217728) (by norm_num [f32])
    obtain ⟨fv, ev⟩ := asin_tail .single (asTF_apx az) hf (by norm_num at h2 ⊢; linarith) (by linarith) (by norm_num) (by rw [hu]; norm_num) rfl (.inl rfl)
    refine within_of_rel (c := 1.4) (d := 0) fv (by norm_num) (by norm_num) ?_ (by norm_num)
    simp only [zero_mul, ite_self, add_zero]
    rw [abs_of_nonneg hA]
    have := abs_sub_le (rval f32 (fAdd f32 (fMul f32 (asTF (fMul f32 a a)) a) a)) (rval f32 a * (1 + asTR (rval f32 a * rval f32 a))) (Real.arcsin (rval f32 a))
    rw [hu] at *
    nlinarith

theorem asF_large_err (B : CmpBuild) {a : BitVec 32} (hf : isFinite f32 a = true) (h0 : 1 / 2 < rval f32 a) (h1 : rval f32 a < 1) :
    WithinUlps f32 3 (Real.arcsin (rval f32 a)) (asF B a) := by
  have hu := uRel32
  have hA : 1 / 2 ≤ Real.arcsin (rval f32 a) := le_trans h0.le (le_arcsin (by linarith) h1.le)
  have ga0 := grid_of_le (F := f32) (x := a) (j := -1) (by decide) (by norm_num at h0 ⊢; linarith)
  have ga : OnGrid (-24) (rval f32 a) := ga0
  have s1 := fSub_grid .single (g := -24) atF_one.1 hf (by rw [atF_one.2]; exact grid_one (by decide)) ga (by
    rw [atF_one.2, abs_of_pos (by linarith)]; exact le_trans (show 1 - rval f32 a ≤ 1 by linarith) (by norm_num [f32])) (by decide) (by decide)
  rw [atF_one.2] at s1
  have gz : OnGrid (-25) ((1 - rval f32 a) / 2) := by
    obtain ⟨k, hk⟩ := (grid_one (g := -24) (by decide)).sub ga
    refine ⟨k, ?_⟩
    rw [hk]; norm_num; ring
  have s2 := fMul_repr .single (b := 0x3f000000#32) s1.1 asF_half.1 (gz.repr (F := f32) (by
    rw [abs_of_pos (by linarith)]; exact le_trans (show (1 - rval f32 a) / 2 ≤ 1 / 2 by linarith) (by norm_num [f32])) (by decide) (by decide)) (by rw [s1.2, asF_half.2]; ring)
  have hz0 : 1 / 2 ^ 30 ≤ (1 - rval f32 a) / 2 := by
    obtain ⟨k, hk⟩ := gz
    have : (0 : ℝ) < k := by
      have : (0 : ℝ) < k * 2 ^ (-25 : Int) := by rw [← hk]; linarith
      exact pos_of_mul_pos_left this (by positivity)
    have : (1 : ℝ) ≤ k := by exact_mod_cast this
    rw [hk]; norm_num; linarith
  have hz1 : (1 - rval f32 a) / 2 ≤ 1 / 4 - 1 / 2 ^ 30 := by
    obtain ⟨k, hk⟩ := (OnGrid.finer (g := 0) (f := -24) (v := 1) ⟨1, by norm_num⟩ (by decide)).sub ga
    obtain ⟨l, hl⟩ : OnGrid (-24) (rval f32 a - 1 / 2) := ga.sub ⟨2 ^ 23, by norm_num⟩
    have : (0 : ℝ) < l := by
      have : (0 : ℝ) < l * 2 ^ (-24 : Int) := by rw [← hl]; linarith
      exact pos_of_mul_pos_left this (by positivity)
    have : (1 : ℝ) ≤ l := by exact_mod_cast this
    have : 1 / 2 ^ 24 ≤ rval f32 a - 1 / 2 := by rw [hl]; norm_num; linarith
    norm_num at this ⊢; linarith
  rw [asF_eq B hf, if_neg (by linarith), if_pos h0]
  generalize fMul f32 (fSub f32 0x3f800000#32 a) 0x3f000000#32 = z at *
  have hz := s2.2
  obtain ⟨fv, ev⟩ := asL_err (σ := 1 / 2) s2.1 (by rw [hz]; exact hz0) (by rw [hz]; exact hz1) (by rw [hz]; norm_num; linarith) (by norm_num) (by norm_num) rfl
  generalize hv : fAdd f32 (fMul f32 (asTF z) (fSqrt f32 z)) (fSqrt f32 z) = v at *
  have red := arcsin_half (a := rval f32 a) (by linarith) h1.le
  rw [hz] at ev
  have hs0 := Real.sqrt_nonneg ((1 - rval f32 a) / 2)
  have hslo : 1 / 2 ^ 15 ≤ Real.sqrt ((1 - rval f32 a) / 2) := by
    apply Real.le_sqrt_of_sq_le; norm_num at hz0 ⊢; exact hz0
  have hshi : Real.sqrt ((1 - rval f32 a) / 2) ≤ 1 / 2 := by
    rw [Real.sqrt_le_left (by norm_num)]; norm_num; linarith
  have hlo := le_arcsin hs0 (by linarith)
  have hhi := arcsin_upper hs0 hshi
  have hqq : Real.sqrt ((1 - rval f32 a) / 2) ≤ 0.2857 → (1 - rval f32 a) / 2 ≤ 0.2857 ^ 2 := (Real.sqrt_le_left (by norm_num)).mp
  have ev2 := fun (hs : (1 - rval f32 a) / 2 ≤ 0.2857 ^ 2) => (asL_err (σ := 0.2857) s2.1 (by rw [hz]; exact hz0) (by rw [hz]; exact hz1)
    (by rw [hz]; exact hs) (by norm_num) (by norm_num) hv.symm).2
  rw [hz] at ev2
  generalize Real.sqrt ((1 - rval f32 a) / 2) = q at *
  have ev1 := abs_le.mp ev
  rw [hu] at ev1
  have v0 : 1 / 2 ^ 16 ≤ rval f32 v := by norm_num at ev1 hslo ⊢; linarith
  have v1 : rval f32 v ≤ 0.53 := by norm_num at ev1 ⊢; linarith
  obtain ⟨fd, ed⟩ := fAdd_dbl .single fv (by norm_num at v0 ⊢; linarith) (by norm_num at v1; linarith)
  have hpi := pi2F
  generalize fAdd f32 v v = d at *
  by_cases c : rval f32 0x3fc90fdb#32 - rval f32 d ≤ 1
  · have c' : 13176795 / 8388608 - 2 * rval f32 v ≤ 1 := by rw [← ed, ← atF_c2.2]; exact c
    have gv0 := grid_of_le (F := f32) (x := v) (j := -2) (by decide) (by norm_num at c' ⊢; linarith)
    have gv : OnGrid (-25) (rval f32 v) := gv0
    have gd : OnGrid (-24) (rval f32 d) := by
      obtain ⟨k, hk⟩ := gv
      refine ⟨k, ?_⟩
      rw [ed, hk]; norm_num; ring
    have gc : OnGrid (-24) (rval f32 0x3fc90fdb#32) := ⟨26353590, by rw [atF_c2.2]; norm_num⟩
    obtain ⟨f, e⟩ := fSub_grid .single (g := -24) atF_c2.1 fd gc gd (by
      rw [abs_of_nonneg (by rw [atF_c2.2, ed]; norm_num at v1 ⊢; linarith)]; exact le_trans c (by norm_num [f32])) (by decide) (by decide)
    refine within_of_abs (c := 2.6) f (by rw [abs_of_nonneg (by linarith)]; exact hA) (by norm_num) ?_ (by norm_num)
    rw [e, ed, red, show rval f32 0x3fc90fdb#32 - 2 * rval f32 v - (Real.pi / 2 - 2 * Real.arcsin (q)) =
      (rval f32 0x3fc90fdb#32 - Real.pi / 2) - 2 * (rval f32 v - Real.arcsin (q)) by ring]
    refine le_trans (abs_sub _ _) ?_
    rw [abs_mul, abs_of_pos (by norm_num : (0 : ℝ) < 2)]
    rw [hu] at *
    norm_num at *
    linarith
  · have c' : 1 < 13176795 / 8388608 - 2 * rval f32 v := by rw [← ed, ← atF_c2.2]; exact not_le.mp c
    have hs2 : q ≤ 0.2857 := by norm_num at ev1 c' ⊢; linarith
    have ev := ev2 (hqq hs2)
    obtain ⟨f, e⟩ := fSub_err .single (k := 1) (by decide) atF_c2.1 fd (by
      rw [atF_c2.2, ed, abs_of_nonneg (by linarith)]; norm_num; norm_num at v0; linarith)
    refine within_of_abs (c := 2.97) f (by rw [abs_of_nonneg (by linarith)]; exact hA) (by norm_num) ?_ (by norm_num)
    have e' := abs_sub_le (rval f32 (fSub f32 0x3fc90fdb#32 d)) (rval f32 0x3fc90fdb#32 - rval f32 d) (Real.arcsin (rval f32 a))
    refine le_trans e' ?_
    rw [ed] at e ⊢
    rw [red, show rval f32 0x3fc90fdb#32 - 2 * rval f32 v - (Real.pi / 2 - 2 * Real.arcsin (q)) =
      (rval f32 0x3fc90fdb#32 - Real.pi / 2) - 2 * (rval f32 v - Real.arcsin (q)) by ring]
    have e3 := abs_sub (rval f32 0x3fc90fdb#32 - Real.pi / 2) (2 * (rval f32 v - Real.arcsin (q)))
    rw [abs_mul, abs_of_pos (by norm_num : (0 : ℝ) < 2)] at e3
    have e4 : |rval f32 (fSub f32 0x3fc90fdb#32 d) - (rval f32 0x3fc90fdb#32 - 2 * rval f32 v)| ≤ 1 / 16777216 := by
      refine le_trans e ?_; norm_num [f32]
    rw [hu] at *
    clear e e' ev1 red hz0 hz1
    norm_num at hpi ev ⊢
    linarith

end Vc.Lemma
