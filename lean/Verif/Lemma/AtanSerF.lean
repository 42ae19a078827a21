import Verif.Lemma.AtanBase

/-!
The series of `atan` of float.
-/

namespace Vc.Lemma
open Vc.Model Vc.Spec

set_option maxRecDepth 10000

theorem atF_k0 : isFinite f32 0x3da4f0d1#32 = true ∧ rval f32 0x3da4f0d1#32 = 10809553 / 134217728 := by
  refine ⟨by decide, rval_lit false 123 2420945 (-27) (by decide) (by decide) (by decide) (by decide) (by decide) ?_⟩
  norm_num [f32]

theorem atF_k1 : isFinite f32 0x3e0e1b85#32 = true ∧ rval f32 0x3e0e1b85#32 = 9313157 / 67108864 := by
  refine ⟨by decide, rval_lit false 124 924549 (-26) (by decide) (by decide) (by decide) (by decide) (by decide) ?_⟩
  norm_num [f32]

theorem atF_k2 : isFinite f32 0x3e4c925f#32 = true ∧ rval f32 0x3e4c925f#32 = 13406815 / 67108864 := by
  refine ⟨by decide, rval_lit false 124 5018207 (-26) (by decide) (by decide) (by decide) (by decide) (by decide) ?_⟩
  norm_num [f32]

theorem atF_k3 : isFinite f32 0x3eaaaa2a#32 = true ∧ rval f32 0x3eaaaa2a#32 = 5592341 / 16777216 := by
  refine ⟨by decide, rval_lit false 125 2796074 (-25) (by decide) (by decide) (by decide) (by decide) (by decide) ?_⟩
  norm_num [f32]

theorem atF_one : isFinite f32 0x3f800000#32 = true ∧ rval f32 0x3f800000#32 = 1 := by
  refine ⟨by decide, rval_lit false 127 0 (-23) (by decide) (by decide) (by decide) (by decide) (by decide) ?_⟩
  norm_num [f32]

theorem atF_mone : isFinite f32 0xbf800000#32 = true ∧ rval f32 0xbf800000#32 = -(1) := by
  refine ⟨by decide, rval_lit true 127 0 (-23) (by decide) (by decide) (by decide) (by decide) (by decide) ?_⟩
  norm_num [f32]

theorem atF_c4 : isFinite f32 0x3f490fdb#32 = true ∧ rval f32 0x3f490fdb#32 = 13176795 / 16777216 := by
  refine ⟨by decide, rval_lit false 126 4788187 (-24) (by decide) (by decide) (by decide) (by decide) (by decide) ?_⟩
  norm_num [f32]

theorem atF_c2 : isFinite f32 0x3fc90fdb#32 = true ∧ rval f32 0x3fc90fdb#32 = 13176795 / 8388608 := by
  refine ⟨by decide, rval_lit false 127 4788187 (-23) (by decide) (by decide) (by decide) (by decide) (by decide) ?_⟩
  norm_num [f32]

theorem atF_lo : isFinite f32 0x3ed413cd#32 = true ∧ rval f32 0x3ed413cd#32 = 13898701 / 33554432 := by
  refine ⟨by decide, rval_lit false 125 5510093 (-25) (by decide) (by decide) (by decide) (by decide) (by decide) ?_⟩
  norm_num [f32]

theorem atF_hi : isFinite f32 0x401a827a#32 = true ∧ rval f32 0x401a827a#32 = 5062973 / 2097152 := by
  refine ⟨by decide, rval_lit false 128 1737338 (-22) (by decide) (by decide) (by decide) (by decide) (by decide) ?_⟩
  norm_num [f32]

/-- What is added to the argument. -/
def atWF (t : BitVec 32) : BitVec 32 :=
  fMul f32 (fMul f32 (fSub f32 (fMul f32 (fAdd f32 (fMul f32 (fSub f32 (fMul f32 0x3da4f0d1#32 (fMul f32 t t)) 0x3e0e1b85#32) (fMul f32 t t)) 0x3e4c925f#32) (fMul f32 t t)) 0x3eaaaa2a#32) (fMul f32 t t)) t

def atFA : List ℚ := [1, -(5592341 / 16777216), 13406815 / 67108864, -(9313157 / 67108864), 10809553 / 134217728]

def atFDiff : List ℚ := pAdd atFA (pScale (-1) (atanTaylor 0 14))

theorem atF_cheb : chebBound 0 (17164449 / 100000000) atFDiff ≤ 181627 / 5000000000000 := by decide +kernel

/-- The correction in real numbers. -/
noncomputable def atWR (t : ℝ) : ℝ := t * (pEval atFA (t * t) - 1)

theorem sq_le_of {t R : ℝ} (ht : |t| ≤ R) : t * t ≤ R ^ 2 := by
  have := pow_le_pow_left₀ (abs_nonneg t) ht 2
  rw [sq_abs] at this
  linarith [sq t]

theorem atF_apx {t : ℝ} (ht : |t| ≤ 4143 / 10000) : |t + atWR t - Real.arctan t| ≤ 61 / 100 * uRel f32 * |t| := by
  have hs := sq_le_of ht
  have hu : uRel f32 = 1 / 16777216 := by unfold uRel; norm_num [f32]
  have hd : |pEval atFDiff (t * t)| ≤ 181627 / 5000000000000 := by
    refine le_trans (cheb_bound (lo := 0) (hi := 17164449 / 100000000) (by norm_num) (by push_cast; nlinarith) (by push_cast; norm_num at hs ⊢; linarith)) ?_
    refine le_trans (Rat.cast_le.mpr atF_cheb) ?_
    push_cast; norm_num
  have e1 : pEval atFA (t * t) = pEval atFDiff (t * t) + pEval (atanTaylor 0 14) (t * t) := by
    rw [atFDiff, pEval_add, pEval_scale]; push_cast; ring
  have h2 := arctan_taylor (t := t) (lt_of_le_of_lt ht (by norm_num)) 14
  have h3 : (t ^ 2) ^ 14 ≤ (17164449 / 100000000) ^ 14 := pow_le_pow_left₀ (sq_nonneg t) (by norm_num at hs ⊢; linarith [sq t]) _
  have h4 : (t ^ 2) ^ 14 / (1 - t ^ 2) ≤ 1163 / 50000000000000 := by
    have := div_le_div₀ (by positivity) h3 (show (0 : ℝ) < 1 - 17164449 / 100000000 by norm_num) (show 1 - 17164449 / 100000000 ≤ 1 - t ^ 2 by norm_num at hs ⊢; linarith [sq t])
    exact le_trans this (by norm_num)
  have h5 := mul_le_mul_of_nonneg_left h4 (abs_nonneg t)
  rw [← mul_div_assoc] at h5
  unfold atWR
  rw [e1, show t + t * (pEval atFDiff (t * t) + pEval (atanTaylor 0 14) (t * t) - 1) - Real.arctan t =
    t * pEval atFDiff (t * t) + (t * pEval (atanTaylor 0 14) (t * t) - Real.arctan t) by ring]
  refine le_trans (abs_add_le _ _) ?_
  rw [abs_mul, hu]
  have h6 := mul_le_mul_of_nonneg_left hd (abs_nonneg t)
  have h0 := abs_nonneg t
  linarith

theorem atF_apxG {lo hi : ℚ} {c A B C : ℚ} {t : ℝ} (hc : chebBound lo hi atFDiff ≤ c) (hlh : lo < hi) (hh : hi ≤ 17164449 / 100000000)
    (h1 : (A : ℝ) ≤ |t|) (h2 : |t| ≤ (B : ℝ)) (hAB : lo = A ^ 2 ∧ hi = B ^ 2 ∧ 0 ≤ A ∧ 0 ≤ c) (hC : (c + 1163 / 50000000000000) * B ≤ C * (1 / 16777216)) : |t + atWR t - Real.arctan t| ≤ C * uRel f32 := by
  obtain ⟨e1, e2, hA, hc0⟩ := hAB
  have hu : uRel f32 = 1 / 16777216 := by unfold uRel; norm_num [f32]
  have hhi : (hi : ℝ) ≤ 17164449 / 100000000 := by
    have := (Rat.cast_le (K := ℝ)).mpr hh
    push_cast at this
    exact this
  have hA' : (0 : ℝ) ≤ A := by exact_mod_cast hA
  have hs : t * t ≤ hi := by
    rw [e2]; push_cast
    exact sq_le_of h2
  have hs' : (lo : ℝ) ≤ t * t := by
    rw [e1]; push_cast
    have := pow_le_pow_left₀ hA' h1 2
    rw [sq_abs] at this
    linarith [sq t]
  have hd : |pEval atFDiff (t * t)| ≤ c := le_trans (cheb_bound hlh hs' hs) (Rat.cast_le.mpr hc)
  have e1 : pEval atFA (t * t) = pEval atFDiff (t * t) + pEval (atanTaylor 0 14) (t * t) := by
    rw [atFDiff, pEval_add, pEval_scale]; push_cast; ring
  have ht1 : |t| < 1 := by
    by_contra hcon
    push Not at hcon
    have := mul_le_mul hcon hcon (by norm_num) (abs_nonneg t)
    rw [abs_mul_abs_self] at this
    linarith
  have h2' := arctan_taylor (t := t) ht1 14
  have h3 : (t ^ 2) ^ 14 ≤ (17164449 / 100000000) ^ 14 := pow_le_pow_left₀ (sq_nonneg t) (by linarith [sq t]) _
  have h4 : (t ^ 2) ^ 14 / (1 - t ^ 2) ≤ 1163 / 50000000000000 := by
    have := div_le_div₀ (by positivity) h3 (show (0 : ℝ) < 1 - 17164449 / 100000000 by norm_num) (show 1 - 17164449 / 100000000 ≤ 1 - t ^ 2 by linarith [sq t])
    exact le_trans this (by norm_num)
  have h5 := mul_le_mul_of_nonneg_left h4 (abs_nonneg t)
  rw [← mul_div_assoc] at h5
  have hC' : ((c : ℝ) + 1163 / 50000000000000) * B ≤ C * (1 / 16777216) := by
    have := (Rat.cast_le (K := ℝ)).mpr hC
    push_cast at this
    exact this
  have hc0' : (0 : ℝ) ≤ c := by exact_mod_cast hc0
  unfold atWR
  rw [e1, show t + t * (pEval atFDiff (t * t) + pEval (atanTaylor 0 14) (t * t) - 1) - Real.arctan t =
    t * pEval atFDiff (t * t) + (t * pEval (atanTaylor 0 14) (t * t) - Real.arctan t) by ring]
  refine le_trans (abs_add_le _ _) ?_
  rw [abs_mul, hu]
  have h6 := mul_le_mul_of_nonneg_left hd (abs_nonneg t)
  have h0 := abs_nonneg t
  have h7 := mul_le_mul_of_nonneg_left h2 (show (0 : ℝ) ≤ c + 1163 / 50000000000000 by positivity)
  linarith

theorem atF_cheb0 : chebBound (49 / 625) (64 / 625) atFDiff ≤ 38929 / 2000000000000 := by decide +kernel

theorem atF_apx0 {t : ℝ} (h1 : 7 / 25 ≤ |t|) (h2 : |t| ≤ 8 / 25) : |t + atWR t - Real.arctan t| ≤ 1047 / 10000 * uRel f32 := by
  have := atF_apxG (A := 7 / 25) (B := 8 / 25) (C := 1047 / 10000) (t := t) atF_cheb0 (by norm_num) (by norm_num) (by push_cast; exact h1) (by push_cast; exact h2) (by norm_num) (by norm_num)
  push_cast at this
  exact this

theorem atF_cheb1 : chebBound (64 / 625) (49 / 400) atFDiff ≤ 51649 / 2500000000000 := by decide +kernel

theorem atF_apx1 {t : ℝ} (h1 : 8 / 25 ≤ |t|) (h2 : |t| ≤ 7 / 20) : |t + atWR t - Real.arctan t| ≤ 243 / 2000 * uRel f32 := by
  have := atF_apxG (A := 8 / 25) (B := 7 / 20) (C := 243 / 2000) (t := t) atF_cheb1 (by norm_num) (by norm_num) (by push_cast; exact h1) (by push_cast; exact h2) (by norm_num) (by norm_num)
  push_cast at this
  exact this

theorem atF_cheb2 : chebBound (49 / 400) (361 / 2500) atFDiff ≤ 149 / 9765625000 := by decide +kernel

theorem atF_apx2 {t : ℝ} (h1 : 7 / 20 ≤ |t|) (h2 : |t| ≤ 19 / 50) : |t + atWR t - Real.arctan t| ≤ 39 / 400 * uRel f32 := by
  have := atF_apxG (A := 7 / 20) (B := 19 / 50) (C := 39 / 400) (t := t) atF_cheb2 (by norm_num) (by norm_num) (by push_cast; exact h1) (by push_cast; exact h2) (by norm_num) (by norm_num)
  push_cast at this
  exact this

theorem atF_cheb3 : chebBound (361 / 2500) (1521 / 10000) atFDiff ≤ 163 / 7812500000 := by decide +kernel

theorem atF_apx3 {t : ℝ} (h1 : 19 / 50 ≤ |t|) (h2 : |t| ≤ 39 / 100) : |t + atWR t - Real.arctan t| ≤ 1367 / 10000 * uRel f32 := by
  have := atF_apxG (A := 19 / 50) (B := 39 / 100) (C := 1367 / 10000) (t := t) atF_cheb3 (by norm_num) (by norm_num) (by push_cast; exact h1) (by push_cast; exact h2) (by norm_num) (by norm_num)
  push_cast at this
  exact this

theorem atF_cheb4 : chebBound (1521 / 10000) (4 / 25) atFDiff ≤ 6759 / 312500000000 := by decide +kernel

theorem atF_apx4 {t : ℝ} (h1 : 39 / 100 ≤ |t|) (h2 : |t| ≤ 2 / 5) : |t + atWR t - Real.arctan t| ≤ 727 / 5000 * uRel f32 := by
  have := atF_apxG (A := 39 / 100) (B := 2 / 5) (C := 727 / 5000) (t := t) atF_cheb4 (by norm_num) (by norm_num) (by push_cast; exact h1) (by push_cast; exact h2) (by norm_num) (by norm_num)
  push_cast at this
  exact this

theorem atF_cheb5 : chebBound (4 / 25) (2601 / 15625) atFDiff ≤ 19159 / 1000000000000 := by decide +kernel

theorem atF_apx5 {t : ℝ} (h1 : 2 / 5 ≤ |t|) (h2 : |t| ≤ 51 / 125) : |t + atWR t - Real.arctan t| ≤ 657 / 5000 * uRel f32 := by
  have := atF_apxG (A := 2 / 5) (B := 51 / 125) (C := 657 / 5000) (t := t) atF_cheb5 (by norm_num) (by norm_num) (by push_cast; exact h1) (by push_cast; exact h2) (by norm_num) (by norm_num)
  push_cast at this
  exact this

theorem atF_cheb6 : chebBound (2601 / 15625) (17164449 / 100000000) atFDiff ≤ 23471 / 1250000000000 := by decide +kernel

theorem atF_apx6 {t : ℝ} (h1 : 51 / 125 ≤ |t|) (h2 : |t| ≤ 4143 / 10000) : |t + atWR t - Real.arctan t| ≤ 1307 / 10000 * uRel f32 := by
  have := atF_apxG (A := 51 / 125) (B := 4143 / 10000) (C := 1307 / 10000) (t := t) atF_cheb6 (by norm_num) (by norm_num) (by push_cast; exact h1) (by push_cast; exact h2) (by norm_num) (by norm_num)
  push_cast at this
  exact this

/-- The values of the polynomial. -/
theorem atF_poly {z : ℝ} (h0 : 0 ≤ z) (h1 : z ≤ 3433 / 20000) :
    |10809553 / 134217728 * z - 9313157 / 67108864| ≤ 0.13878 ∧ |(10809553 / 134217728 * z - 9313157 / 67108864) * z + 13406815 / 67108864| ≤ 0.19978 ∧
    |((10809553 / 134217728 * z - 9313157 / 67108864) * z + 13406815 / 67108864) * z - 5592341 / 16777216| ≤ 0.33333 := by
  have a1 : -0.13878 ≤ 10809553 / 134217728 * z - 9313157 / 67108864 := by linarith
  have a2 : 10809553 / 134217728 * z - 9313157 / 67108864 ≤ -0.12 := by linarith
  generalize 10809553 / 134217728 * z - 9313157 / 67108864 = p1 at *
  have b1 : p1 * z ≤ 0 := mul_nonpos_of_nonpos_of_nonneg (by linarith) h0
  have b2 : -(0.13878 * 0.17165) ≤ p1 * z := by
    have := mul_le_mul (show -p1 ≤ 0.13878 by linarith) h1 h0 (by norm_num)
    norm_num at this ⊢
    linarith
  have c1 : 0.17 ≤ p1 * z + 13406815 / 67108864 := by norm_num at b2 ⊢; linarith
  have c2 : p1 * z + 13406815 / 67108864 ≤ 0.19978 := by norm_num; linarith
  generalize p1 * z + 13406815 / 67108864 = p2 at *
  have d1 : 0 ≤ p2 * z := mul_nonneg (by linarith) h0
  have d2 : p2 * z ≤ 0.19978 * 0.17165 := mul_le_mul c2 (by norm_num at h1 ⊢; linarith) h0 (by norm_num)
  refine ⟨?_, ?_, ?_⟩ <;> rw [abs_le] <;> constructor <;> norm_num at * <;> linarith

theorem atWF_abs {t : BitVec 32} (hf : isFinite f32 t = true) (hle : |rval f32 t| ≤ 4143 / 10000) :
    isFinite f32 (atWF t) = true ∧ |rval f32 (atWF t) - atWR (rval f32 t)| ≤ 699 / 10000 * uRel f32 ∧ |atWR (rval f32 t)| ≤ 0.024 := by
  have hu : uRel f32 = 1 / 16777216 := by unfold uRel; norm_num [f32]
  have hs := sq_le_of hle
  have q := atF_poly (mul_self_nonneg (rval f32 t)) (le_trans hs (by norm_num))
  obtain ⟨q1, q2, q3⟩ := q
  have ax : Apx f32 t (rval f32 t) 0 (4143 / 10000) := Apx.exact hf hle
  have kk0 : Apx f32 _ _ 0 (4027 / 50000) := Apx.const atF_k0 (by norm_num [abs_le])
  have kk1 : Apx f32 _ _ 0 (6939 / 50000) := Apx.const atF_k1 (by norm_num [abs_le])
  have kk2 : Apx f32 _ _ 0 (9989 / 50000) := Apx.const atF_k2 (by norm_num [abs_le])
  have kk3 : Apx f32 _ _ 0 (33333 / 100000) := Apx.const atF_k3 (by norm_num [abs_le])
  have a0 := ax.mul ax .single (-2) (by decide) (R := 34329 / 200000) (by rw [abs_mul]; exact le_trans (mul_le_mul ax.bnd ax.bnd (abs_nonneg _) (by norm_num)) (by norm_num)) (by norm_num) (d := 1 / 134217728) (by norm_num [f32])
  have a1 := kk0.mul a0 .single (-6) (by decide) (R := 553 / 40000) (by rw [abs_mul]; exact le_trans (mul_le_mul kk0.bnd a0.bnd (abs_nonneg _) (by norm_num)) (by norm_num)) (by norm_num) (d := 179 / 167772160000) (by norm_num [f32])
  have a2 := a1.sub kk1 .single (-2) (by decide) (R := 6939 / 50000) (by norm_num at q1 ⊢; exact q1) (by norm_num) (d := 1429 / 167772160000) (by norm_num [f32])
  have a3 := a2.mul a0 .single (-5) (by decide) (R := 23821 / 1000000) (by rw [abs_mul]; exact le_trans (mul_le_mul a2.bnd a0.bnd (abs_nonneg _) (by norm_num)) (by norm_num)) (by norm_num) (d := 1151 / 335544320000) (by norm_num [f32])
  have a4 := a3.add kk2 .single (-2) (by decide) (R := 9989 / 50000) (by norm_num at q2 ⊢; exact q2) (by norm_num) (d := 3651 / 335544320000) (by norm_num [f32])
  have a5 := a4.mul a0 .single (-4) (by decide) (R := 8573 / 250000) (by rw [abs_mul]; exact le_trans (mul_le_mul a4.bnd a0.bnd (abs_nonneg _) (by norm_num)) (by norm_num)) (by norm_num) (d := 219 / 41943040000) (by norm_num [f32])
  have a6 := a5.sub kk3 .single (-1) (by decide) (R := 33333 / 100000) (by norm_num at q3 ⊢; exact q3) (by norm_num) (d := 211 / 10485760000) (by norm_num [f32])
  have a7 := a6.mul a0 .single (-4) (by decide) (R := 11443 / 200000) (by rw [abs_mul]; exact le_trans (mul_le_mul a6.bnd a0.bnd (abs_nonneg _) (by norm_num)) (by norm_num)) (by norm_num) (d := 1309 / 167772160000) (by norm_num [f32])
  have a8 := a7.mul ax .single (-5) (by decide) (R := 4741 / 200000) (by rw [abs_mul]; exact le_trans (mul_le_mul a7.bnd ax.bnd (abs_nonneg _) (by norm_num)) (by norm_num)) (by norm_num) (d := 699 / 167772160000) (by norm_num [f32])
  have e : (((10809553 / 134217728 * (rval f32 t * rval f32 t) - 9313157 / 67108864) * (rval f32 t * rval f32 t) + 13406815 / 67108864) * (rval f32 t * rval f32 t) - 5592341 / 16777216) * (rval f32 t * rval f32 t) * rval f32 t =
      atWR (rval f32 t) := by
    unfold atWR
    simp only [atFA, pEval]
    push_cast
    ring
  rw [e] at a8
  refine ⟨a8.fin, le_trans a8.err (by rw [hu]; norm_num), le_trans a8.bnd (by norm_num)⟩

/-- The relative error of the series. -/
theorem atF_rel {t : BitVec 32} (hf : isFinite f32 t = true) (hle : |rval f32 t| ≤ 4143 / 10000) :
    isFinite f32 (fAdd f32 (atWF t) t) = true ∧
    |rval f32 (fAdd f32 (atWF t) t) - Real.arctan (rval f32 t)| ≤ 1917 / 1000 * uRel f32 * |rval f32 t| := by
  have s1 := scale_one (F := f32) .single
  have hu : uRel f32 = 1 / 16777216 := by unfold uRel; norm_num [f32]
  have hs := sq_le_of hle
  obtain ⟨q1, q2, q3⟩ := atF_poly (mul_self_nonneg (rval f32 t)) (le_trans hs (by norm_num))
  have hx : RApx f32 t 1 (rval f32 t) (0 * uRel f32) (4143 / 10000) := (RApx.self hf (by rw [mul_one]; exact hle)).exactU
  have m0 := hx.mul1U hx .single (by norm_num) (by norm_num) (by norm_num) (by norm_num)
    (R := 3433 / 20000) (by norm_num) (by norm_num) (δ := 1717 / 10000) (by norm_num)
  have k1 := (RApx.const atF_k0 (Q := 4027 / 50000) (by norm_num [abs_le])).exactU
  have m2 := k1.mul1U m0 .single (by norm_num) (by norm_num) (by norm_num) (by norm_num)
    (R := 1383 / 100000) (by norm_num) (by norm_num) (δ := 277 / 10000) (by norm_num)
  have k3 := (RApx.const atF_k1 (Q := 6939 / 50000) (by norm_num [abs_le])).exactU
  have m4 := m2.subU k3 .single s1 (by norm_num) (R := 6939 / 50000) (by norm_num at q1 ⊢; exact q1) (by norm_num) (δ := 333 / 2000) (by norm_num)
  have m5 := m4.mul1U m0 .single (by norm_num) (by norm_num) (by norm_num) (by norm_num)
    (R := 2383 / 100000) (by norm_num) (by norm_num) (δ := 763 / 10000) (by norm_num)
  have k6 := (RApx.const atF_k2 (Q := 9989 / 50000) (by norm_num [abs_le])).exactU
  have m7 := m5.addU k6 .single s1 (by norm_num) (R := 9989 / 50000) (by norm_num at q2 ⊢; exact q2) (by norm_num) (δ := 2761 / 10000) (by norm_num)
  have m8 := m7.mul1U m0 .single (by norm_num) (by norm_num) (by norm_num) (by norm_num)
    (R := 343 / 10000) (by norm_num) (by norm_num) (δ := 29 / 250) (by norm_num)
  have k9 := (RApx.const atF_k3 (Q := 33333 / 100000) (by norm_num [abs_le])).exactU
  have m10 := m8.subU k9 .single s1 (by norm_num) (R := 33333 / 100000) (by norm_num at q3 ⊢; exact q3) (by norm_num) (δ := 2247 / 5000) (by norm_num)
  have m11 := m10.mul1U m0 .single (by norm_num) (by norm_num) (by norm_num) (by norm_num)
    (R := 2861 / 50000) (by norm_num) (by norm_num) (δ := 479 / 2500) (by norm_num)
  unfold atWF
  rcases scale_or_tiny (F := f32) (le_trans hle (by norm_num)) with hσ | htiny
  · have hs : RApx f32 t |rval f32 t| (rval f32 t) (0 * uRel f32) 1 := (RApx.self hf (by rw [one_mul])).exactU
    have m12 := m11.mulU hs .single (by norm_num) (by rw [one_mul]; exact hσ) (by norm_num) (by norm_num) (by norm_num) (by norm_num)
      (R := 2861 / 50000) (by norm_num) (by norm_num) (δ := 2489 / 10000) (by norm_num)
    rw [one_mul] at m12
    have m13 := m12.addUB hs .single hσ (by norm_num) (R := 52861 / 50000) (by norm_num) (by norm_num) (δ := 6531 / 5000) (by norm_num)
    refine ⟨m13.fin, ?_⟩
    have e := m13.err
    have hp := atF_apx hle
    have h0 := abs_nonneg (rval f32 t)
    generalize rval f32 t = T at *
    unfold atWR at hp
    simp only [atFA, pEval] at hp
    push_cast at hp
    refine le_trans (abs_sub_le _ _ _) (le_trans (add_le_add e (le_trans (le_of_eq ?_) hp)) ?_)
    · congr 1; ring
    · rw [← add_mul, hu]
      exact mul_le_mul_of_nonneg_right (by norm_num) h0
  · have z2 := fMul_vanish .single hf hf (tiny_sq .single htiny)
    have z3 := fMul_repr .single m10.fin z2.1 (repr_zero .single) (by rw [z2.2, mul_zero])
    have z4 := fMul_zero' .single z3.1 hf z3.2
    have z5 := fAdd_zero' .single z4.1 hf z4.2
    refine ⟨z5.1, ?_⟩
    rw [z5.2, hu]
    exact tiny_atan .single htiny (by rw [hu]; norm_num)

end Vc.Lemma
