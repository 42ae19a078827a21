import Verif.Lemma.AsinBase
import Verif.Lemma.AtanF2

/-!
The series of `asin` of float.
-/

namespace Vc.Lemma
open Vc.Model Vc.Spec

set_option maxRecDepth 10000

theorem asF_k0 : isFinite f32 0x3d2cb352#32 = true ∧ rval f32 0x3d2cb352#32 = 5659049 / 134217728 := by
  refine ⟨by decide, rval_lit false 122 2929490 (-28) (by decide) (by decide) (by decide) (by decide) (by decide) ?_⟩
  norm_num [f32]

theorem asF_k1 : isFinite f32 0x3cc617e3#32 = true ∧ rval f32 0x3cc617e3#32 = 12982243 / 536870912 := by
  refine ⟨by decide, rval_lit false 121 4593635 (-29) (by decide) (by decide) (by decide) (by decide) (by decide) ?_⟩
  norm_num [f32]

theorem asF_k2 : isFinite f32 0x3d3a3ec7#32 = true ∧ rval f32 0x3d3a3ec7#32 = 12205767 / 268435456 := by
  refine ⟨by decide, rval_lit false 122 3817159 (-28) (by decide) (by decide) (by decide) (by decide) (by decide) ?_⟩
  norm_num [f32]

theorem asF_k3 : isFinite f32 0x3d9980f6#32 = true ∧ rval f32 0x3d9980f6#32 = 5030011 / 67108864 := by
  refine ⟨by decide, rval_lit false 123 1671414 (-27) (by decide) (by decide) (by decide) (by decide) (by decide) ?_⟩
  norm_num [f32]

theorem asF_k4 : isFinite f32 0x3e2aaae4#32 = true ∧ rval f32 0x3e2aaae4#32 = 2796217 / 16777216 := by
  refine ⟨by decide, rval_lit false 124 2796260 (-26) (by decide) (by decide) (by decide) (by decide) (by decide) ?_⟩
  norm_num [f32]

theorem asF_half : isFinite f32 0x3f000000#32 = true ∧ rval f32 0x3f000000#32 = 1 / 2 := by
  refine ⟨by decide, rval_lit false 126 0 (-24) (by decide) (by decide) (by decide) (by decide) (by decide) ?_⟩
  norm_num [f32]

/-- The factor of the correction. -/
def asTF (z : BitVec 32) : BitVec 32 :=
  fMul f32 (fAdd f32 (fMul f32 (fAdd f32 (fMul f32 (fAdd f32 (fMul f32 (fAdd f32 (fMul f32 0x3d2cb352#32 z) 0x3cc617e3#32) z) 0x3d3a3ec7#32) z) 0x3d9980f6#32) z) 0x3e2aaae4#32) z

def asFA : List ℚ := [1, 2796217 / 16777216, 5030011 / 67108864, 12205767 / 268435456, 12982243 / 536870912, 5659049 / 134217728]

/-- The factor in real numbers. -/
noncomputable def asTR (z : ℝ) : ℝ := pEval asFA z - 1

theorem asF_cheb : chebBound 0 (1 / 4) (pAdd asFA (pScale (-1) (asinTaylor 0 15))) ≤ 1809 / 200000000000 := by decide +kernel

theorem asF_apx {t : ℝ} (h0 : 0 ≤ t) (h1 : t ≤ 1 / 2) :
    |t * (1 + asTR (t * t)) - Real.arcsin t| ≤ 31 / 200 * uRel f32 * Real.arcsin t := by
  have h := asin_apx (n := 14) (ε := 39 / 250000000000) (T := 1 / 2) (K := 2887 / 2500) asF_cheb (by norm_num) (by push_cast; nlinarith) (by push_cast; nlinarith)
    (by norm_num) (by norm_num) (by norm_num) (by decide +kernel) h0 (by push_cast; linarith)
  have hu : uRel f32 = 1 / 16777216 := uRel32
  unfold asTR
  rw [show 1 + (pEval asFA (t * t) - 1) = pEval asFA (t * t) by ring, hu]
  refine le_trans h (mul_le_mul_of_nonneg_right ?_ (Real.arcsin_nonneg.mpr h0))
  push_cast; norm_num

theorem asTR_eq (z : ℝ) : asTR z = (((((5659049 / 134217728 * z + 12982243 / 536870912) * z + 12205767 / 268435456) * z + 5030011 / 67108864) * z + 2796217 / 16777216) * z) := by
  unfold asTR
  simp only [asFA, pEval]
  push_cast
  ring

theorem asTR_nonneg {z : ℝ} (h : 0 ≤ z) : 0 ≤ asTR z := by rw [asTR_eq]; positivity

theorem asTF_apx {z : BitVec 32} {v : ℝ} (az : Apx f32 z v (1 / 134217728) (1 / 4)) :
    Apx f32 (asTF z) (asTR v) (197 / 2000 * uRel f32) (23599 / 500000) := by
  have kk0 : Apx f32 _ _ 0 (10541 / 250000) := Apx.const asF_k0 (by norm_num [abs_le])
  have kk1 : Apx f32 _ _ 0 (12091 / 500000) := Apx.const asF_k1 (by norm_num [abs_le])
  have kk2 : Apx f32 _ _ 0 (45471 / 1000000) := Apx.const asF_k2 (by norm_num [abs_le])
  have kk3 : Apx f32 _ _ 0 (37477 / 500000) := Apx.const asF_k3 (by norm_num [abs_le])
  have kk4 : Apx f32 _ _ 0 (41667 / 250000) := Apx.const asF_k4 (by norm_num [abs_le])
  have a0 := kk0.mul az .single (-6) (by decide) (R := 10541 / 1000000) (by rw [abs_mul]; exact le_trans (mul_le_mul kk0.bnd az.bnd (abs_nonneg _) (by norm_num)) (by norm_num)) (by norm_num) (d := 131 / 167772160000) (by norm_num [f32])
  have a1 := a0.add kk1 .single (-4) (by decide) (R := 34723 / 1000000) (le_trans (abs_add_le _ _) (le_trans (add_le_add a0.bnd kk1.bnd) (by norm_num))) (by norm_num) (d := 111 / 41943040000) (by norm_num [f32])
  have a2 := a1.mul az .single (-6) (by decide) (R := 8681 / 1000000) (by rw [abs_mul]; exact le_trans (mul_le_mul a1.bnd az.bnd (abs_nonneg _) (by norm_num)) (by norm_num)) (by norm_num) (d := 233 / 167772160000) (by norm_num [f32])
  have a3 := a2.add kk2 .single (-4) (by decide) (R := 6769 / 125000) (le_trans (abs_add_le _ _) (le_trans (add_le_add a2.bnd kk2.bnd) (by norm_num))) (by norm_num) (d := 273 / 83886080000) (by norm_num [f32])
  have a4 := a3.mul az .single (-6) (by decide) (R := 6769 / 500000) (by rw [abs_mul]; exact le_trans (mul_le_mul a3.bnd az.bnd (abs_nonneg _) (by norm_num)) (by norm_num)) (by norm_num) (d := 283 / 167772160000) (by norm_num [f32])
  have a5 := a4.add kk3 .single (-3) (by decide) (R := 22123 / 250000) (le_trans (abs_add_le _ _) (le_trans (add_le_add a4.bnd kk3.bnd) (by norm_num))) (by norm_num) (d := 227 / 41943040000) (by norm_num [f32])
  have a6 := a5.mul az .single (-5) (by decide) (R := 22123 / 1000000) (by rw [abs_mul]; exact le_trans (mul_le_mul a5.bnd az.bnd (abs_nonneg _) (by norm_num)) (by norm_num)) (by norm_num) (d := 247 / 83886080000) (by norm_num [f32])
  have a7 := a6.add kk4 .single (-2) (by decide) (R := 188791 / 1000000) (le_trans (abs_add_le _ _) (le_trans (add_le_add a6.bnd kk4.bnd) (by norm_num))) (by norm_num) (d := 109 / 10485760000) (by norm_num [f32])
  have a8 := a7.mul az .single (-4) (by decide) (R := 23599 / 500000) (by rw [abs_mul]; exact le_trans (mul_le_mul a7.bnd az.bnd (abs_nonneg _) (by norm_num)) (by norm_num)) (by norm_num) (d := 197 / 33554432000) (by norm_num [f32])
  rw [asTR_eq, uRel32]
  exact a8.weaken (by norm_num) (by norm_num)

theorem asTF_apx0 {z : BitVec 32} {v : ℝ} (az : Apx f32 z v (0) (1 / 4)) :
    Apx f32 (asTF z) (asTR v) (179 / 2500 * uRel f32) (23599 / 500000) := by
  have kk0 : Apx f32 _ _ 0 (10541 / 250000) := Apx.const asF_k0 (by norm_num [abs_le])
  have kk1 : Apx f32 _ _ 0 (12091 / 500000) := Apx.const asF_k1 (by norm_num [abs_le])
  have kk2 : Apx f32 _ _ 0 (45471 / 1000000) := Apx.const asF_k2 (by norm_num [abs_le])
  have kk3 : Apx f32 _ _ 0 (37477 / 500000) := Apx.const asF_k3 (by norm_num [abs_le])
  have kk4 : Apx f32 _ _ 0 (41667 / 250000) := Apx.const asF_k4 (by norm_num [abs_le])
  have a0 := kk0.mul az .single (-6) (by decide) (R := 10541 / 1000000) (by rw [abs_mul]; exact le_trans (mul_le_mul kk0.bnd az.bnd (abs_nonneg _) (by norm_num)) (by norm_num)) (by norm_num) (d := 79 / 167772160000) (by norm_num [f32])
  have a1 := a0.add kk1 .single (-4) (by decide) (R := 34723 / 1000000) (le_trans (abs_add_le _ _) (le_trans (add_le_add a0.bnd kk1.bnd) (by norm_num))) (by norm_num) (d := 49 / 20971520000) (by norm_num [f32])
  have a2 := a1.mul az .single (-6) (by decide) (R := 8681 / 1000000) (by rw [abs_mul]; exact le_trans (mul_le_mul a1.bnd az.bnd (abs_nonneg _) (by norm_num)) (by norm_num)) (by norm_num) (d := 177 / 167772160000) (by norm_num [f32])
  have a3 := a2.add kk2 .single (-4) (by decide) (R := 6769 / 125000) (le_trans (abs_add_le _ _) (le_trans (add_le_add a2.bnd kk2.bnd) (by norm_num))) (by norm_num) (d := 49 / 16777216000) (by norm_num [f32])
  have a4 := a3.mul az .single (-6) (by decide) (R := 6769 / 500000) (by rw [abs_mul]; exact le_trans (mul_le_mul a3.bnd az.bnd (abs_nonneg _) (by norm_num)) (by norm_num)) (by norm_num) (d := 201 / 167772160000) (by norm_num [f32])
  have a5 := a4.add kk3 .single (-3) (by decide) (R := 22123 / 250000) (le_trans (abs_add_le _ _) (le_trans (add_le_add a4.bnd kk3.bnd) (by norm_num))) (by norm_num) (d := 413 / 83886080000) (by norm_num [f32])
  have a6 := a5.mul az .single (-5) (by decide) (R := 22123 / 1000000) (by rw [abs_mul]; exact le_trans (mul_le_mul a5.bnd az.bnd (abs_nonneg _) (by norm_num)) (by norm_num)) (by norm_num) (d := 363 / 167772160000) (by norm_num [f32])
  have a7 := a6.add kk4 .single (-2) (by decide) (R := 188791 / 1000000) (le_trans (abs_add_le _ _) (le_trans (add_le_add a6.bnd kk4.bnd) (by norm_num))) (by norm_num) (d := 1613 / 167772160000) (by norm_num [f32])
  have a8 := a7.mul az .single (-4) (by decide) (R := 23599 / 500000) (by rw [abs_mul]; exact le_trans (mul_le_mul a7.bnd az.bnd (abs_nonneg _) (by norm_num)) (by norm_num)) (by norm_num) (d := 179 / 41943040000) (by norm_num [f32])
  rw [asTR_eq, uRel32]
  exact a8.weaken (by norm_num) (by norm_num)

end Vc.Lemma
