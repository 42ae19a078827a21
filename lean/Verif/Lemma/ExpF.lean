import Verif.Lemma.FloatReal2
import Verif.Lemma.ExpReal
import Verif.Model.Exp

/-!
The numbers computed by `exp` of float: the argument reduction and the polynomial.
-/

namespace Vc.Lemma
open Vc.Model Vc.Spec

namespace Apx
variable {F : Fmt} {w : Nat} {s t : BitVec w} {p q b c d P Q R : ℝ}

/-- A constant. -/
theorem const (h : isFinite F t = true ∧ rval F t = q) (hQ : |q| ≤ Q) : Apx F t q 0 Q :=
  ⟨h.1, by rw [h.2]; simp, hQ⟩

/-- One step of the Horner scheme, for an exactly known argument. -/
theorem horner {x : BitVec w} {r ρ : ℝ} (hs : Apx F s p b P) (hx : Apx F x r 0 ρ) (hc : Apx F t q 0 Q) (h : FmtW F w)
    (k1 k2 : Int) (hk1 : KRange F k1) (hk2 : KRange F k2) (h1 : (P + b) * ρ ≤ 2 ^ k1) (hR : P * ρ + Q ≤ R)
    (h2 : R + (b * ρ + 2 ^ (k1 - F.m - 2)) ≤ 2 ^ k2)
    (hd : b * ρ + 2 ^ (k1 - F.m - 2) + 2 ^ (k2 - F.m - 2) ≤ d) :
    Apx F (fAdd F (fMul F s x) t) (p * r + q) d R := by
  have hpr : |p * r| ≤ P * ρ := by
    rw [abs_mul]
    exact mul_le_mul hs.bnd hx.bnd (abs_nonneg _) (le_trans (abs_nonneg _) hs.bnd)
  have hm := hs.mul hx h k1 hk1 hpr (by rw [add_zero]; exact h1) (d := b * ρ + 2 ^ (k1 - F.m - 2)) (by
    rw [mul_zero, mul_zero, add_zero, add_zero])
  refine hm.add hc h k2 hk2 ?_ (by rw [add_zero]; exact h2) (by rw [add_zero]; exact hd)
  exact le_trans (abs_add_le _ _) (le_trans (add_le_add hpr hc.bnd) hR)

end Apx

theorem expF_k0 : isFinite f32 0x39506967#32 = true ∧ rval f32 0x39506967#32 = 13658471 / 68719476736 := by
  refine ⟨by decide, rval_lit false 114 5269863 (-36) (by decide) (by decide) (by decide) (by decide) (by decide) ?_⟩
  norm_num [f32]

theorem expF_k1 : isFinite f32 0x3ab743ce#32 = true ∧ rval f32 0x3ab743ce#32 = 6005223 / 4294967296 := by
  refine ⟨by decide, rval_lit false 117 3621838 (-33) (by decide) (by decide) (by decide) (by decide) (by decide) ?_⟩
  norm_num [f32]

theorem expF_k2 : isFinite f32 0x3c088908#32 = true ∧ rval f32 0x3c088908#32 = 1118497 / 134217728 := by
  refine ⟨by decide, rval_lit false 120 559368 (-30) (by decide) (by decide) (by decide) (by decide) (by decide) ?_⟩
  norm_num [f32]

theorem expF_k3 : isFinite f32 0x3d2aa9c1#32 = true ∧ rval f32 0x3d2aa9c1#32 = 11184577 / 268435456 := by
  refine ⟨by decide, rval_lit false 122 2795969 (-28) (by decide) (by decide) (by decide) (by decide) (by decide) ?_⟩
  norm_num [f32]

theorem expF_k4 : isFinite f32 0x3e2aaaaa#32 = true ∧ rval f32 0x3e2aaaaa#32 = 5592405 / 33554432 := by
  refine ⟨by decide, rval_lit false 124 2796202 (-26) (by decide) (by decide) (by decide) (by decide) (by decide) ?_⟩
  norm_num [f32]

theorem expF_half : isFinite f32 0x3f000000#32 = true ∧ rval f32 0x3f000000#32 = 1 / 2 := by
  refine ⟨by decide, rval_lit false 126 0 (-24) (by decide) (by decide) (by decide) (by decide) (by decide) ?_⟩
  norm_num [f32]

theorem expF_one : isFinite f32 0x3f800000#32 = true ∧ rval f32 0x3f800000#32 = 1 := by
  refine ⟨by decide, rval_lit false 127 0 (-23) (by decide) (by decide) (by decide) (by decide) (by decide) ?_⟩
  norm_num [f32]

theorem expF_log2e : isFinite f32 0x3fb8aa3b#32 = true ∧ rval f32 0x3fb8aa3b#32 = 12102203 / 8388608 := by
  refine ⟨by decide, rval_lit false 127 3713595 (-23) (by decide) (by decide) (by decide) (by decide) (by decide) ?_⟩
  norm_num [f32]

theorem expF_large : isFinite f32 0x3f318000#32 = true ∧ rval f32 0x3f318000#32 = 355 / 512 := by
  refine ⟨by decide, rval_lit false 126 3244032 (-24) (by decide) (by decide) (by decide) (by decide) (by decide) ?_⟩
  norm_num [f32]

theorem expF_small : isFinite f32 0xb95e8083#32 = true ∧ rval f32 0xb95e8083#32 = -(14581891 / 68719476736) := by
  refine ⟨by decide, rval_lit true 114 6193283 (-36) (by decide) (by decide) (by decide) (by decide) (by decide) ?_⟩
  norm_num [f32]

theorem expF_maxlog : isFinite f32 0x42b17217#32 = true ∧ rval f32 0x42b17217#32 = 11629079 / 131072 := by
  refine ⟨by decide, rval_lit false 133 3240471 (-17) (by decide) (by decide) (by decide) (by decide) (by decide) ?_⟩
  norm_num [f32]

theorem expF_minlog : isFinite f32 0xc2b00f33#32 = true ∧ rval f32 0xc2b00f33#32 = -(11538227 / 131072) := by
  refine ⟨by decide, rval_lit true 133 3149619 (-17) (by decide) (by decide) (by decide) (by decide) (by decide) ?_⟩
  norm_num [f32]


/-- The polynomial of one lane. -/
def expPolyL (x : BitVec 32) : BitVec 32 :=
  let z := fAdd f32 (fMul f32 0x39506967#32 x) 0x3ab743ce#32
  let z := fAdd f32 (fMul f32 z x) 0x3c088908#32
  let z := fAdd f32 (fMul f32 z x) 0x3d2aa9c1#32
  let z := fAdd f32 (fMul f32 z x) 0x3e2aaaaa#32
  let z := fAdd f32 (fMul f32 z x) 0x3f000000#32
  let z := fMul f32 z (fMul f32 x x)
  let z := fAdd f32 z x
  fAdd f32 z 0x3f800000#32

/-- The polynomial of real numbers. -/
noncomputable def expPolyR (r : ℝ) : ℝ :=
  (((((13658471 / 68719476736 * r + 6005223 / 4294967296) * r + 1118497 / 134217728) * r + 11184577 / 268435456) * r +
    5592405 / 33554432) * r + 1 / 2) * (r * r) + r + 1

theorem expPolyL_apx {x : BitVec 32} (hx : isFinite f32 x = true) (hr : |rval f32 x| ≤ 0.3466) :
    isFinite f32 (expPolyL x) = true ∧ |rval f32 (expPolyL x) - expPolyR (rval f32 x)| ≤ 0.0000000853 := by
  have hw := FmtW.single
  have ax : Apx f32 x (rval f32 x) 0 0.3466 := Apx.exact hx hr
  have a0 : Apx f32 _ _ 0 0.0002 := Apx.const expF_k0 (by norm_num)
  have a1 : Apx f32 _ _ 0 0.0014 := Apx.const expF_k1 (by norm_num)
  have a2 : Apx f32 _ _ 0 0.0084 := Apx.const expF_k2 (by norm_num)
  have a3 : Apx f32 _ _ 0 0.0417 := Apx.const expF_k3 (by norm_num)
  have a4 : Apx f32 _ _ 0 0.1667 := Apx.const expF_k4 (by norm_num)
  have a5 : Apx f32 _ _ 0 0.5 := Apx.const expF_half (by norm_num)
  have a6 : Apx f32 _ _ 0 1 := Apx.const expF_one (by norm_num)
  have h0 := a0.horner ax a1 hw (-13) (-9) (by decide) (by decide) (d := 0.0000000001) (R := 0.0015)
    (by norm_num) (by norm_num) (by norm_num [f32]) (by norm_num [f32])
  have h1 := h0.horner ax a2 hw (-10) (-6) (by decide) (by decide) (d := 0.0000000006) (R := 0.009)
    (by norm_num) (by norm_num) (by norm_num [f32]) (by norm_num [f32])
  have h2 := h1.horner ax a3 hw (-8) (-4) (by decide) (by decide) (d := 0.0000000023) (R := 0.045)
    (by norm_num) (by norm_num) (by norm_num [f32]) (by norm_num [f32])
  have h3 := h2.horner ax a4 hw (-5) (-2) (by decide) (by decide) (d := 0.0000000093) (R := 0.183)
    (by norm_num) (by norm_num) (by norm_num [f32]) (by norm_num [f32])
  have h4 := h3.horner ax a5 hw (-3) 0 (by decide) (by decide) (d := 0.000000037) (R := 0.57)
    (by norm_num) (by norm_num) (by norm_num [f32]) (by norm_num [f32])
  have hxx : |rval f32 x * rval f32 x| ≤ 0.121 := by
    rw [abs_mul]; nlinarith [abs_nonneg (rval f32 x)]
  have h5 := ax.mul ax hw (-3) (by decide) hxx (by norm_num) (d := 0.0000000038) (by norm_num [f32])
  have h6 := h4.mul h5 hw (-3) (by decide) (R := 0.07) (by
    rw [abs_mul]; exact le_trans (mul_le_mul h4.bnd hxx (abs_nonneg _) (by norm_num)) (by norm_num)) (by norm_num)
    (d := 0.0000000105) (by norm_num [f32])
  have h7 := h6.add ax hw (-1) (by decide) (R := 0.4166) (le_trans (abs_add_le _ _) (le_trans (add_le_add h6.bnd hr) (by norm_num)))
    (by norm_num) (d := 0.0000000255) (by norm_num [f32])
  have h8 := h7.add a6 hw 1 (by decide) (R := 1.42) (le_trans (abs_add_le _ _) (le_trans (add_le_add h7.bnd a6.bnd) (by norm_num)))
    (by norm_num) (d := 0.0000000853) (by norm_num [f32])
  exact ⟨h8.fin, h8.err⟩

theorem mono_bound {r ρ : ℝ} (h : |r| ≤ ρ) (d : ℝ) (k : Nat) : |d * r ^ k| ≤ |d| * ρ ^ k := by
  rw [abs_mul, abs_pow]
  exact mul_le_mul_of_nonneg_left (pow_le_pow_left₀ (abs_nonneg _) h k) (abs_nonneg _)

theorem expPolyR_near {r : ℝ} (h : |r| ≤ 0.3466) : |expPolyR r - Real.exp r| ≤ 0.000000036 := by
  have hb := Real.exp_bound (x := r) (n := 9) (by linarith) (by norm_num)
  have hp : |r| ^ 9 ≤ 0.3466 ^ 9 := pow_le_pow_left₀ (abs_nonneg _) h 9
  have hb2 : |r| ^ 9 * (((9 : Nat).succ : ℝ) / (((9 : Nat).factorial : ℝ) * ((9 : Nat) : ℝ))) ≤ 0.0000000003 := by
    refine le_trans (mul_le_mul_of_nonneg_right hp (by positivity)) ?_
    norm_num [Nat.factorial]
  have hd : expPolyR r - ∑ m ∈ Finset.range 9, r ^ m / (m.factorial : ℝ) =
      (-(1 / 100663296)) * r ^ 3 + (-(701 / 805306368)) * r ^ 4 + (239 / 2013265920) * r ^ 5 +
      (1799579 / 193273528320) * r ^ 6 + (7451069 / 21646635171840) * r ^ 7 + (-(1 / 40320)) * r ^ 8 := by
    unfold expPolyR
    simp only [Finset.sum_range_succ, Finset.sum_range_zero, Nat.factorial]
    push_cast
    ring
  have ht : |expPolyR r - ∑ m ∈ Finset.range 9, r ^ m / (m.factorial : ℝ)| ≤ 0.0000000355 := by
    rw [hd]
    refine le_trans (abs_add_le _ _) (le_trans (add_le_add (le_trans (abs_add_le _ _) (add_le_add (le_trans (abs_add_le _ _)
      (add_le_add (le_trans (abs_add_le _ _) (add_le_add (le_trans (abs_add_le _ _) (add_le_add (mono_bound h _ _)
      (mono_bound h _ _))) (mono_bound h _ _))) (mono_bound h _ _))) (mono_bound h _ _))) (mono_bound h _ _)) ?_)
    norm_num [abs_of_pos, abs_of_neg]
  have h3 := abs_sub_le (expPolyR r) (∑ m ∈ Finset.range 9, r ^ m / (m.factorial : ℝ)) (Real.exp r)
  rw [abs_sub_comm] at hb
  linarith

/-- The reduced argument of one lane. -/
def expRedL (x z : BitVec 32) : BitVec 32 :=
  fSub f32 (fSub f32 x (fMul f32 z 0x3f318000#32)) (fMul f32 z 0xb95e8083#32)

/-- The argument of `floor` of one lane. -/
def expArgL (x : BitVec 32) : BitVec 32 := fAdd f32 (fMul f32 0x3fb8aa3b#32 x) 0x3f000000#32

theorem expArgL_apx {x : BitVec 32} (hx : isFinite f32 x = true) (hr : |rval f32 x| ≤ 88.8) :
    isFinite f32 (expArgL x) = true ∧
    |rval f32 (expArgL x) - (12102203 / 8388608 * rval f32 x + 1 / 2)| ≤ 0.0000153 := by
  have hw := FmtW.single
  have ax : Apx f32 x (rval f32 x) 0 88.8 := Apx.exact hx hr
  have a0 : Apx f32 _ _ 0 1.4427 := Apx.const expF_log2e (by norm_num)
  have a1 : Apx f32 _ _ 0 0.5 := Apx.const expF_half (by norm_num)
  have h0 := a0.horner ax a1 hw 8 8 (by decide) (by decide) (d := 0.0000153) (R := 128.62)
    (by norm_num) (by norm_num) (by norm_num [f32]) (by norm_num [f32])
  exact ⟨h0.fin, h0.err⟩

/-- The integer `z`. -/
theorem expInt {X y : ℝ} {n : Int} (hX : |X| ≤ 88.8) (hy : |y - (12102203 / 8388608 * X + 1 / 2)| ≤ 0.0000153)
    (h1 : (n : ℝ) ≤ y) (h2 : y < n + 1) : |n| ≤ 128 ∧ |X - n * Real.log 2| ≤ 0.346589 := by
  have hl1 := log2_gt
  have hl2 := log2_lt
  rw [abs_le] at hX hy
  obtain ⟨x1, x2⟩ := hX
  obtain ⟨y1, y2⟩ := hy
  constructor
  · have a1 : (n : ℝ) < 129 := by norm_num at *; linarith
    have a2 : (-129 : ℝ) < n := by norm_num at *; linarith
    have a1' : n < 129 := by exact_mod_cast a1
    have a2' : -129 < n := by exact_mod_cast a2
    rw [abs_le]; omega
  · have e : X - n * Real.log 2 = X * (1 - 12102203 / 8388608 * Real.log 2) + Real.log 2 * (12102203 / 8388608 * X - n) := by ring
    have b1 : |X * (1 - 12102203 / 8388608 * Real.log 2)| ≤ 88.8 * 0.0000000134 := by
      rw [abs_mul]
      refine mul_le_mul (abs_le.mpr ⟨x1, x2⟩) ?_ (abs_nonneg _) (by norm_num)
      rw [abs_le]; constructor <;> norm_num at * <;> linarith
    have b2 : |Real.log 2 * (12102203 / 8388608 * X - n)| ≤ 0.69314719 * 0.5000153 := by
      rw [abs_mul]
      refine mul_le_mul ?_ ?_ (abs_nonneg _) (by norm_num)
      · rw [abs_of_pos (by linarith)]; norm_num at *; linarith
      · rw [abs_le]; constructor <;> norm_num at * <;> linarith
    rw [e]
    refine le_trans (abs_add_le _ _) (le_trans (add_le_add b1 b2) (by norm_num))

theorem expRedL_apx {x z : BitVec 32} {n : Int} (hx : isFinite f32 x = true) (hX : |rval f32 x| ≤ 88.8)
    (hz : isFinite f32 z = true) (hzn : rval f32 z = n) (hn : |n| ≤ 128)
    (hr : |rval f32 x - n * Real.log 2| ≤ 0.346589) :
    isFinite f32 (expRedL x z) = true ∧
    |rval f32 (expRedL x z) - (rval f32 x - n * Real.log 2)| ≤ 0.000000032 := by
  have hw := FmtW.single
  have hl1 := log2_gt
  have hl2 := log2_lt
  have hnr : |(n : ℝ)| ≤ 128 := by exact_mod_cast hn
  have ax : Apx f32 x (rval f32 x) 0 88.8 := Apx.exact hx hX
  have az : Apx f32 z (n : ℝ) 0 128 := by rw [← hzn] at hnr ⊢; exact Apx.exact hz hnr
  have hm := fMul_repr (v := n * (355 / 512)) hw hz expF_large.1
    ⟨n * 355, -9, by push_cast; norm_num; ring, by
      rw [abs_mul]
      have : |n| * |(355 : Int)| ≤ 128 * 355 := mul_le_mul hn (le_refl _) (by decide) (by decide)
      exact le_trans this (by decide), by decide, by decide⟩ (by rw [hzn, expF_large.2])
  have a1 : Apx f32 (fMul f32 z 0x3f318000#32) (n * (355 / 512)) 0 89 := by
    refine ⟨hm.1, by rw [hm.2]; simp, ?_⟩
    rw [abs_mul]
    exact le_trans (mul_le_mul_of_nonneg_right hnr (abs_nonneg _)) (by norm_num [abs_of_pos])
  have hδ1 : |Real.log 2 - 355 / 512| ≤ 0.000213 := by rw [abs_le]; constructor <;> norm_num at * <;> linarith
  have e1 : rval f32 x - n * (355 / 512) = (rval f32 x - n * Real.log 2) + n * (Real.log 2 - 355 / 512) := by ring
  have b1 : |rval f32 x - n * (355 / 512)| ≤ 0.374 := by
    rw [e1]
    refine le_trans (abs_add_le _ _) (le_trans (add_le_add hr ?_) (show (0.346589 : ℝ) + 128 * 0.000213 ≤ _ by norm_num))
    rw [abs_mul]
    exact mul_le_mul hnr hδ1 (abs_nonneg _) (by norm_num)
  have h1 := ax.sub a1 hw (-1) (by decide) b1 (by norm_num) (d := 0.00000001491) (by norm_num [f32])
  have a2 : Apx f32 _ _ 0 0.0002122 := Apx.const expF_small (by norm_num [abs_of_neg])
  have h2 := az.mul a2 hw (-5) (by decide) (R := 0.0272) (by
    rw [abs_mul]; exact le_trans (mul_le_mul hnr a2.bnd (abs_nonneg _) (by norm_num)) (by norm_num)) (by norm_num)
    (d := 0.00000000094) (by norm_num [f32])
  have e2 : rval f32 x - n * (355 / 512) - n * -(14581891 / 68719476736) =
      (rval f32 x - n * Real.log 2) + n * (Real.log 2 - 355 / 512 + 14581891 / 68719476736) := by ring
  have hδ2 : |Real.log 2 - 355 / 512 + 14581891 / 68719476736| ≤ 0.000000000009 := by
    rw [abs_le]; constructor <;> norm_num at * <;> linarith
  have b2 : |(n : ℝ) * (Real.log 2 - 355 / 512 + 14581891 / 68719476736)| ≤ 0.0000000012 := by
    rw [abs_mul]
    exact le_trans (mul_le_mul hnr hδ2 (abs_nonneg _) (by norm_num)) (by norm_num)
  have h3 := h1.sub h2 hw (-1) (by decide) (R := 0.35) (by
    rw [e2]; exact le_trans (abs_add_le _ _) (le_trans (add_le_add hr b2) (by norm_num))) (by norm_num)
    (d := 0.0000000308) (by norm_num [f32])
  refine ⟨h3.fin, ?_⟩
  have h4 := h3.err
  rw [e2] at h4
  have := abs_sub_le (rval f32 (expRedL x z)) (rval f32 x - n * Real.log 2 + n * (Real.log 2 - 355 / 512 + 14581891 / 68719476736))
    (rval f32 x - n * Real.log 2)
  rw [add_sub_cancel_left] at this
  refine le_trans this (le_trans (add_le_add h4 b2) (by norm_num))

theorem exp_range {r : ℝ} (h : |r| ≤ 0.346589) : 0.70705 ≤ Real.exp r ∧ Real.exp r ≤ 1.41435 := by
  have hl1 := log2_gt
  have hl2 := log2_lt
  have key : ∀ t : ℝ, -0.346589 ≤ t → 0.70705 ≤ Real.exp t := by
    intro t ht
    have e : Real.exp t ^ 2 = Real.exp (2 * t + Real.log 2) * (1 / 2) := by
      rw [Real.exp_add, Real.exp_log (by norm_num), ← Real.exp_nat_mul]; push_cast; ring
    have h1 := Real.add_one_le_exp (2 * t + Real.log 2)
    have h2 : (0.99996 : ℝ) ≤ Real.exp (2 * t + Real.log 2) := by norm_num at ht hl1 ⊢; linarith
    have hp := Real.exp_pos t
    by_contra hc
    push Not at hc
    have : Real.exp t ^ 2 < 0.70705 ^ 2 := pow_lt_pow_left₀ hc hp.le (by norm_num)
    norm_num at this h2
    linarith
  rw [abs_le] at h
  refine ⟨key r h.1, ?_⟩
  have h3 := key (-r) (by linarith [h.2])
  rw [Real.exp_neg] at h3
  have hp := Real.exp_pos r
  rw [le_inv_comm₀ (by norm_num) hp] at h3
  exact le_trans h3 (by norm_num)

/-- What `ldexp` scales is close to the exponential of the reduced argument. -/
theorem expF_mantissa {x z : BitVec 32} {n : Int} (hx : isFinite f32 x = true) (hX : |rval f32 x| ≤ 88.8)
    (hz : isFinite f32 z = true) (hzn : rval f32 z = n) (h1 : (n : ℝ) ≤ rval f32 (expArgL x))
    (h2 : rval f32 (expArgL x) < n + 1) :
    |n| ≤ 128 ∧ |rval f32 x - n * Real.log 2| ≤ 0.346589 ∧ isFinite f32 (expPolyL (expRedL x z)) = true ∧
    |rval f32 (expPolyL (expRedL x z)) - Real.exp (rval f32 x - n * Real.log 2)| ≤
      1 / 2 ^ 22 * Real.exp (rval f32 x - n * Real.log 2) := by
  obtain ⟨hn, hr⟩ := expInt hX (expArgL_apx hx hX).2 h1 h2
  obtain ⟨hf, he⟩ := expRedL_apx hx hX hz hzn hn hr
  refine ⟨hn, hr, ?_⟩
  generalize rval f32 x - n * Real.log 2 = r at *
  have hρ : |rval f32 (expRedL x z)| ≤ 0.3466 := by
    have := abs_add_le (rval f32 (expRedL x z) - r) r
    rw [sub_add_cancel] at this
    exact le_trans this (le_trans (add_le_add he hr) (by norm_num))
  obtain ⟨pf, pe⟩ := expPolyL_apx hf hρ
  refine ⟨pf, ?_⟩
  have q1 := expPolyR_near hρ
  have q2 := exp_close he (by norm_num)
  have q3 := (exp_range hr).1
  have := abs_sub_le (rval f32 (expPolyL (expRedL x z))) (expPolyR (rval f32 (expRedL x z))) (Real.exp r)
  have h2 := abs_sub_le (expPolyR (rval f32 (expRedL x z))) (Real.exp (rval f32 (expRedL x z))) (Real.exp r)
  rw [show (1 : ℝ) / 2 ^ 22 = 0.0000002384185791015625 by norm_num]
  norm_num at q1 q2 q3 pe ⊢
  linarith

end Vc.Lemma
