import Verif.Lemma.LogRed
import Verif.Lemma.Cheb
import Verif.Lemma.ExpReal

/-!
The series of `log`, once the polynomial is known to be close.
-/

namespace Vc.Lemma
open Vc.Model Vc.Spec

/-- The coefficients of `log (1 + t) / t`. -/
def logTaylor : Nat → Nat → List ℚ
  | _, 0 => []
  | k, n + 1 => (if k % 2 = 0 then 1 else -1) / (k + 1) :: logTaylor (k + 1) n

theorem logTaylor_sum (k n : Nat) (t : ℝ) :
    ∑ i ∈ Finset.range n, (-t) ^ (k + i) / ((k + i : Nat) + 1) = t ^ k * pEval (logTaylor k n) t := by
  induction n generalizing k with
  | zero => simp [logTaylor, pEval]
  | succ n ih =>
    rw [Finset.sum_range_succ', logTaylor, pEval]
    have e : ∑ i ∈ Finset.range n, (-t) ^ (k + (i + 1)) / ((k + (i + 1) : Nat) + 1) =
        ∑ i ∈ Finset.range n, (-t) ^ (k + 1 + i) / ((k + 1 + i : Nat) + 1) :=
      Finset.sum_congr rfl (fun i _ => by rw [show k + (i + 1) = k + 1 + i by omega])
    rw [e, ih (k + 1), Nat.add_zero]
    have hs : (((if k % 2 = 0 then 1 else -1 : ℚ) / (k + 1) : ℚ) : ℝ) = (-1) ^ k / ((k : ℝ) + 1) := by
      by_cases h : k % 2 = 0
      · rw [if_pos h, Even.neg_one_pow (Nat.even_iff.mpr h)]; push_cast; ring
      · rw [if_neg h, Odd.neg_one_pow (Nat.odd_iff.mpr (by omega))]; push_cast; ring
    rw [hs, show -t = -1 * t by ring, mul_pow]
    ring_nf

theorem log_taylor {t : ℝ} (ht : |t| < 1) (n : Nat) :
    |t * pEval (logTaylor 0 n) t - Real.log (1 + t)| ≤ |t| ^ (n + 1) / (1 - |t|) := by
  have h := Real.abs_log_sub_add_sum_range_le (x := -t) (by rwa [abs_neg]) n
  rw [abs_neg, sub_neg_eq_add] at h
  have hs := logTaylor_sum 0 n t
  simp only [Nat.zero_add, pow_zero, one_mul] at hs
  have e : ∑ i ∈ Finset.range n, (-t) ^ (i + 1) / ((i : ℝ) + 1) = -t * pEval (logTaylor 0 n) t := by
    rw [← hs, Finset.mul_sum]
    refine Finset.sum_congr rfl (fun i _ => ?_)
    ring
  rw [e] at h
  rw [← abs_neg]
  convert h using 2
  ring

theorem log_pos_lo {t : ℝ} (h0 : 0 ≤ t) (h1 : t ≤ 0.4142136) : 0.8284 * |t| ≤ |Real.log (1 + t)| := by
  have h := Real.le_log_one_add_of_nonneg h0
  rw [abs_of_nonneg h0, abs_of_nonneg (Real.log_nonneg (by linarith))]
  refine le_trans ?_ h
  rw [le_div_iff₀ (by linarith)]
  nlinarith

theorem log_pos_hi {t : ℝ} (h0 : 0 ≤ t) : |Real.log (1 + t)| ≤ 1 * |t| := by
  rw [abs_of_nonneg h0, abs_of_nonneg (Real.log_nonneg (by linarith))]
  have := Real.log_le_sub_one_of_pos (show 0 < 1 + t by linarith)
  linarith

theorem log_neg_lo {t : ℝ} (h0 : t ≤ 0) (h1 : -0.2928933 ≤ t) : 1 * |t| ≤ |Real.log (1 + t)| := by
  have := Real.log_le_sub_one_of_pos (show 0 < 1 + t by linarith)
  rw [abs_of_nonpos h0, abs_of_nonpos (by linarith)]
  linarith

theorem log_neg_hi {t : ℝ} (h0 : t ≤ 0) (h1 : -0.2928933 ≤ t) : |Real.log (1 + t)| ≤ 1.41422 * |t| := by
  have h := Real.log_le_sub_one_of_pos (show 0 < 1 + t by linarith)
  have h2 := Real.one_sub_inv_le_log_of_pos (show 0 < 1 + t by linarith)
  rw [abs_of_nonpos h0, abs_of_nonpos (by linarith)]
  have h3 : (1 + t)⁻¹ ≤ 1 - 1.41422 * t := by
    rw [inv_le_iff_one_le_mul₀ (by linarith)]
    nlinarith
  linarith

theorem log_abs {t : ℝ} (h1 : -0.2928933 ≤ t) (h2 : t ≤ 0.4142136) : |Real.log (1 + t)| ≤ 0.3466 := by
  have e : (2 : ℝ) * Real.log (1 + t) = Real.log ((1 + t) ^ 2 / 2) + Real.log 2 := by
    rw [Real.log_div (by nlinarith) (by norm_num), Real.log_pow]; push_cast; ring
  have e' : (2 : ℝ) * Real.log (1 + t) = Real.log ((1 + t) ^ 2 * 2) - Real.log 2 := by
    rw [Real.log_mul (by nlinarith) (by norm_num), Real.log_pow]; push_cast; ring
  have a := Real.log_le_sub_one_of_pos (show 0 < (1 + t) ^ 2 / 2 by nlinarith)
  have b := Real.one_sub_inv_le_log_of_pos (show 0 < (1 + t) ^ 2 * 2 by nlinarith)
  have c : ((1 + t) ^ 2 * 2)⁻¹ ≤ 1.000001 := by
    rw [inv_le_iff_one_le_mul₀ (by nlinarith)]
    nlinarith
  have d := log2_gt
  have d' := log2_lt
  have a' : (1 + t) ^ 2 / 2 ≤ 1.000001 := by nlinarith
  rw [abs_le]
  constructor
  · norm_num at *; linarith
  · norm_num at *; linarith

/-- What the ends of the series have in common: `t` is the argument, `y` and `q` the last two terms. -/
structure LogPre (F : Fmt) {w : Nat} (x y q : BitVec w) (G β B θ Q κ ρ lam mu : ℝ) : Prop where
  fin : isFinite F x = true
  le : |rval F x| ≤ ρ
  hy : RApx F y |rval F x| G (β * uRel F) B
  hq : RApx F q |rval F x| (rval F x * rval F x * (1 / 2)) (θ * uRel F) Q
  apx : |rval F x + (G - rval F x * rval F x * (1 / 2)) - Real.log (1 + rval F x)| ≤ κ * uRel F * |rval F x|
  lo : lam * |rval F x| ≤ |Real.log (1 + rval F x)|
  hi : |Real.log (1 + rval F x)| ≤ mu * |rval F x|
  abs : |Real.log (1 + rval F x)| ≤ 0.3466
  grid : ∃ k : Int, rval F x = k * 2 ^ (-((F.m : Int) + 1))

/-- The constants. -/
structure LogC (F : Fmt) {w : Nat} (K : LogConst w) (ls : ℝ) : Prop where
  fw : FmtW F w
  half : isFinite F K.half = true ∧ rval F K.half = 1 / 2
  large : isFinite F K.ln2Large = true ∧ rval F K.ln2Large = 355 / 512
  small : isFinite F K.ln2Small = true ∧ rval F K.ln2Small = ls
  lsb : |ls| ≤ 0.0002122
  ln2 : |355 / 512 + ls - Real.log 2| * oneExp F ≤ 0.2 * uRel F
  log10e : isFinite F K.log10e = true ∧ |rval F K.log10e * Real.log 10 - 1| ≤ uRel F
  log2e : isFinite F K.log2e = true ∧ |rval F K.log2e * Real.log 2 - 1| ≤ uRel F

section
variable {F : Fmt} {w : Nat} {x b : BitVec w} {σ X δ P κ L Λ ω : ℝ}

/-- The last addition. -/
theorem final_add (h : FmtW F w) (hσ : Scale F σ) (hx : RApx F x σ X (δ * uRel F) P) (hb : isFinite F b = true)
    (hL : |X + rval F b - L| ≤ κ * uRel F * σ) (hΛ : Λ * σ ≤ |L|) (h0 : σ = 0 → L = 0) (hδ : 0 ≤ δ + κ)
    (hLm : |L| ≤ 100000) (hδm : δ + κ ≤ 1000) (hω1 : 1 ≤ ω)
    (hω : (δ + κ) * (1 + 1 / 2 ^ 24) + 1 / 2 ^ 20 ≤ (ω - 1) * Λ) :
    isFinite F (fAdd F x b) = true ∧ |rval F (fAdd F x b) - L| ≤ ω * uRel F * |L| := by
  have hu := uRel_pos F
  have hu2 := RApx.small_u h
  have hs0 := hσ.nonneg
  have hs1 := hσ.le_one
  have hS : |rval F x + rval F b - L| ≤ (δ + κ) * uRel F * σ := by
    have e : rval F x + rval F b - L = (rval F x - X) + (X + rval F b - L) := by ring
    rw [e]
    refine le_trans (abs_add_le _ _) ?_
    have := hx.err
    linarith
  have hS1 : (δ + κ) * uRel F * σ ≤ 1000 := by
    have h1 : (δ + κ) * uRel F ≤ 1000 * 1 := mul_le_mul hδm (by norm_num at hu2 ⊢; linarith) hu.le (by norm_num)
    calc (δ + κ) * uRel F * σ ≤ 1000 * 1 * 1 := mul_le_mul h1 hs1 hs0 (by norm_num)
      _ = 1000 := by norm_num
  have hSa : |rval F x + rval F b| ≤ |L| + (δ + κ) * uRel F * σ := by
    have e : rval F x + rval F b = L + (rval F x + rval F b - L) := by ring
    rw [e]
    exact le_trans (abs_add_le _ _) (by linarith)
  obtain ⟨hf, hr⟩ := fAdd_rel h (k := 20) (by cases h <;> decide) hx.fin hb (by norm_num; linarith)
  refine ⟨hf, ?_⟩
  unfold RelErr at hr
  rcases hσ.big with h00 | hbig
  · have hL0 := h0 h00
    subst h00
    subst hL0
    rw [mul_zero, sub_zero] at hS
    have hz : rval F x + rval F b = 0 := abs_nonpos_iff.mp hS
    rw [hz] at hr
    simp only [abs_zero, mul_zero, if_true, add_zero, sub_zero] at hr ⊢
    exact hr
  · have hr' : |rval F (fAdd F x b) - (rval F x + rval F b)| ≤ uRel F * |rval F x + rval F b| + uRel F / 2 ^ 20 * σ := by
      refine le_trans hr ?_
      split
      · have : 0 ≤ uRel F / 2 ^ 20 * σ := by positivity
        linarith
      · linarith
    have e : rval F (fAdd F x b) - L = (rval F (fAdd F x b) - (rval F x + rval F b)) + (rval F x + rval F b - L) := by ring
    rw [e]
    refine le_trans (abs_add_le _ _) ?_
    have h1 := mul_le_mul_of_nonneg_left hSa hu.le
    have h2 : uRel F * ((δ + κ) * uRel F * σ) ≤ 1 / 2 ^ 24 * ((δ + κ) * uRel F * σ) :=
      mul_le_mul_of_nonneg_right hu2 (by positivity)
    have h3 := mul_le_mul_of_nonneg_right hω (mul_nonneg hu.le hs0)
    have h4 := mul_le_mul_of_nonneg_left hΛ (mul_nonneg (show 0 ≤ ω - 1 by linarith) hu.le)
    linarith

/-- The multiplication by a constant close to `1 / l`. -/
theorem final_mul {r c : BitVec w} {l ω' : ℝ} (h : FmtW F w) (hr : isFinite F r = true)
    (he : |rval F r - L| ≤ ω * uRel F * |L|) (hc : isFinite F c = true) (hcl : |rval F c * l - 1| ≤ uRel F)
    (hl : 1 ≤ l) (hl4 : l ≤ 4) (hbig : L = 0 ∨ uAbs F ≤ uRel F / 2 ^ 12 * |L|) (hLm : |L| ≤ 100000)
    (hω0 : 0 ≤ ω) (hω9 : ω ≤ 100) (hω : ω + 2 + 1 / 512 ≤ ω') :
    isFinite F (fMul F r c) = true ∧ |rval F (fMul F r c) - L / l| ≤ ω' * uRel F * |L / l| := by
  have hu := uRel_pos F
  have hu2 := RApx.small_u h
  have hl0 : 0 < l := by linarith
  set u := uRel F with hudef
  set C := rval F c * l with hC
  have hcv : rval F c = C / l := by rw [hC]; field_simp
  set D := rval F r - L with hD
  have hrv : rval F r = L + D := by rw [hD]; ring
  set V := L / l with hV
  have hLV : L = V * l := by rw [hV]; field_simp
  have hVa : |L| = |V| * l := by rw [hLV, abs_mul, abs_of_pos hl0]
  have hV0 := abs_nonneg V
  have hD' : |D / l| ≤ ω * u * |V| := by
    rw [abs_div, abs_of_pos hl0, div_le_iff₀ hl0]
    rw [hVa] at he; linarith
  have hprod : rval F r * rval F c = (V + D / l) * (1 + (C - 1)) := by
    rw [hrv, hcv, hV]; field_simp; ring
  have hω9' : ω * u ≤ 100 * (1 / 2 ^ 24) := mul_le_mul hω9 hu2 hu.le (by norm_num)
  have hVD : |V + D / l| ≤ |V| + ω * u * |V| := le_trans (abs_add_le _ _) (by linarith)
  have hpe : |rval F r * rval F c - V| ≤ (ω + 1 + 1 / 2 ^ 16) * u * |V| := by
    rw [hprod, show (V + D / l) * (1 + (C - 1)) - V = D / l + (V + D / l) * (C - 1) by ring]
    refine le_trans (abs_add_le _ _) ?_
    rw [abs_mul]
    have h1 : |V + D / l| * |C - 1| ≤ (|V| + ω * u * |V|) * u := mul_le_mul hVD hcl (abs_nonneg _) (by positivity)
    have h2 : ω * u * (|V| * u) ≤ 100 * (1 / 2 ^ 24) * (|V| * u) := mul_le_mul_of_nonneg_right hω9' (by positivity)
    have h3 : 0 ≤ |V| * u := by positivity
    norm_num at h2 ⊢
    nlinarith
  have hVm : |V| ≤ 100000 := by
    have : |V| * 1 ≤ |V| * l := mul_le_mul_of_nonneg_left hl hV0
    linarith
  have hpa : |rval F r * rval F c| ≤ (1 + 1 / 2 ^ 16) * |V| := by
    have e : rval F r * rval F c = V + (rval F r * rval F c - V) := by ring
    rw [e]
    refine le_trans (abs_add_le _ _) ?_
    have h2 : (ω + 1 + 1 / 2 ^ 16) * u * |V| ≤ 1 / 2 ^ 16 * |V| := by
      refine mul_le_mul_of_nonneg_right ?_ hV0
      norm_num at hω9' hu2 ⊢
      linarith
    linarith
  obtain ⟨hf, hrr⟩ := fMul_rel h (k := 20) (by cases h <;> decide) hr hc (by norm_num at hpa ⊢; linarith)
  refine ⟨hf, ?_⟩
  unfold RelErr at hrr
  have e : rval F (fMul F r c) - V = (rval F (fMul F r c) - rval F r * rval F c) + (rval F r * rval F c - V) := by ring
  rw [e]
  refine le_trans (abs_add_le _ _) ?_
  have h1 := mul_le_mul_of_nonneg_left hpa hu.le
  have h5 : (if rval F r * rval F c = 0 then 0 else uAbs F) ≤ u / 2 ^ 10 * |V| := by
    split
    · positivity
    · rename_i hne
      rcases hbig with hL0 | hbig
      · exfalso
        have hV00 : V = 0 := by rw [hV, hL0, zero_div]
        rw [hV00, abs_zero, mul_zero] at hpa
        exact hne (abs_nonpos_iff.mp hpa)
      · refine le_trans hbig ?_
        rw [hVa]
        have : u / 2 ^ 12 * (|V| * l) ≤ u / 2 ^ 12 * (|V| * 4) :=
          mul_le_mul_of_nonneg_left (mul_le_mul_of_nonneg_left hl4 hV0) (by positivity)
        refine le_trans this (le_of_eq ?_)
        ring
  have h6 := mul_le_mul_of_nonneg_right hω (mul_nonneg hu.le hV0)
  rw [← hudef] at hrr
  have h7 : 0 ≤ u * |V| := by positivity
  linarith
end

/-- The error before the last addition, in units. -/
noncomputable def logNeedE (β B θ Q κ M Z ζ : ℝ) : ℝ :=
  ((((β + ζ) * (1 + 1 / 2 ^ 24) + B + Z + 1 / 2 ^ 20) + θ) * (1 + 1 / 2 ^ 24) + B + Z + Q + 1 / 2 ^ 20) *
    (1 + 1 / 2 ^ 24) + (M + κ / 2 ^ 24 + Z) + 1 / 2 ^ 20

section
variable {F : Fmt} {w : Nat} {K : LogConst w} {x x2 y q e X : BitVec w} {E : Int} {G β B θ Q κ ρ lam mu ls : ℝ}

theorem LogPre.rescale {T : ℝ} {σ : ℝ} (hp : LogPre F x y q G β B θ Q κ ρ lam mu) (hσ : 0 ≤ σ)
    (hT : |rval F x| ≤ T * σ) (hβ : 0 ≤ β) (hB : 0 ≤ B) (hθ : 0 ≤ θ) (hQ : 0 ≤ Q) :
    RApx F x σ (rval F x) (0 * uRel F) T ∧ RApx F y σ G (β * T * uRel F) (B * T) ∧
    RApx F q σ (rval F x * rval F x * (1 / 2)) (θ * T * uRel F) (Q * T) :=
  ⟨(RApx.self hp.fin hT).exactU, hp.hy.rescaleU hβ hB hT hσ (le_refl _) (le_refl _),
    hp.hq.rescaleU hθ hQ hT hσ (le_refl _) (le_refl _)⟩

/-- One case of the series to the base e. -/
theorem logE_case {σ T Z ζ M Λ ω κ2 : ℝ} {z : BitVec w} {Zv : ℝ} (h : FmtW F w) (hp : LogPre F x y q G β B θ Q κ ρ lam mu)
    (hσ : Scale F σ) (hT : |rval F x| ≤ T * σ) (hβ : 0 ≤ β) (hB : 0 ≤ B) (hθ : 0 ≤ θ) (hQ : 0 ≤ Q) (hκ : 0 ≤ κ)
    (hκ2 : 0 ≤ κ2) (hT0 : 0 ≤ T)
    (hz : RApx F z σ Zv (ζ * uRel F) Z) (hζ : 0 ≤ ζ) (hZ : 0 ≤ Z) {b : BitVec w} (hb : isFinite F b = true) {L : ℝ}
    (hL : |Zv + rval F b - (L - Real.log (1 + rval F x))| ≤ κ2 * uRel F * σ) (hM : |Real.log (1 + rval F x)| ≤ M * σ)
    (hM0 : 0 ≤ M) (hΛ : Λ * σ ≤ |L|) (h0 : σ = 0 → L = 0) (hLm : |L| ≤ 100000) (hω1 : 1 ≤ ω)
    (hd : logNeedE (β * T) (B * T) (θ * T) (Q * T) (κ * T) M Z ζ + (κ * T + κ2) ≤ 1000)
    (hω : (logNeedE (β * T) (B * T) (θ * T) (Q * T) (κ * T) M Z ζ + (κ * T + κ2)) * (1 + 1 / 2 ^ 24) + 1 / 2 ^ 20 ≤
      (ω - 1) * Λ) :
    isFinite F (fAdd F (fAdd F x (fSub F (fAdd F y z) q)) b) = true ∧
    |rval F (fAdd F (fAdd F x (fSub F (fAdd F y z) q)) b) - L| ≤ ω * uRel F * |L| := by
  have hs0 := hσ.nonneg
  have hu := uRel_pos F
  have hu2 := RApx.small_u h
  obtain ⟨hx1, hy1, hq1⟩ := hp.rescale hs0 hT hβ hB hθ hQ
  have p1 := mul_nonneg hβ hT0
  have p2 := mul_nonneg hB hT0
  have p3 := mul_nonneg hθ hT0
  have p4 := mul_nonneg hQ hT0
  have p5 := mul_nonneg hκ hT0
  unfold logNeedE at hd hω
  generalize β * T = β' at *
  generalize B * T = B' at *
  generalize θ * T = θ' at *
  generalize Q * T = Q' at *
  have hap : |rval F x + (G - rval F x * rval F x * (1 / 2)) - Real.log (1 + rval F x)| ≤ κ * T * uRel F * σ := by
    refine le_trans hp.apx ?_
    have := mul_le_mul_of_nonneg_left hT (mul_nonneg hκ hu.le)
    linarith
  generalize κ * T = κ' at *
  have s1 := hy1.addUB hz h hσ (by linarith) (R := B' + Z) (le_refl _) (by norm_num at hd ⊢; linarith)
    (δ := (β' + ζ) * (1 + 1 / 2 ^ 24) + B' + Z + 1 / 2 ^ 20) (by linarith)
  generalize hd1 : (β' + ζ) * (1 + 1 / 2 ^ 24) + B' + Z + 1 / 2 ^ 20 = δ1 at *
  have q1 : 0 ≤ δ1 := by rw [← hd1]; positivity
  have s2 := s1.subUB hq1 h hσ (by linarith) (R := B' + Z + Q') (le_refl _) (by norm_num at hd ⊢; linarith)
    (δ := (δ1 + θ') * (1 + 1 / 2 ^ 24) + B' + Z + Q' + 1 / 2 ^ 20) (by linarith)
  generalize hd2 : (δ1 + θ') * (1 + 1 / 2 ^ 24) + B' + Z + Q' + 1 / 2 ^ 20 = δ2 at *
  have q2 : 0 ≤ δ2 := by rw [← hd2]; positivity
  have hR : |rval F x + (G + Zv - rval F x * rval F x * (1 / 2))| ≤ (M + κ' / 2 ^ 24 + Z) * σ := by
    have e : rval F x + (G + Zv - rval F x * rval F x * (1 / 2)) =
        (rval F x + (G - rval F x * rval F x * (1 / 2)) - Real.log (1 + rval F x)) + Real.log (1 + rval F x) + Zv := by ring
    rw [e]
    refine le_trans (abs_add_le _ _) ?_
    have h1 := abs_add_le (rval F x + (G - rval F x * rval F x * (1 / 2)) - Real.log (1 + rval F x)) (Real.log (1 + rval F x))
    have h2 := hz.bnd
    have h3 : κ' * uRel F * σ ≤ κ' / 2 ^ 24 * σ := by
      refine mul_le_mul_of_nonneg_right ?_ hs0
      have := mul_le_mul_of_nonneg_left hu2 p5
      linarith
    linarith
  have s3 := hx1.addU s2 h hσ (by linarith) hR (by norm_num at hd ⊢; linarith)
    (δ := δ2 * (1 + 1 / 2 ^ 24) + (M + κ' / 2 ^ 24 + Z) + 1 / 2 ^ 20) (by linarith)
  refine final_add h hσ s3 hb (κ := κ' + κ2) ?_ hΛ h0 (by positivity) hLm hd hω1 hω
  have e : rval F x + (G + Zv - rval F x * rval F x * (1 / 2)) + rval F b - L =
      (rval F x + (G - rval F x * rval F x * (1 / 2)) - Real.log (1 + rval F x)) +
      (Zv + rval F b - (L - Real.log (1 + rval F x))) := by ring
  rw [e]
  refine le_trans (abs_add_le _ _) ?_
  linarith


/-- One condition on the numbers. -/
def LogOk (β B θ Q κ T M Z ζ κ2 Λ ω : ℝ) : Prop :=
  logNeedE (β * T) (B * T) (θ * T) (Q * T) (κ * T) M Z ζ + (κ * T + κ2) ≤ 1000 ∧
  (logNeedE (β * T) (B * T) (θ * T) (Q * T) (κ * T) M Z ζ + (κ * T + κ2)) * (1 + 1 / 2 ^ 24) + 1 / 2 ^ 20 ≤ (ω - 1) * Λ

theorem log_value (hr : LogRedR F X x e E) : Real.log (rval F X) = Real.log (1 + rval F x) + E * Real.log 2 := by
  have := hr.lo
  rw [hr.value, Real.log_mul (by norm_num at this ⊢; linarith) (by positivity), Real.log_zpow]

theorem log_large {t : ℝ} {E : Int} {a : ℝ} (ht : |Real.log (1 + t)| ≤ 0.3466) (hE : a ≤ |(E : ℝ)|) :
    0.6931 * a - 0.3466 ≤ |Real.log (1 + t) + E * Real.log 2| := by
  have h1 : |(E : ℝ) * Real.log 2| ≤ |Real.log (1 + t) + E * Real.log 2| + |Real.log (1 + t)| := by
    have := abs_sub (Real.log (1 + t) + E * Real.log 2) (Real.log (1 + t))
    rwa [add_sub_cancel_left] at this
  rw [abs_mul, abs_of_pos (Real.log_pos (by norm_num : (1 : ℝ) < 2))] at h1
  have h2 : a * 0.6931 ≤ |(E : ℝ)| * Real.log 2 :=
    mul_le_mul hE (by have := log2_gt; norm_num at this ⊢; linarith) (by norm_num) (abs_nonneg _)
  norm_num at *
  linarith

theorem log_bound (h : FmtW F w) (hr : LogRedR F X x e E) : |Real.log (1 + rval F x) + E * Real.log 2| ≤ 2000 := by
  have h1 := log_abs hr.lo hr.hi
  have h2 : |(E : ℝ)| ≤ 1074 := by
    have : |E| ≤ 1074 := le_trans hr.small (by cases h <;> decide)
    exact_mod_cast this
  refine le_trans (abs_add_le _ _) ?_
  rw [abs_mul, abs_of_pos (Real.log_pos (by norm_num : (1 : ℝ) < 2))]
  have h3 : |(E : ℝ)| * Real.log 2 ≤ 1074 * 1 := mul_le_mul h2 (by have := log2_lt; norm_num at this ⊢; linarith)
    (Real.log_nonneg (by norm_num)) (by norm_num)
  norm_num at *
  linarith

/-- `e * ln2_large` is exact. -/
theorem mul_large (hc : LogC F K ls) (hr : LogRedR F X x e E) :
    isFinite F (fMul F e K.ln2Large) = true ∧ rval F (fMul F e K.ln2Large) = E * (355 / 512) := by
  refine fMul_repr hc.fw hr.efin hc.large.1 ⟨355 * E, -9, ?_, ?_, ?_, ?_⟩ (by rw [hr.eval, hc.large.2])
  · push_cast; norm_num; ring
  · have h1 : |E| ≤ 1074 := le_trans hr.small (by cases hc.fw <;> decide)
    have h2 : (2 : Int) ^ 24 ≤ 2 ^ (F.m + 1) := by cases hc.fw <;> decide
    rw [abs_mul]
    norm_num at h2 ⊢
    omega
  · cases hc.fw <;> decide
  · cases hc.fw <;> decide

theorem mul_small {P : ℝ} (hc : LogC F K ls) (hr : LogRedR F X x e E) (hP : |(E : ℝ)| ≤ P) (hPm : P ≤ 2000) :
    RApx F (fMul F e K.ln2Small) 1 (E * ls) ((P * 0.0002122 + 1 / 2 ^ 20) * uRel F) (P * 0.0002122) := by
  have h1 := scale_one hc.fw
  have hP0 := le_trans (abs_nonneg _) hP
  have he : RApx F e 1 (E : ℝ) (0 * uRel F) P := (RApx.const ⟨hr.efin, hr.eval⟩ hP).exactU
  have := he.mulU ((RApx.const hc.small hc.lsb).exactU) hc.fw (by norm_num) (by rwa [mul_one]) (le_refl _) (le_refl _) hP0
    (by norm_num) (le_refl _) (by norm_num; linarith) (δ := P * 0.0002122 + 1 / 2 ^ 20) (by norm_num)
  rwa [mul_one] at this

/-- Base e. -/
theorem logEnd_e {Zm ω : ℝ} (hc : LogC F K ls) (hr : LogRedR F X x e E) (hp : LogPre F x y (fMul F x2 K.half) G β B θ Q κ ρ lam mu)
    (hβ : 0 ≤ β) (hB : 0 ≤ B) (hθ : 0 ≤ θ) (hQ : 0 ≤ Q) (hκ : 0 ≤ κ) (hmu : 0 ≤ mu) (hω1 : 1 ≤ ω)
    (hZ : oneExp F * 0.0002122 ≤ Zm)
    (h0 : LogOk β B θ Q κ 1 mu 0 0 0 lam ω)
    (h1 : LogOk β B θ Q κ ρ 0.3466 0.0002122 (0.0002122 + 1 / 2 ^ 20) 0.002 0.3465 ω)
    (h2 : LogOk β B θ Q κ ρ 0.3466 Zm (Zm + 1 / 2 ^ 20) 0.2 1.0396 ω) :
    isFinite F (logEnd (sArith F w) K .e x x2 y e) = true ∧
    |rval F (logEnd (sArith F w) K .e x x2 y e) - Real.log (rval F X)| ≤ ω * uRel F * |Real.log (rval F X)| := by
  rw [log_value hr]
  show isFinite F (fAdd F (fAdd F x (fSub F (fAdd F y (fMul F e K.ln2Small)) (fMul F x2 K.half))) (fMul F e K.ln2Large)) = true ∧
    |rval F (fAdd F (fAdd F x (fSub F (fAdd F y (fMul F e K.ln2Small)) (fMul F x2 K.half))) (fMul F e K.ln2Large)) - _| ≤ _
  have hb := mul_large hc hr
  have hLm := le_trans (log_bound hc.fw hr) (show (2000 : ℝ) ≤ 100000 by norm_num)
  have hρ0 := le_trans (abs_nonneg _) hp.le
  have hu := uRel_pos F
  have hrhi := hr.hi
  have hrlo := hr.lo
  by_cases hE : E = 0
  · have ht1 : |rval F x| ≤ 1 := by rw [abs_le]; norm_num at *; constructor <;> linarith
    have hz : isFinite F (fMul F e K.ln2Small) = true ∧ rval F (fMul F e K.ln2Small) = 0 :=
      fMul_repr hc.fw hr.efin hc.small.1 ⟨0, 0, by simp, by simp, by cases hc.fw <;> decide, by cases hc.fw <;> decide⟩
        (by rw [hr.eval, hE]; simp)
    have hsc : Scale F |rval F x| := by
      have := scale_grid hc.fw ht1 hp.grid 1 (by decide) (by decide)
      rwa [pow_one] at this
    refine logE_case hc.fw hp hsc (T := 1) (by rw [one_mul]) hβ hB hθ hQ hκ (κ2 := 0) (le_refl _) (by norm_num)
      (z := fMul F e K.ln2Small) (Zv := 0) (ζ := 0) (Z := 0) ⟨hz.1, by rw [hz.2]; simp, by simp⟩ (le_refl _) (le_refl _) hb.1
      ?_ hp.hi hmu (Λ := lam) ?_ ?_ hLm hω1 h0.1 h0.2
    · rw [hb.2, hE]; simp
    · rw [hE]; simpa using hp.lo
    · intro h00
      rw [abs_eq_zero.mp h00, hE]; simp
  · have hE1 : (1 : ℝ) ≤ |(E : ℝ)| := by
      have : (1 : Int) ≤ |E| := Int.one_le_abs hE
      exact_mod_cast this
    have hs1 := scale_one hc.fw
    have hEm : |(E : ℝ)| ≤ oneExp F := by exact_mod_cast hr.small
    have hval : |(E : ℝ) * ls + rval F (fMul F e K.ln2Large) -
        (Real.log (1 + rval F x) + E * Real.log 2 - Real.log (1 + rval F x))| ≤ 0.2 * uRel F * 1 := by
      rw [hb.2, show (E : ℝ) * ls + E * (355 / 512) - (Real.log (1 + rval F x) + E * Real.log 2 - Real.log (1 + rval F x)) =
        E * (355 / 512 + ls - Real.log 2) by ring, abs_mul, mul_one, mul_comm]
      exact le_trans (mul_le_mul_of_nonneg_left hEm (abs_nonneg _)) hc.ln2
    by_cases hE2 : |E| = 1
    · have hE2' : |(E : ℝ)| ≤ 1 := by exact_mod_cast hE2.le
      have hz := mul_small hc hr hE2' (by norm_num)
      rw [one_mul] at hz
      have hval1 : |(E : ℝ) * ls + rval F (fMul F e K.ln2Large) -
          (Real.log (1 + rval F x) + E * Real.log 2 - Real.log (1 + rval F x))| ≤ 0.002 * uRel F * 1 := by
        rw [hb.2, show (E : ℝ) * ls + E * (355 / 512) - (Real.log (1 + rval F x) + E * Real.log 2 - Real.log (1 + rval F x)) =
          E * (355 / 512 + ls - Real.log 2) by ring, abs_mul, mul_one]
        have h149 : (149 : ℝ) ≤ oneExp F := by
          have : 149 ≤ oneExp F := by cases hc.fw <;> decide
          exact_mod_cast this
        have a1 := mul_le_mul_of_nonneg_right hE2' (abs_nonneg (355 / 512 + ls - Real.log 2))
        have a2 := mul_le_mul_of_nonneg_left h149 (abs_nonneg (355 / 512 + ls - Real.log 2))
        have a3 := hc.ln2
        norm_num at a1 a2 a3 ⊢
        linarith
      refine logE_case hc.fw hp hs1 (T := ρ) (by rw [mul_one]; exact hp.le) hβ hB hθ hQ hκ (κ2 := 0.002) (by norm_num) hρ0
        hz (by norm_num) (by norm_num) hb.1 hval1 (M := 0.3466) (by rw [mul_one]; exact hp.abs) (by norm_num) (Λ := 0.3465) ?_
        (fun h => by norm_num at h) hLm hω1 h1.1 h1.2
      rw [mul_one]
      have := log_large hp.abs hE1
      norm_num at this ⊢; linarith
    · have hE3 : (2 : ℝ) ≤ |(E : ℝ)| := by
        have : (2 : Int) ≤ |E| := by have := Int.one_le_abs hE; omega
        exact_mod_cast this
      have ho : ((oneExp F : Nat) : ℝ) ≤ 2000 := by
        have : oneExp F ≤ 2000 := by cases hc.fw <;> decide
        exact_mod_cast this
      have hZ0 : 0 ≤ Zm := le_trans (by positivity) hZ
      have hz := (mul_small hc hr hEm ho).weaken (by norm_num) (c := (Zm + 1 / 2 ^ 20) * uRel F) (Q := Zm)
        (mul_le_mul_of_nonneg_right (by linarith) hu.le) hZ
      refine logE_case hc.fw hp hs1 (T := ρ) (by rw [mul_one]; exact hp.le) hβ hB hθ hQ hκ (κ2 := 0.2) (by norm_num) hρ0
        hz (by positivity) hZ0 hb.1 hval (M := 0.3466) (by rw [mul_one]; exact hp.abs) (by norm_num) (Λ := 1.0396) ?_
        (fun h => by norm_num at h) hLm hω1 h2.1 h2.2
      rw [mul_one]
      have := log_large hp.abs hE3
      norm_num at this ⊢; linarith

/-- No underflow. -/
theorem log_big (h : FmtW F w) (hr : LogRedR F X x e E) :
    Real.log (rval F X) = 0 ∨ uAbs F ≤ uRel F / 2 ^ 12 * |Real.log (rval F X)| := by
  rw [log_value hr]
  have hrhi := hr.hi
  have hrlo := hr.lo
  have hu := uRel_pos F
  have ht1 : |rval F x| ≤ 1 := by rw [abs_le]; norm_num at *; constructor <;> linarith
  by_cases hE : E = 0
  · have hsc : Scale F |rval F x| := by
      have := scale_grid h ht1 hr.grid 1 (by decide) (by decide)
      rwa [pow_one] at this
    rw [hE, Int.cast_zero, zero_mul, add_zero]
    have hlo : 0.8284 * |rval F x| ≤ |Real.log (1 + rval F x)| := by
      by_cases hs : 0 ≤ rval F x
      · exact log_pos_lo hs hrhi
      · have := log_neg_lo (le_of_not_ge hs) hrlo
        norm_num at *; linarith [abs_nonneg (rval F x)]
    rcases hsc.big with h0 | h0
    · left; rw [abs_eq_zero.mp h0]; simp
    · right
      refine le_trans h0 ?_
      have : |rval F x| / 2 ^ 20 ≤ |Real.log (1 + rval F x)| / 2 ^ 12 := by
        norm_num at *; linarith [abs_nonneg (rval F x)]
      have := mul_le_mul_of_nonneg_left this hu.le
      linarith
  · right
    have hE1 : (1 : ℝ) ≤ |(E : ℝ)| := by
      have : (1 : Int) ≤ |E| := Int.one_le_abs hE
      exact_mod_cast this
    have h1 := log_large (log_abs hrlo hrhi) hE1
    rcases (scale_one h).big with h0 | h0
    · norm_num at h0
    · refine le_trans h0 ?_
      have : (1 : ℝ) / 2 ^ 20 ≤ |Real.log (1 + rval F x) + E * Real.log 2| / 2 ^ 12 := by norm_num at *; linarith
      have := mul_le_mul_of_nonneg_left this hu.le
      linarith

theorem log10_range : 1 ≤ Real.log 10 ∧ Real.log 10 ≤ 4 := by
  have e1 := Real.log_lt_log (by norm_num) (show (2 : ℝ) ^ 3 < 10 by norm_num)
  have e2 := Real.log_lt_log (by norm_num) (show (10 : ℝ) < 2 ^ 4 by norm_num)
  rw [Real.log_pow] at e1 e2
  have := log2_gt
  have := log2_lt
  push_cast at e1 e2
  constructor <;> norm_num at * <;> linarith

/-- Base 10. -/
theorem logEnd_10 {ω ω' : ℝ} (hc : LogC F K ls) (hr : LogRedR F X x e E)
    (he : isFinite F (logEnd (sArith F w) K .e x x2 y e) = true ∧
    |rval F (logEnd (sArith F w) K .e x x2 y e) - Real.log (rval F X)| ≤ ω * uRel F * |Real.log (rval F X)|)
    (hω0 : 0 ≤ ω) (hω9 : ω ≤ 100) (hω : ω + 2 + 1 / 512 ≤ ω') :
    isFinite F (logEnd (sArith F w) K .ten x x2 y e) = true ∧
    |rval F (logEnd (sArith F w) K .ten x x2 y e) - Real.log (rval F X) / Real.log 10| ≤
      ω' * uRel F * |Real.log (rval F X) / Real.log 10| :=
  final_mul hc.fw he.1 he.2 hc.log10e.1 hc.log10e.2 log10_range.1 log10_range.2 (log_big hc.fw hr)
    (by rw [log_value hr]; exact le_trans (log_bound hc.fw hr) (by norm_num)) hω0 hω9 hω

/-! Base 2. -/

/-- The error before the last addition, in units. -/
noncomputable def logNeed2 (β B κ ρ T M : ℝ) : ℝ :=
  let c := 1.4427
  let βy := (β * c + (B + β / 2 ^ 24) * c + 1 / 2 ^ 20) * T
  let θ := (1.5 * c + 1 / 2 ^ 18) * ρ * T
  let R := (B * c + c / 2 * ρ) * T
  let δ2 := (βy + θ) * (1 + 1 / 2 ^ 24) + R + 1 / 2 ^ 20
  (δ2 + (c + 1 / 2 ^ 20) * T) * (1 + 1 / 2 ^ 24) + c * (M + κ * T / 2 ^ 24) + 1 / 2 ^ 20

def LogOk2 (β B κ ρ T M Λ ω : ℝ) : Prop :=
  logNeed2 β B κ ρ T M + 1.4427 * (κ * T + M) ≤ 1000 ∧
  (logNeed2 β B κ ρ T M + 1.4427 * (κ * T + M)) * (1 + 1 / 2 ^ 24) + 1 / 2 ^ 20 ≤ (ω - 1) * Λ

theorem log2e_range (hc : LogC F K ls) : 0 < rval F K.log2e ∧ |rval F K.log2e| ≤ 1.4427 ∧
    |rval F K.log2e - 1 / Real.log 2| ≤ 1.4427 * uRel F := by
  have h := hc.log2e.2
  have hu2 := RApx.small_u hc.fw
  have l1 := log2_gt
  have l2 := log2_lt
  have lp : 0 < Real.log 2 := Real.log_pos (by norm_num)
  have h3 := abs_le.mp h
  have hpos : 0 < rval F K.log2e := by
    by_contra hn
    have := mul_nonneg (sub_nonneg.mpr (le_of_not_gt hn)) lp.le
    norm_num at *
    linarith
  refine ⟨hpos, ?_, ?_⟩
  · rw [abs_of_pos hpos]
    by_contra hn
    have : 1.4427 * 0.69314718 ≤ rval F K.log2e * Real.log 2 :=
      mul_le_mul (le_of_not_ge hn) (by norm_num at *; linarith) (by norm_num) hpos.le
    norm_num at *
    linarith
  · rw [show rval F K.log2e - 1 / Real.log 2 = (rval F K.log2e * Real.log 2 - 1) / Real.log 2 by field_simp,
      abs_div, abs_of_pos lp, div_le_iff₀ lp]
    refine le_trans h ?_
    have : (1 : ℝ) ≤ 1.4427 * Real.log 2 := by norm_num at *; linarith
    have := mul_le_mul_of_nonneg_right this (uRel_pos F).le
    linarith

/-- One case of the series to the base 2. -/
theorem log2_case {σ T M Λ ω : ℝ} (hc : LogC F K ls) (hp : LogPre F x y q G β B θ Q κ ρ lam mu)
    (hσ : Scale F σ) (hT : |rval F x| ≤ T * σ) (hβ : 0 ≤ β) (hB : 0 ≤ B) (hκ : 0 ≤ κ) (hρ1 : ρ ≤ 1)
    (hT0 : 0 ≤ T) {b : BitVec w} (hb : isFinite F b = true) {L : ℝ}
    (hL : L - Real.log (1 + rval F x) / Real.log 2 = rval F b) (hM : |Real.log (1 + rval F x)| ≤ M * σ)
    (hM0 : 0 ≤ M) (hΛ : Λ * σ ≤ |L|) (h0 : σ = 0 → L = 0) (hLm : |L| ≤ 100000) (hω1 : 1 ≤ ω)
    (hβm : (B + β / 2 ^ 24) * 2 ≤ 1000)
    (hk : LogOk2 β B κ ρ T M Λ ω) :
    isFinite F (fAdd F (fAdd F (fMul F x K.log2e)
      (fSub F (fMul F y K.log2e) (fMul F (fMul F x (fMul F x K.log2e)) K.half))) b) = true ∧
    |rval F (fAdd F (fAdd F (fMul F x K.log2e)
      (fSub F (fMul F y K.log2e) (fMul F (fMul F x (fMul F x K.log2e)) K.half))) b) - L| ≤ ω * uRel F * |L| := by
  have h := hc.fw
  have hs0 := hσ.nonneg
  have hu := uRel_pos F
  have hu2 := RApx.small_u h
  have hρ0 := le_trans (abs_nonneg _) hp.le
  obtain ⟨c0, c1, c2⟩ := log2e_range hc
  have t0 := abs_nonneg (rval F x)
  have ht1 : |rval F x| ≤ 1 := le_trans hp.le hρ1
  have sc1 : Scale F |rval F x| := by
    have := scale_grid h ht1 hp.grid 1 (by decide) (by decide)
    rwa [pow_one] at this
  have sc2 : Scale F (|rval F x| * |rval F x|) := by
    have := scale_grid h ht1 hp.grid 2 (by decide) (by decide)
    rwa [pow_two] at this
  have hC : RApx F K.log2e 1 (rval F K.log2e) (0 * uRel F) 1.4427 := (RApx.const ⟨hc.log2e.1, rfl⟩ c1).exactU
  have hX : RApx F x |rval F x| (rval F x) (0 * uRel F) 1 := (RApx.self hp.fin (by rw [one_mul])).exactU
  have hH : RApx F K.half 1 (1 / 2) (0 * uRel F) (1 / 2) := (RApx.const hc.half (by norm_num)).exactU
  have xl := hX.mulU hC h t0 (by rwa [mul_one]) (le_refl _) (le_refl _) (by norm_num) (by norm_num)
    (R := 1.4427) (by norm_num) (by norm_num) (δ := 1.4427 + 1 / 2 ^ 20) (by norm_num)
  rw [mul_one] at xl
  have hBβ : 0 ≤ B + β / 2 ^ 24 := by positivity
  have yl := hp.hy.mulU hC h t0 (by rwa [mul_one]) hβ (le_refl _) hB (by norm_num)
    (R := B * 1.4427) (le_refl _) (by norm_num at *; linarith)
    (δ := β * 1.4427 + (B + β / 2 ^ 24) * 1.4427 + 1 / 2 ^ 20) (by norm_num)
  rw [mul_one] at yl
  have q1 := hX.mulU xl h t0 sc2 (le_refl _) (by norm_num) (by norm_num) (by norm_num)
    (R := 1.4427) (by norm_num) (by norm_num) (δ := 2 * 1.4427 + 1 / 2 ^ 18) (by norm_num)
  have q2 := q1.mulU hH h sc2.nonneg (by rwa [mul_one]) (by norm_num) (le_refl _) (by norm_num) (by norm_num)
    (R := 1.4427 / 2) (by norm_num) (by norm_num) (δ := 1.5 * 1.4427 + 1 / 2 ^ 18) (by norm_num)
  rw [mul_one] at q2
  have q3 := q2.rescaleU (τ := |rval F x|) (K := ρ) (by norm_num) (by norm_num) (mul_le_mul_of_nonneg_right hp.le t0) t0
    (γ := (1.5 * 1.4427 + 1 / 2 ^ 18) * ρ) (le_refl _) (Q := 1.4427 / 2 * ρ) (le_refl _)
  have xs := xl.rescaleU (by norm_num) (by norm_num) hT hs0 (le_refl _) (le_refl _)
  have ys := yl.rescaleU (by positivity) (by positivity) hT hs0 (le_refl _) (le_refl _)
  have qs := q3.rescaleU (by positivity) (by positivity) hT hs0 (le_refl _) (le_refl _)
  unfold LogOk2 logNeed2 at hk
  simp only at hk
  obtain ⟨hd, hω⟩ := hk
  have n1 : 0 ≤ (β * 1.4427 + (B + β / 2 ^ 24) * 1.4427 + 1 / 2 ^ 20) * T := by positivity
  have n2 : 0 ≤ (1.5 * 1.4427 + 1 / 2 ^ 18) * ρ * T := by positivity
  have n3 : 0 ≤ (B * 1.4427 + 1.4427 / 2 * ρ) * T := by positivity
  have n4 : 0 ≤ (1.4427 + 1 / 2 ^ 20) * T := by positivity
  have n5 : 0 ≤ κ * T := by positivity
  have s2 := ys.subUB qs h hσ (by linarith) (R := (B * 1.4427 + 1.4427 / 2 * ρ) * T) (le_of_eq (by ring))
    (by norm_num at hd n1 n2 n3 n4 n5 ⊢; linarith)
    (δ := ((β * 1.4427 + (B + β / 2 ^ 24) * 1.4427 + 1 / 2 ^ 20) * T + (1.5 * 1.4427 + 1 / 2 ^ 18) * ρ * T) * (1 + 1 / 2 ^ 24) +
      (B * 1.4427 + 1.4427 / 2 * ρ) * T + 1 / 2 ^ 20) (by linarith)
  have hap : |rval F x + (G - rval F x * rval F x * (1 / 2)) - Real.log (1 + rval F x)| ≤ κ * T * uRel F * σ := by
    refine le_trans hp.apx ?_
    have := mul_le_mul_of_nonneg_left hT (mul_nonneg hκ hu.le)
    linarith
  generalize (β * 1.4427 + (B + β / 2 ^ 24) * 1.4427 + 1 / 2 ^ 20) * T = βy at *
  generalize (1.5 * 1.4427 + 1 / 2 ^ 18) * ρ * T = θ2 at *
  generalize (B * 1.4427 + 1.4427 / 2 * ρ) * T = R2 at *
  generalize (1.4427 + 1 / 2 ^ 20) * T = βx at *
  generalize κ * T = κ' at *
  generalize hd2 : (βy + θ2) * (1 + 1 / 2 ^ 24) + R2 + 1 / 2 ^ 20 = δ2 at *
  have n6 : 0 ≤ δ2 := by rw [← hd2]; positivity
  set c := rval F K.log2e with hcdef
  set t := rval F x with htdef
  have eq1 : t * c + (G * c - t * (t * c) * (1 / 2)) = c * (t + (G - t * t * (1 / 2))) := by ring
  have hg : |t + (G - t * t * (1 / 2))| ≤ (M + κ' / 2 ^ 24) * σ := by
    have e : t + (G - t * t * (1 / 2)) = (t + (G - t * t * (1 / 2)) - Real.log (1 + t)) + Real.log (1 + t) := by ring
    rw [e]
    refine le_trans (abs_add_le _ _) ?_
    have h3 : κ' * uRel F * σ ≤ κ' / 2 ^ 24 * σ := by
      refine mul_le_mul_of_nonneg_right ?_ hs0
      have := mul_le_mul_of_nonneg_left hu2 n5
      linarith
    linarith
  have hR : |t * c + (G * c - t * (t * c) * (1 / 2))| ≤ 1.4427 * (M + κ' / 2 ^ 24) * σ := by
    rw [eq1, abs_mul]
    have := mul_le_mul c1 hg (abs_nonneg _) (by norm_num)
    linarith
  have s3 := xs.addU s2 h hσ (by linarith) hR (by norm_num at hd n1 n2 n3 n4 n5 n6 ⊢; linarith)
    (δ := (δ2 + βx) * (1 + 1 / 2 ^ 24) + 1.4427 * (M + κ' / 2 ^ 24) + 1 / 2 ^ 20) (by linarith)
  refine final_add h hσ s3 hb (κ := 1.4427 * (κ' + M)) ?_ hΛ h0 (by positivity) hLm hd hω1 hω
  rw [eq1, ← hL, show c * (t + (G - t * t * (1 / 2))) + (L - Real.log (1 + t) / Real.log 2) - L =
    c * (t + (G - t * t * (1 / 2)) - Real.log (1 + t)) + (c - 1 / Real.log 2) * Real.log (1 + t) by ring]
  refine le_trans (abs_add_le _ _) ?_
  rw [abs_mul, abs_mul]
  have h1 := mul_le_mul c1 hap (abs_nonneg _) (by norm_num)
  have h2 := mul_le_mul c2 hM (abs_nonneg _) (by positivity)
  linarith

/-- Base 2. -/
theorem logEnd_2 {ω : ℝ} (hc : LogC F K ls) (hr : LogRedR F X x e E) (hp : LogPre F x y q G β B θ Q κ ρ lam mu)
    (hβ : 0 ≤ β) (hB : 0 ≤ B) (hκ : 0 ≤ κ) (hmu : 0 ≤ mu) (hlam : 0 ≤ lam) (hω1 : 1 ≤ ω) (hρ1 : ρ ≤ 1)
    (hβm : (B + β / 2 ^ 24) * 2 ≤ 1000)
    (h0 : LogOk2 β B κ ρ 1 mu (1.4426 * lam) ω)
    (h1 : LogOk2 β B κ ρ ρ 0.3466 0.4998 ω) :
    isFinite F (logEnd (sArith F w) K .two x x2 y e) = true ∧
    |rval F (logEnd (sArith F w) K .two x x2 y e) - Real.log (rval F X) / Real.log 2| ≤
      ω * uRel F * |Real.log (rval F X) / Real.log 2| := by
  rw [log_value hr]
  show isFinite F (fAdd F (fAdd F (fMul F x K.log2e)
      (fSub F (fMul F y K.log2e) (fMul F (fMul F x (fMul F x K.log2e)) K.half))) e) = true ∧
    |rval F (fAdd F (fAdd F (fMul F x K.log2e)
      (fSub F (fMul F y K.log2e) (fMul F (fMul F x (fMul F x K.log2e)) K.half))) e) - _| ≤ _
  have lp : 0 < Real.log 2 := Real.log_pos (by norm_num)
  have l1 := log2_gt
  have l2 := log2_lt
  have hLm : |(Real.log (1 + rval F x) + E * Real.log 2) / Real.log 2| ≤ 100000 := by
    rw [abs_div, abs_of_pos lp, div_le_iff₀ lp]
    have := log_bound hc.fw hr
    norm_num at *; linarith
  have hρ0 := le_trans (abs_nonneg _) hp.le
  have hval : (Real.log (1 + rval F x) + E * Real.log 2) / Real.log 2 - Real.log (1 + rval F x) / Real.log 2 = rval F e := by
    rw [hr.eval]; field_simp; ring
  by_cases hE : E = 0
  · have ht1 : |rval F x| ≤ 1 := le_trans hp.le hρ1
    have hsc : Scale F |rval F x| := by
      have := scale_grid hc.fw ht1 hp.grid 1 (by decide) (by decide)
      rwa [pow_one] at this
    refine log2_case hc hp hsc (T := 1) (by rw [one_mul]) hβ hB hκ hρ1 (by norm_num) hr.efin hval hp.hi hmu
      (Λ := 1.4426 * lam) ?_ ?_ hLm hω1 hβm h0
    · rw [hE, Int.cast_zero, zero_mul, add_zero, abs_div, abs_of_pos lp, le_div_iff₀ lp]
      refine le_trans ?_ hp.lo
      have h1 : 0 ≤ lam * |rval F x| := mul_nonneg hlam (abs_nonneg _)
      have h2 : 1.4426 * Real.log 2 ≤ 1 := by norm_num at *; linarith
      have := mul_le_mul_of_nonneg_right h2 h1
      linarith
    · intro h00
      rw [abs_eq_zero.mp h00, hE]; simp
  · have hE1 : (1 : ℝ) ≤ |(E : ℝ)| := by
      have : (1 : Int) ≤ |E| := Int.one_le_abs hE
      exact_mod_cast this
    refine log2_case hc hp (scale_one hc.fw) (T := ρ) (by rw [mul_one]; exact hp.le) hβ hB hκ hρ1 hρ0 hr.efin hval
      (M := 0.3466) (by rw [mul_one]; exact hp.abs) (by norm_num) (Λ := 0.4998) ?_ (fun h => by norm_num at h) hLm hω1 hβm h1
    rw [mul_one, abs_div, abs_of_pos lp, le_div_iff₀ lp]
    have := log_large hp.abs hE1
    norm_num at *; linarith

end

end Vc.Lemma
