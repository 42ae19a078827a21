import Verif.Lemma.AtanReal
import Verif.Lemma.RelBound
import Verif.Lemma.TrigSmall

/-!
The last rounding of `atan`, and bounds of the arcus tangens.
-/

namespace Vc.Lemma
open Vc.Model Vc.Spec

section
variable {F : Fmt} {w : Nat} {a b : BitVec w}

/-- An error in units of the last place of a smaller power of two. -/
theorem within_of_pow {k v : ℝ} {r : BitVec w} {j : Int} (hf : isFinite F r = true) (hk : 0 ≤ k) (hv : (2 : ℝ) ^ j ≤ |v|)
    (h : |rval F r - v| ≤ k * 2 ^ (j - F.m)) : WithinUlps F k v r := by
  refine ⟨hf, fun h0 => ?_, fun e h1 h2 => ?_⟩
  · rw [h0, abs_zero] at hv
    have : (0 : ℝ) < 2 ^ j := by positivity
    linarith
  · have he : j < e + 1 := (zpow_lt_zpow_iff_right₀ (by norm_num : (1 : ℝ) < 2)).mp (lt_of_le_of_lt hv h2)
    refine le_trans h (mul_le_mul_of_nonneg_left (zpow_le_zpow_right₀ (by norm_num) ?_) hk)
    exact le_trans (by omega) (le_max_left _ _)

theorem within_neg (h : FmtW F w) {k v : ℝ} {r : BitVec w} (hw : WithinUlps F k v r) : WithinUlps F k (-v) (r ^^^ sgn w) := by
  obtain ⟨h1, h2, h3⟩ := hw
  refine ⟨by rw [isFinite_flip h]; exact h1, fun h0 => ?_, fun e e1 e2 => ?_⟩
  · rw [rval_flip h, h2 (by linarith), neg_zero]
  · rw [abs_neg] at e1 e2
    rw [rval_flip h, show -rval F r - -v = -(rval F r - v) by ring, abs_neg]
    exact h3 e e1 e2

/-- A sum is rounded to the closest number. -/
theorem fAdd_closest (h : FmtW F w) {r : ℝ} (ha : isFinite F a = true) (hb : isFinite F b = true) (hr : Repr F r) :
    |rval F (fAdd F a b) - (rval F a + rval F b)| ≤ |r - (rval F a + rval F b)| := by
  obtain ⟨y, hy, hyv⟩ := repr_pattern h hr
  have hn := ((fAdd_nearest h ha hb).2 y (isFinite_not hy).1).1
  rw [← hyv]
  have hp := one_pos F
  have e : ∀ z : BitVec w, |rval F z - (rval F a + rval F b)| = (((fval F z * ((1 : Nat) : Int) - (fval F a + fval F b)).natAbs : Nat) : ℝ) / 2 ^ oneExp F := by
    intro z
    rw [← Int.cast_natCast, Int.natCast_natAbs, Int.cast_abs, ← abs_of_pos hp, ← abs_div]
    congr 1
    unfold rval
    push_cast
    ring
  rw [e, e]
  exact div_le_div_of_nonneg_right (by exact_mod_cast hn) hp.le

end

/-- Division where the quotient is known better than its parts. -/
theorem Apx.divQ {F : Fmt} {w : Nat} {s t : BitVec w} {p q b c d e P Q R L : ℝ} (hs : Apx F s p b P) (ht : Apx F t q c Q) (h : FmtW F w) (k : Int)
    (hk : KRange F k) (hL : L ≤ |q|) (hLc : c < L) (hR : |p / q| ≤ R) (he : b + R * c ≤ e * (L - c)) (h1 : R + e ≤ 2 ^ k)
    (h2 : e + 2 ^ (k - F.m - 2) ≤ d) : Apx F (fDiv F s t) (p / q) d R := by
  have e1 := hs.err
  have e2 := ht.err
  have c0 := ht.nonneg
  have hq : q ≠ 0 := by intro hc; rw [hc, abs_zero] at hL; linarith
  have hlow : L - c ≤ |rval F t| := by
    have := abs_sub_abs_le_abs_sub q (rval F t)
    rw [abs_sub_comm] at this
    linarith
  have ht0 : rval F t ≠ 0 := by intro hc; rw [hc, abs_zero] at hlow; linarith
  have htp : 0 < |rval F t| := abs_pos.mpr ht0
  have R0 : 0 ≤ R := le_trans (abs_nonneg _) hR
  have b0 := hs.nonneg
  have he0 : 0 ≤ e := by
    by_contra hcon
    push Not at hcon
    have := mul_neg_of_neg_of_pos hcon (show 0 < L - c by linarith)
    have := mul_nonneg R0 c0
    linarith
  have hd : |rval F s / rval F t - p / q| ≤ e := by
    rw [show rval F s / rval F t - p / q = ((rval F s - p) - p / q * (rval F t - q)) / rval F t by field_simp; ring, abs_div,
      div_le_iff₀ htp]
    refine le_trans (abs_sub _ _) ?_
    rw [abs_mul]
    have a1 := mul_le_mul hR e2 (abs_nonneg _) R0
    have a2 := mul_le_mul_of_nonneg_left hlow he0
    linarith
  have hv : |rval F s / rval F t| ≤ 2 ^ k := by
    have := abs_add_le (rval F s / rval F t - p / q) (p / q)
    rw [sub_add_cancel] at this
    linarith
  obtain ⟨hf, he'⟩ := fDiv_err h hk hs.fin ht.fin ht0 hv
  refine ⟨hf, ?_, hR⟩
  have := abs_add_le (rval F (fDiv F s t) - rval F s / rval F t) (rval F s / rval F t - p / q)
  rw [sub_add_sub_cancel] at this
  linarith

/-! ### The arcus tangens -/

theorem atan_lower {lo : ℚ} {hi c d : ℚ} {n : Nat} (hc : chebBound 0 hi (pAdd (atanTaylor 0 n) [-c]) ≤ d) (h0 : 0 < hi) (h1 : hi < 1)
    (hlo : lo ≤ c - d - hi ^ n / (1 - hi)) {t : ℝ} (ht : t ^ 2 ≤ hi) : lo * |t| ≤ |Real.arctan t| := by
  have hhi : (hi : ℝ) < 1 := by exact_mod_cast h1
  have ht1 : |t| < 1 := by
    rw [← sq_abs] at ht
    by_contra hcon
    push Not at hcon
    nlinarith [abs_nonneg t]
  have h := arctan_taylor ht1 n
  have hb := cheb_bound (p := pAdd (atanTaylor 0 n) [-c]) (lo := 0) (hi := hi) (r := t * t) h0 (by push_cast; nlinarith) (by nlinarith)
  have hb' := le_trans hb (Rat.cast_le.mpr hc)
  rw [pEval_add] at hb'
  simp only [pEval] at hb'
  push_cast at hb'
  rw [mul_zero, add_zero] at hb'
  rw [abs_le] at hb'
  have hlo' : (lo : ℝ) ≤ c - d - hi ^ n / (1 - hi) := by exact_mod_cast hlo
  have hpw : (t ^ 2) ^ n ≤ (hi : ℝ) ^ n := pow_le_pow_left₀ (sq_nonneg t) ht n
  have hq : (t ^ 2) ^ n / (1 - t ^ 2) ≤ (hi : ℝ) ^ n / (1 - hi) :=
    div_le_div₀ (by have : (0 : ℝ) < hi := by exact_mod_cast h0
                    positivity) hpw (by linarith) (by linarith)
  have h0t := abs_nonneg t
  have h5 : |t * pEval (atanTaylor 0 n) (t * t)| ≤ |Real.arctan t| + |t| * (t ^ 2) ^ n / (1 - t ^ 2) := by
    have := abs_add_le (t * pEval (atanTaylor 0 n) (t * t) - Real.arctan t) (Real.arctan t)
    rw [sub_add_cancel] at this
    linarith
  rw [abs_mul, mul_div_assoc] at h5
  have h6 : (c - d : ℝ) ≤ |pEval (atanTaylor 0 n) (t * t)| := le_trans (by linarith) (le_abs_self _)
  have h7 := mul_le_mul_of_nonneg_left h6 h0t
  have h8 := mul_le_mul_of_nonneg_left hq h0t
  have h9 := mul_le_mul_of_nonneg_right hlo' h0t
  linarith

theorem tiny_atan' {F : Fmt} {w : Nat} (h : FmtW F w) {t c : ℝ} (ht : |t| < uAbs F * 2 ^ 20 / uRel F) (hc : uRel F / 2 ^ 10 ≤ c) :
    |t - Real.arctan t| ≤ c * |t| := by
  have hb := (tiny_bound h).1
  have hu := uRel_pos F
  have hu1 := RApx.small_u h
  have h1 : |t| ≤ uRel F * uRel F := le_trans ht.le hb
  have h0 := abs_nonneg t
  have h2 : uRel F * uRel F ≤ 1 / 2 ^ 24 * (1 / 2 ^ 24) := mul_le_mul hu1 hu1 hu.le (by norm_num)
  have ht1 : |t| ≤ 1 / 2 ^ 48 := by norm_num at h2 ⊢; linarith
  have h3 := arctan_taylor (t := t) (lt_of_le_of_lt ht1 (by norm_num)) 1
  simp only [atanTaylor, pEval] at h3
  norm_num at h3
  refine le_trans h3 ?_
  have e : t ^ 2 = |t| * |t| := by rw [← sq_abs]; ring
  rw [e] at *
  have h4 : |t| * |t| ≤ 1 / 2 := by nlinarith
  rw [div_le_iff₀ (by linarith)]
  have h5 : |t| * |t| ≤ uRel F / 2 ^ 10 * (1 / 2) := by
    have : |t| * |t| ≤ uRel F * uRel F * (1 / 2 ^ 48) := mul_le_mul h1 ht1 h0 (by positivity)
    nlinarith
  have h6 : |t| * (|t| * |t|) ≤ |t| * (c * (1 / 2)) := mul_le_mul_of_nonneg_left (by linarith) h0
  have h7 : c * |t| * (1 / 2) ≤ c * |t| * (1 - |t| * |t|) := mul_le_mul_of_nonneg_left (by linarith) (mul_nonneg (le_trans (by positivity) hc) h0)
  linarith

theorem tiny_atan {F : Fmt} {w : Nat} (h : FmtW F w) {t c : ℝ} (ht : |t| < uAbs F * 2 ^ 20 / uRel F) (hc : uRel F ≤ c) :
    |t - Real.arctan t| ≤ c * |t| := tiny_atan' h ht (by have := uRel_pos F; linarith)

/-- Quotients below half of the smallest number are zero. -/
theorem fDiv_vanish {F : Fmt} {w : Nat} {a b : BitVec w} (h : FmtW F w) (ha : isFinite F a = true) (hb : isFinite F b = true)
    (h0 : rval F b ≠ 0) (hv : |rval F a / rval F b| < uAbs F) : isFinite F (fDiv F a b) = true ∧ rval F (fDiv F a b) = 0 := by
  have hk : KRange F ((F.m + 1 : Int) - oneExp F) := by cases h <;> decide
  have hle : uAbs F ≤ 2 ^ ((F.m + 1 : Int) - oneExp F) := by
    unfold uAbs
    exact zpow_le_zpow_right₀ (by norm_num) (by omega)
  have e := fDiv_err h hk ha hb h0 (le_trans hv.le hle)
  rw [show (F.m + 1 : Int) - oneExp F - F.m - 2 = -((oneExp F : Int) + 1) by ring] at e
  refine ⟨e.1, rval_grid _ ?_⟩
  have h2 := e.2
  have := abs_add_le (rval F (fDiv F a b) - rval F a / rval F b) (rval F a / rval F b)
  rw [sub_add_cancel] at this
  unfold uAbs at hv ⊢
  linarith

end Vc.Lemma
