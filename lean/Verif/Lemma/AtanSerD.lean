import Verif.Lemma.AtanBase

/-!
The series of `atan` of double.
-/

namespace Vc.Lemma
open Vc.Model Vc.Spec

set_option maxRecDepth 10000

theorem atD_p0 : isFinite f64 0xbfec007fa1f72594#64 = true ∧ rval f64 0xbfec007fa1f72594#64 = -(1970461881518437 / 2251799813685248) := by
  refine ⟨by decide, rval_lit true 1022 3378247898703252 (-53) (by decide) (by decide) (by decide) (by decide) (by decide) ?_⟩
  norm_num [f64]

theorem atD_p1 : isFinite f64 0xc03028545b6b807a#64 = true ∧ rval f64 0xc03028545b6b807a#64 = -(2273971201753149 / 140737488355328) := by
  refine ⟨by decide, rval_lit true 1027 44342776135802 (-48) (by decide) (by decide) (by decide) (by decide) (by decide) ?_⟩
  norm_num [f64]

theorem atD_p2 : isFinite f64 0xc052c08c36880273#64 = true ∧ rval f64 0xc052c08c36880273#64 = -(5278258023629427 / 70368744177664) := by
  refine ⟨by decide, rval_lit true 1029 774658396258931 (-46) (by decide) (by decide) (by decide) (by decide) (by decide) ?_⟩
  norm_num [f64]

theorem atD_p3 : isFinite f64 0xc05eb8bf2d05ba25#64 = true ∧ rval f64 0xc05eb8bf2d05ba25#64 = -(8647380534934053 / 70368744177664) := by
  refine ⟨by decide, rval_lit true 1029 4143780907563557 (-46) (by decide) (by decide) (by decide) (by decide) (by decide) ?_⟩
  norm_num [f64]

theorem atD_p4 : isFinite f64 0xc0503669fd28ec8e#64 = true ∧ rval f64 0xc0503669fd28ec8e#64 = -(2281714237077063 / 35184372088832) := by
  refine ⟨by decide, rval_lit true 1029 59828846783630 (-46) (by decide) (by decide) (by decide) (by decide) (by decide) ?_⟩
  norm_num [f64]

theorem atD_q0 : isFinite f64 0x4038dbc45b14603c#64 = true ∧ rval f64 0x4038dbc45b14603c#64 = 1749258957297679 / 70368744177664 := by
  refine ⟨by decide, rval_lit false 1027 2493436201820220 (-48) (by decide) (by decide) (by decide) (by decide) (by decide) ?_⟩
  norm_num [f64]

theorem atD_q1 : isFinite f64 0x4064a0dd43b8fa25#64 = true ∧ rval f64 0x4064a0dd43b8fa25#64 = 5806371718625829 / 35184372088832 := by
  refine ⟨by decide, rval_lit false 1030 1302772091255333 (-45) (by decide) (by decide) (by decide) (by decide) (by decide) ?_⟩
  norm_num [f64]

theorem atD_q2 : isFinite f64 0x407b0e18d2e2be3b#64 = true ∧ rval f64 0x407b0e18d2e2be3b#64 = 7615324151266875 / 17592186044416 := by
  refine ⟨by decide, rval_lit false 1031 3111724523896379 (-44) (by decide) (by decide) (by decide) (by decide) (by decide) ?_⟩
  norm_num [f64]

theorem atD_q3 : isFinite f64 0x407e563f13b049ea#64 = true ∧ rval f64 0x407e563f13b049ea#64 = 4269539107284213 / 8796093022208 := by
  refine ⟨by decide, rval_lit false 1031 4035478587197930 (-44) (by decide) (by decide) (by decide) (by decide) (by decide) ?_⟩
  norm_num [f64]

theorem atD_q4 : isFinite f64 0x4068519efbbd62ec#64 = true ∧ rval f64 0x4068519efbbd62ec#64 = 1711285677807803 / 8796093022208 := by
  refine ⟨by decide, rval_lit false 1030 2341543083860716 (-45) (by decide) (by decide) (by decide) (by decide) (by decide) ?_⟩
  norm_num [f64]

/-- What is added to the argument. -/
def atWD (t : BitVec 64) : BitVec 64 :=
  fMul f64 t (fDiv f64 (fMul f64 (fMul f64 t t)
    (fAdd f64 (fMul f64 (fAdd f64 (fMul f64 (fAdd f64 (fMul f64 (fAdd f64 (fMul f64 0xbfec007fa1f72594#64 (fMul f64 t t)) 0xc03028545b6b807a#64) (fMul f64 t t)) 0xc052c08c36880273#64) (fMul f64 t t)) 0xc05eb8bf2d05ba25#64) (fMul f64 t t)) 0xc0503669fd28ec8e#64))
    (fAdd f64 (fMul f64 (fAdd f64 (fMul f64 (fAdd f64 (fMul f64 (fAdd f64 (fMul f64 (fAdd f64 (fMul f64 t t) 0x4038dbc45b14603c#64) (fMul f64 t t)) 0x4064a0dd43b8fa25#64) (fMul f64 t t)) 0x407b0e18d2e2be3b#64) (fMul f64 t t)) 0x407e563f13b049ea#64) (fMul f64 t t)) 0x4068519efbbd62ec#64))

/-- Numerator and denominator. -/
noncomputable def atPR (z : ℝ) : ℝ := ((((1970461881518437 / 2251799813685248 * z + 2273971201753149 / 140737488355328) * z + 5278258023629427 / 70368744177664) * z + 8647380534934053 / 70368744177664) * z + 2281714237077063 / 35184372088832)
noncomputable def atQR (z : ℝ) : ℝ := (((((z + 1749258957297679 / 70368744177664) * z + 5806371718625829 / 35184372088832) * z + 7615324151266875 / 17592186044416) * z + 4269539107284213 / 8796093022208) * z + 1711285677807803 / 8796093022208)

def atPL : List ℚ := [0, -(2281714237077063 / 35184372088832), -(8647380534934053 / 70368744177664), -(5278258023629427 / 70368744177664), -(2273971201753149 / 140737488355328), -(1970461881518437 / 2251799813685248)]
def atQL : List ℚ := [1711285677807803 / 8796093022208, 4269539107284213 / 8796093022208, 7615324151266875 / 17592186044416, 5806371718625829 / 35184372088832, 1749258957297679 / 70368744177664, 1]

theorem atPL_eval (z : ℝ) : pEval atPL z = -(z * atPR z) := by
  simp only [atPL, pEval, atPR]; push_cast; ring

theorem atQL_eval (z : ℝ) : pEval atQL z = atQR z := by
  simp only [atQL, pEval, atQR]; push_cast; ring

theorem atQR_mono {y z : ℝ} (h0 : 0 ≤ y) (h : y ≤ z) : atQR y ≤ atQR z := by
  unfold atQR
  have hz := le_trans h0 h
  have m0 : y + 1749258957297679 / 70368744177664 ≤ z + 1749258957297679 / 70368744177664 := by linarith
  have n0 : 0 ≤ y + 1749258957297679 / 70368744177664 := by linarith
  have m1 := add_le_add_left (mul_le_mul m0 h h0 (le_trans n0 m0)) (5806371718625829 / 35184372088832)
  have n1 := add_nonneg (mul_nonneg n0 h0) (show (0 : ℝ) ≤ 5806371718625829 / 35184372088832 by norm_num)
  have m2 := add_le_add_left (mul_le_mul m1 h h0 (le_trans n1 m1)) (7615324151266875 / 17592186044416)
  have n2 := add_nonneg (mul_nonneg n1 h0) (show (0 : ℝ) ≤ 7615324151266875 / 17592186044416 by norm_num)
  have m3 := add_le_add_left (mul_le_mul m2 h h0 (le_trans n2 m2)) (4269539107284213 / 8796093022208)
  have n3 := add_nonneg (mul_nonneg n2 h0) (show (0 : ℝ) ≤ 4269539107284213 / 8796093022208 by norm_num)
  have m4 := add_le_add_left (mul_le_mul m3 h h0 (le_trans n3 m3)) (1711285677807803 / 8796093022208)
  have n4 := add_nonneg (mul_nonneg n3 h0) (show (0 : ℝ) ≤ 1711285677807803 / 8796093022208 by norm_num)
  linarith

theorem atQR_pos {z : ℝ} (h0 : 0 ≤ z) : 194 ≤ atQR z := by
  refine le_trans ?_ (atQR_mono le_rfl h0)
  unfold atQR; norm_num

theorem atQR_le {z : ℝ} (h0 : 0 ≤ z) (h1 : z ≤ 1) : atQR z ≤ 2000 := by
  refine le_trans (atQR_mono h0 h1) ?_
  unfold atQR; norm_num

theorem atPR_pos {z : ℝ} (h0 : 0 ≤ z) : 64 ≤ atPR z := by
  have : 0 ≤ atPR z - 2281714237077063 / 35184372088832 := by unfold atPR; rw [add_sub_cancel_right]; positivity
  have e : (64 : ℝ) ≤ 2281714237077063 / 35184372088832 := by norm_num
  linarith

/-- The correction in real numbers. -/
noncomputable def atVR (t : ℝ) : ℝ := t * (-(t * t * atPR (t * t)) / atQR (t * t))

def atDDiff (n : Nat) : List ℚ := pAdd (pAdd atQL atPL) (pScale (-1) (pMul atQL (atanTaylor 0 n)))

theorem atD_apxG {lo hi c q0 tl C : ℚ} {n : Nat} {t : ℝ} (hc : chebBound lo hi (atDDiff n) ≤ c) (hlh : lo < hi) (h0 : 0 ≤ lo)
    (hh : hi < 1) (h1 : (lo : ℝ) ≤ t * t) (h2 : t * t ≤ (hi : ℝ)) (hq : (q0 : ℝ) ≤ atQR lo) (hq0 : 0 < q0) (ht : hi ^ n / (1 - hi) ≤ tl)
    (hC : c / q0 + tl ≤ C * (1 / 9007199254740992)) : |t + atVR t - Real.arctan t| ≤ C * uRel f64 * |t| := by
  have hu : uRel f64 = 1 / 9007199254740992 := by unfold uRel; norm_num [f64]
  have hhi : (hi : ℝ) < 1 := by exact_mod_cast hh
  have h0' : (0 : ℝ) ≤ lo := by exact_mod_cast h0
  have hd : |pEval (atDDiff n) (t * t)| ≤ c := le_trans (cheb_bound hlh h1 h2) (Rat.cast_le.mpr hc)
  have hQ := le_trans hq (atQR_mono h0' h1)
  have hq0' : (0 : ℝ) < q0 := by exact_mod_cast hq0
  have hQ0 : 0 < atQR (t * t) := lt_of_lt_of_le hq0' hQ
  have e1 : t + atVR t = t * (pEval (atDDiff n) (t * t) / atQR (t * t)) + t * pEval (atanTaylor 0 n) (t * t) := by
    unfold atVR
    rw [atDDiff, pEval_add, pEval_add, pEval_scale, pEval_mul, atPL_eval, atQL_eval]
    push_cast
    have hne := hQ0.ne'
    generalize atQR (t * t) = X at hne ⊢
    field_simp
    ring
  have ht1 : |t| < 1 := by
    by_contra hcon
    push Not at hcon
    have := mul_le_mul hcon hcon (by norm_num) (abs_nonneg t)
    rw [abs_mul_abs_self] at this
    linarith
  have h2' := arctan_taylor (t := t) ht1 n
  have h3 : (t ^ 2) ^ n ≤ (hi : ℝ) ^ n := pow_le_pow_left₀ (sq_nonneg t) (by linarith [sq t]) _
  have h4 : (t ^ 2) ^ n / (1 - t ^ 2) ≤ tl := by
    have := div_le_div₀ (by have : (0 : ℝ) ≤ hi := by linarith [mul_self_nonneg t]
                            positivity) h3 (show (0 : ℝ) < 1 - hi by linarith) (show 1 - (hi : ℝ) ≤ 1 - t ^ 2 by linarith [sq t])
    exact le_trans this (by exact_mod_cast ht)
  have h5 := mul_le_mul_of_nonneg_left h4 (abs_nonneg t)
  rw [← mul_div_assoc] at h5
  have hC' : (c : ℝ) / q0 + tl ≤ C * (1 / 9007199254740992) := by
    have := (Rat.cast_le (K := ℝ)).mpr hC
    push_cast at this
    exact this
  have h6 : |pEval (atDDiff n) (t * t) / atQR (t * t)| ≤ c / q0 := by
    rw [abs_div, abs_of_pos hQ0]
    exact div_le_div₀ (le_trans (abs_nonneg _) hd) hd hq0' hQ
  rw [e1, add_sub_assoc]
  refine le_trans (abs_add_le _ _) ?_
  rw [abs_mul, hu]
  have h7 := mul_le_mul_of_nonneg_left h6 (abs_nonneg t)
  have h8 := mul_le_mul_of_nonneg_left hC' (abs_nonneg t)
  linarith

theorem abs_mul_abs_self' (a : ℝ) : |a * a| = a * a := abs_of_nonneg (mul_self_nonneg a)

/-- A number with sign `s` and a range of its absolute value. -/
structure SB (F : Fmt) {w : Nat} (t : BitVec w) (s a β lo hi : ℝ) : Prop where
  rb : RB F t (s * a) β
  lo : lo ≤ a
  hi : a ≤ hi

section
variable {F : Fmt} {w : Nat} {y z c : BitVec w} {s a b Z β γ μ δ lo hi hi' zlo zhi S : ℝ}

theorem SB.add0 (hy : SB F z 1 Z γ zlo zhi) (hc : isFinite F c = true ∧ rval F c = 1 * b) (h : FmtW F w) (hγ : 0 ≤ γ) (hzl : 0 ≤ zlo)
    (hb : 1 ≤ b) (hS0 : 0 ≤ S) (hS : (1 - S) * zhi ≤ S * b) (hS1 : S ≤ 1) (h1 : γ * S + 0 * 1 ≤ 1024)
    (hδ : (γ * S + 0 * 1) * (1 + 1 / 2 ^ 24) + 1 + 1 / 2 ^ 20 ≤ δ) (hhi : zhi + b ≤ hi') (hhi' : hi' ≤ 2 ^ 18) :
    SB F (fAdd F z c) 1 (Z + b) δ b hi' := by
  have hz0 : 0 ≤ Z := le_trans hzl hy.lo
  have hzh := hy.hi
  have hsum : 1 * Z + 1 * b = 1 * (Z + b) := by ring
  have habs : |1 * Z + 1 * b| = Z + b := by rw [hsum, one_mul, abs_of_nonneg (by linarith)]
  refine ⟨?_, by linarith, by linarith⟩
  rw [← hsum]
  refine hy.rb.add (RB.const hc) h hγ le_rfl (S := S) (T := 1) ?_ ?_ hS0 zero_le_one h1 ?_ ?_ hδ
  · rw [habs, one_mul, abs_of_nonneg hz0]
    have := mul_le_mul_of_nonneg_left hzh (show 0 ≤ 1 - S by linarith)
    linarith
  · rw [habs, one_mul, abs_of_nonneg (by linarith)]; linarith
  · rw [habs]; exact le_trans (by norm_num) (show (1 : ℝ) ≤ Z + b by linarith)
  · rw [habs]; linarith

/-- One step of a Horner scheme where all coefficients have the same sign. -/
theorem SB.step (hy : SB F y s a β lo hi) (hz : SB F z 1 Z γ zlo zhi) (hc : isFinite F c = true ∧ rval F c = s * b) (h : FmtW F w)
    (hs : |s| = 1) (hβ : 0 ≤ β) (hγ : 0 ≤ γ) (hzl : 1 / 2 ^ 20 ≤ zlo) (hlo : 1 / 2 ^ 20 ≤ lo) (hb : 1 ≤ b)
    (hμ1 : β + γ + β * γ / 2 ^ 24 ≤ 1024)
    (hμ : (β + γ + β * γ / 2 ^ 24) * (1 + 1 / 2 ^ 24) + 1 + 1 / 2 ^ 20 ≤ μ) (hS0 : 0 ≤ S) (hS : (1 - S) * (hi * zhi) ≤ S * b) (hS1 : S ≤ 1)
    (hδ : (μ * S + 0 * 1) * (1 + 1 / 2 ^ 24) + 1 + 1 / 2 ^ 20 ≤ δ) (h1 : μ * S + 0 * 1 ≤ 1024) (hhi : hi * zhi + b ≤ hi') (hhi' : hi' ≤ 2 ^ 18) :
    SB F (fAdd F (fMul F y z) c) s (a * Z + b) δ b hi' := by
  have l1 : 1 / 2 ^ 20 ≤ a := le_trans hlo hy.lo
  have l2 : 1 / 2 ^ 20 ≤ Z := le_trans hzl hz.lo
  have ha0 : 0 < a := lt_of_lt_of_le (by norm_num) l1
  have hz0 : 0 < Z := lt_of_lt_of_le (by norm_num) l2
  have haz : 0 < a * Z := mul_pos ha0 hz0
  have hazh : a * Z ≤ hi * zhi := mul_le_mul hy.hi hz.hi hz0.le (le_trans ha0.le hy.hi)
  have hp : |s * a * (1 * Z)| = a * Z := by rw [one_mul, mul_assoc, abs_mul, hs, one_mul, abs_of_pos haz]
  have hm := hy.rb.mul hz.rb h hβ hγ hμ1 (by
    rw [hp]
    exact le_trans (by norm_num) (mul_le_mul l1 l2 (by norm_num) ha0.le)) (by rw [hp]; linarith) hμ
  have hμ0 : 0 ≤ μ := le_trans (by positivity) hμ
  have hsum : s * a * (1 * Z) + s * b = s * (a * Z + b) := by ring
  have habs : |s * a * (1 * Z) + s * b| = a * Z + b := by rw [hsum, abs_mul, hs, one_mul, abs_of_pos (by linarith)]
  refine ⟨?_, by linarith, by linarith⟩
  rw [← hsum]
  refine hm.add (RB.const hc) h hμ0 le_rfl (S := S) (T := 1) ?_ ?_ hS0 zero_le_one h1 ?_ ?_ hδ
  · rw [habs, hp]
    have := mul_le_mul_of_nonneg_left hazh (show 0 ≤ 1 - S by linarith)
    linarith
  · rw [habs, abs_mul, hs, abs_of_nonneg (by linarith)]; linarith
  · rw [habs]; exact le_trans (by norm_num) (show (1 : ℝ) ≤ a * Z + b by linarith)
  · rw [habs]; linarith

end

/-- The quotient and the product. -/
theorem RB.frac {F : Fmt} {w : Nat} {t z p q : BitVec w} {Z P Q γ β κ a b c k : ℝ} (hf : isFinite F t = true) (hz : RB F z Z γ)
    (hp : RB F p (-1 * P) β) (hq : RB F q (1 * Q) κ) (h : FmtW F w) (hZ : 1 / 256 ≤ Z) (hP : 64 ≤ P) (hQ : 194 ≤ Q)
    (ht : 1 / 16 ≤ |rval F t|) (hk : Z * P ≤ k * Q) (hk1 : k ≤ 1) (hγ : 0 ≤ γ) (hβ : 0 ≤ β) (hκ : 0 ≤ κ) (hκ' : κ ≤ 256)
    (h1 : γ + β + γ * β / 2 ^ 24 ≤ 100)
    (ha : (γ + β + γ * β / 2 ^ 24) * (1 + 1 / 2 ^ 24) + 1 + 1 / 2 ^ 20 ≤ a) (ha' : a ≤ 100)
    (hb : (a + κ) * (1 + 1 / 2 ^ 14) + 1 + 1 / 2 ^ 20 ≤ b) (hb' : 0 + b + 0 * b / 2 ^ 24 ≤ 1024)
    (hc : (0 + b + 0 * b / 2 ^ 24) * (1 + 1 / 2 ^ 24) + 1 + 1 / 2 ^ 20 ≤ c) (hPQ : Q ≤ 2000) (ht' : |rval F t| ≤ 1) :
    RB F (fMul F t (fDiv F (fMul F z p) q)) (rval F t * (Z * (-1 * P) / (1 * Q))) c := by
  have hZ0 : 0 < Z := lt_of_lt_of_le (by norm_num) hZ
  have hZP : 1 / 4 ≤ Z * P := le_trans (by norm_num) (mul_le_mul hZ hP (by norm_num) hZ0.le)
  have e1 : |Z * (-1 * P)| = Z * P := by rw [show Z * (-1 * P) = -(Z * P) by ring, abs_neg, abs_of_pos (by linarith)]
  have hkQ : k * Q ≤ 1 * Q := mul_le_mul_of_nonneg_right hk1 (by linarith)
  have m1 := hz.mul hp h hγ hβ (le_trans h1 (by norm_num)) (by rw [e1]; exact le_trans (by norm_num) hZP) (by rw [e1]; linarith) ha
  have ha0 : 0 ≤ a := le_trans (by positivity) ha
  have e2 : |Z * (-1 * P) / (1 * Q)| = Z * P / Q := by rw [abs_div, e1, one_mul, abs_of_pos (by linarith)]
  have l2 : 1 / 2 ^ 20 ≤ Z * P / Q := by
    rw [le_div_iff₀ (by linarith)]
    linarith
  have u2 : Z * P / Q ≤ 1 := by
    rw [div_le_iff₀ (by linarith)]
    linarith
  have m2 := m1.div hq h ha0 hκ (le_trans ha' (by norm_num)) hκ' (by rw [e2]; exact le_trans (by norm_num) l2)
    (by rw [e2]; exact le_trans u2 (by norm_num)) hb
  have hb0 : 0 ≤ b := le_trans (by positivity) hb
  refine (RB.exact hf).mul m2 h le_rfl hb0 hb' ?_ ?_ hc
  · rw [abs_mul, e2]
    exact le_trans (by norm_num) (mul_le_mul ht l2 (by norm_num) (abs_nonneg _))
  · rw [abs_mul, e2]
    exact le_trans (mul_le_mul ht' u2 (le_trans (by norm_num) l2) (by norm_num)) (by norm_num)

theorem atD0_cheb : chebBound (0) (1 / 256) (atDDiff 8) ≤ 5753 / 10000000000000000000 := by decide +kernel

theorem atD0_apx {t : ℝ} (h1 : 0 ≤ |t|) (h2 : |t| ≤ 1 / 16) : |t + atVR t - Real.arctan t| ≤ 17 / 625 * uRel f64 * |t| := by
  have h3 : t * t ≤ (1 / 16) ^ 2 := by
    have := pow_le_pow_left₀ (abs_nonneg t) h2 2
    rw [sq_abs] at this
    linarith [sq t]
  have h4 : (0) ^ 2 ≤ t * t := by
    have := pow_le_pow_left₀ (by norm_num) h1 2
    rw [sq_abs] at this
    linarith [sq t]
  have := atD_apxG (C := 17 / 625) (q0 := 3891 / 20) (tl := 11 / 200000000000000000000) atD0_cheb (by norm_num) (by norm_num) (by norm_num) (t := t)
    (by push_cast; norm_num at h4 ⊢; linarith) (by push_cast; norm_num at h3 ⊢; linarith) (by unfold atQR; push_cast; norm_num) (by norm_num) (by norm_num) (by norm_num)
  push_cast at this
  exact this

/-- Small arguments. -/
theorem atD_small {t : BitVec 64} (hf : isFinite f64 t = true) (hle : |rval f64 t| ≤ 1 / 16) :
    (isFinite f64 (atWD t) = true ∧ |rval f64 (atWD t) + rval f64 t - Real.arctan (rval f64 t)| ≤ 183 / 5000 * uRel f64 * |rval f64 t|) ∧
    (isFinite f64 (fAdd f64 (atWD t) t) = true ∧
    |rval f64 (fAdd f64 (atWD t) t) - Real.arctan (rval f64 t)| ≤ 519 / 500 * uRel f64 * |rval f64 t|) := by
  have s1 := scale_one (F := f64) .double
  have hu : uRel f64 = 1 / 9007199254740992 := by unfold uRel; norm_num [f64]
  have hQ : (194 : ℝ) ≤ |atQR (rval f64 t * rval f64 t)| := le_trans (atQR_pos (mul_self_nonneg _)) (le_abs_self _)
  unfold atQR at hQ
  have hx : RApx f64 t 1 (rval f64 t) (0 * uRel f64) (1 / 16) := (RApx.self hf (by rw [mul_one]; exact hle)).exactU
  have m0 := hx.mul1U hx .double (by norm_num) (by norm_num) (by norm_num) (by norm_num)
    (R := 391 / 100000) (by norm_num) (by norm_num) (δ := 1 / 250) (by norm_num)
  have k1 := (RApx.const atD_p0 (Q := 87507 / 100000) (by norm_num [abs_le])).exactU
  have m2 := k1.mul1U m0 .double (by norm_num) (by norm_num) (by norm_num) (by norm_num)
    (R := 343 / 100000) (by norm_num) (by norm_num) (δ := 7 / 1000) (by norm_num)
  have k3 := (RApx.const atD_p1 (Q := 807877 / 50000) (by norm_num [abs_le])).exactU
  have m4 := m2.addUB k3 .double s1 (by norm_num) (R := 1616097 / 100000) (by norm_num) (by norm_num) (δ := 2021 / 125) (by norm_num)
  have m5 := m4.mul1U m0 .double (by norm_num) (by norm_num) (by norm_num) (by norm_num)
    (R := 6319 / 100000) (by norm_num) (by norm_num) (δ := 1911 / 10000) (by norm_num)
  have k6 := (RApx.const atD_p2 (Q := 937607 / 12500) (by norm_num [abs_le])).exactU
  have m7 := m5.addUB k6 .double s1 (by norm_num) (R := 300287 / 4000) (by norm_num) (by norm_num) (δ := 752629 / 10000) (by norm_num)
  have m8 := m7.mul1U m0 .double (by norm_num) (by norm_num) (by norm_num) (by norm_num)
    (R := 14677 / 50000) (by norm_num) (by norm_num) (δ := 8881 / 10000) (by norm_num)
  have k9 := (RApx.const atD_p3 (Q := 12288667 / 100000) (by norm_num [abs_le])).exactU
  have m10 := m8.addUB k9 .double s1 (by norm_num) (R := 12318021 / 100000) (by norm_num) (by norm_num) (δ := 310171 / 2500) (by norm_num)
  have m11 := m10.mul1U m0 .double (by norm_num) (by norm_num) (by norm_num) (by norm_num)
    (R := 12041 / 25000) (by norm_num) (by norm_num) (δ := 2919 / 2000) (by norm_num)
  have k12 := (RApx.const atD_p4 (Q := 3242511 / 50000) (by norm_num [abs_le])).exactU
  have m13 := m11.addUB k12 .double s1 (by norm_num) (R := 3266593 / 50000) (by norm_num) (by norm_num) (δ := 333957 / 5000) (by norm_num)
  have k14 := (RApx.const atD_q0 (Q := 2485847 / 100000) (by norm_num [abs_le])).exactU
  have m15 := m0.addUB k14 .double s1 (by norm_num) (R := 1243119 / 50000) (by norm_num) (by norm_num) (δ := 31083 / 1250) (by norm_num)
  have m16 := m15.mul1U m0 .double (by norm_num) (by norm_num) (by norm_num) (by norm_num)
    (R := 4861 / 50000) (by norm_num) (by norm_num) (δ := 2939 / 10000) (by norm_num)
  have k17 := (RApx.const atD_q1 (Q := 16502701 / 100000) (by norm_num [abs_le])).exactU
  have m18 := m16.addUB k17 .double s1 (by norm_num) (R := 16512423 / 100000) (by norm_num) (by norm_num) (δ := 827091 / 5000) (by norm_num)
  have m19 := m18.mul1U m0 .double (by norm_num) (by norm_num) (by norm_num) (by norm_num)
    (R := 16141 / 25000) (by norm_num) (by norm_num) (δ := 1953 / 1000) (by norm_num)
  have k20 := (RApx.const atD_q2 (Q := 43288107 / 100000) (by norm_num [abs_le])).exactU
  have m21 := m19.addUB k20 .double s1 (by norm_num) (R := 43352671 / 100000) (by norm_num) (by norm_num) (δ := 2177399 / 5000) (by norm_num)
  have m22 := m21.mul1U m0 .double (by norm_num) (by norm_num) (by norm_num) (by norm_num)
    (R := 169509 / 100000) (by norm_num) (by norm_num) (δ := 1283 / 250) (by norm_num)
  have k23 := (RApx.const atD_q3 (Q := 303369 / 625) (by norm_num [abs_le])).exactU
  have m24 := m22.addUB k23 .double s1 (by norm_num) (R := 48708549 / 100000) (by norm_num) (by norm_num) (δ := 196887 / 400) (by norm_num)
  have m25 := m24.mul1U m0 .double (by norm_num) (by norm_num) (by norm_num) (by norm_num)
    (R := 190451 / 100000) (by norm_num) (by norm_num) (δ := 2311 / 400) (by norm_num)
  have k26 := (RApx.const atD_q4 (Q := 9727533 / 50000) (by norm_num [abs_le])).exactU
  have m27 := m25.addUB k26 .double s1 (by norm_num) (R := 19645517 / 100000) (by norm_num) (by norm_num) (δ := 2022327 / 10000) (by norm_num)
  have m28 := m0.mul1U m13 .double (by norm_num) (by norm_num) (by norm_num) (by norm_num)
    (R := 5109 / 20000) (by norm_num) (by norm_num) (δ := 389 / 500) (by norm_num)
  have md := m28.divU m27 .double s1 (by norm_num) (by norm_num) (by norm_num) (by norm_num) (L := 194) hQ (by norm_num) (R := 1317 / 1000000) (by norm_num) (by norm_num) (by norm_num) (δ := 401 / 50000) (by norm_num) (by norm_num)
  unfold atWD
  rcases scale_or_tiny (F := f64) (le_trans hle (by norm_num)) with hσ | htiny
  · have hs : RApx f64 t |rval f64 t| (rval f64 t) (0 * uRel f64) 1 := (RApx.self hf (by rw [one_mul])).exactU
    have mw := hs.mulU md .double (abs_nonneg _) (by rw [mul_one]; exact hσ) (by norm_num) (by norm_num) (by norm_num) (by norm_num)
      (R := 1317 / 1000000) (by norm_num) (by norm_num) (δ := 467 / 50000) (by norm_num)
    rw [mul_one] at mw
    have ms := mw.addUB hs .double hσ (by norm_num) (R := 1001317 / 1000000) (by norm_num) (by norm_num) (δ := 10107 / 10000) (by norm_num)
    have e : ∀ T : ℝ, T * (T * T * ((((-(1970461881518437 / 2251799813685248) * (T * T) + -(2273971201753149 / 140737488355328)) * (T * T) + -(5278258023629427 / 70368744177664)) * (T * T) + -(8647380534934053 / 70368744177664)) * (T * T) + -(2281714237077063 / 35184372088832)) / ((((((T * T) + 1749258957297679 / 70368744177664) * (T * T) + 5806371718625829 / 35184372088832) * (T * T) + 7615324151266875 / 17592186044416) * (T * T) + 4269539107284213 / 8796093022208) * (T * T) + 1711285677807803 / 8796093022208)) = atVR T := by
      intro T
      unfold atVR
      rw [show -(T * T * atPR (T * T)) = T * T * ((((-(1970461881518437 / 2251799813685248) * (T * T) + -(2273971201753149 / 140737488355328)) * (T * T) + -(5278258023629427 / 70368744177664)) * (T * T) + -(8647380534934053 / 70368744177664)) * (T * T) + -(2281714237077063 / 35184372088832)) by unfold atPR; ring]
      unfold atQR
      rfl
    rw [e] at mw ms
    have hp := atD0_apx (t := rval f64 t) (abs_nonneg _) hle
    have h0 := abs_nonneg (rval f64 t)
    refine ⟨⟨mw.fin, ?_⟩, ms.fin, ?_⟩
    · have e1 := mw.err
      rw [show ∀ a b c d : ℝ, a + b - c = (a - d) + (b + d - c) by intros; ring]
      refine le_trans (abs_add_le _ _) (le_trans (add_le_add e1 hp) ?_)
      rw [← add_mul, hu]
      exact mul_le_mul_of_nonneg_right (by norm_num) h0
    · have e1 := ms.err
      rw [add_comm] at hp
      refine le_trans (abs_sub_le _ _ _) (le_trans (add_le_add e1 hp) ?_)
      rw [← add_mul, hu]
      exact mul_le_mul_of_nonneg_right (by norm_num) h0
  · have z2 := fMul_vanish .double hf hf (tiny_sq .double htiny)
    have z3 := fMul_zero' .double z2.1 m13.fin z2.2
    have hq0 : rval f64 (fAdd f64 (fMul f64 (fAdd f64 (fMul f64 (fAdd f64 (fMul f64 (fAdd f64 (fMul f64 (fAdd f64 (fMul f64 t t) 0x4038dbc45b14603c#64) (fMul f64 t t)) 0x4064a0dd43b8fa25#64) (fMul f64 t t)) 0x407b0e18d2e2be3b#64) (fMul f64 t t)) 0x407e563f13b049ea#64) (fMul f64 t t)) 0x4068519efbbd62ec#64) ≠ 0 := by
      have e1 := m27.err
      rw [mul_one, hu] at e1
      intro hcon
      rw [hcon, zero_sub, abs_neg] at e1
      norm_num at e1 hQ
      linarith
    have z4 := fDiv_vanish .double z3.1 m27.fin hq0 (by rw [z3.2, zero_div, abs_zero]; exact uAbs_pos f64)
    have z5 := fMul_repr .double hf z4.1 (repr_zero .double) (by rw [z4.2, mul_zero])
    have z6 := fAdd_zero' .double z5.1 hf z5.2
    have h0 := mul_nonneg (uRel_pos f64).le (abs_nonneg (rval f64 t))
    have key : |rval f64 t - Real.arctan (rval f64 t)| ≤ 183 / 5000 * uRel f64 * |rval f64 t| := by
      exact tiny_atan' .double htiny (by rw [hu]; norm_num)
    refine ⟨⟨z5.1, ?_⟩, z6.1, ?_⟩
    · rw [z5.2, zero_add]; exact key
    · rw [z6.2]; refine le_trans key ?_; linarith

theorem atD1_cheb : chebBound (0) (1190281 / 25000000) (atDDiff 16) ≤ 4599 / 5000000000000000000 := by decide +kernel

theorem atD1_apx {t : ℝ} (h1 : 0 ≤ |t|) (h2 : |t| ≤ 1091 / 5000) : |t + atVR t - Real.arctan t| ≤ 213 / 5000 * uRel f64 * |t| := by
  have h3 : t * t ≤ (1091 / 5000) ^ 2 := by
    have := pow_le_pow_left₀ (abs_nonneg t) h2 2
    rw [sq_abs] at this
    linarith [sq t]
  have h4 : (0) ^ 2 ≤ t * t := by
    have := pow_le_pow_left₀ (by norm_num) h1 2
    rw [sq_abs] at this
    linarith [sq t]
  have := atD_apxG (C := 213 / 5000) (q0 := 3891 / 20) (tl := 1 / 1000000000000000000000) atD1_cheb (by norm_num) (by norm_num) (by norm_num) (t := t)
    (by push_cast; norm_num at h4 ⊢; linarith) (by push_cast; norm_num at h3 ⊢; linarith) (by unfold atQR; push_cast; norm_num) (by norm_num) (by norm_num) (by norm_num)
  push_cast at this
  exact this

theorem atD1_kappa {z : ℝ} (h0 : 0 ≤ z) (h1 : z ≤ 1190281 / 25000000) : z * atPR z ≤ 193 / 12500 * atQR z := by
  have z2 : z ^ 2 ≤ (1190281 / 25000000) ^ 2 := pow_le_pow_left₀ h0 h1 2
  have z3 : z ^ 3 ≤ (1190281 / 25000000) ^ 3 := pow_le_pow_left₀ h0 h1 3
  have z4 : z ^ 4 ≤ (1190281 / 25000000) ^ 4 := pow_le_pow_left₀ h0 h1 4
  have z5 : z ^ 5 ≤ (1190281 / 25000000) ^ 5 := pow_le_pow_left₀ h0 h1 5
  unfold atPR atQR
  norm_num at z2 z3 z4 z5
  nlinarith only [z2, z3, z4, z5, h0, h1]

/-- The error of the quotient for larger arguments. -/
theorem atD1_w {t : BitVec 64} (hf : isFinite f64 t = true) (h1 : 1 / 16 ≤ |rval f64 t|) (h2 : |rval f64 t| ≤ 1091 / 5000) :
    isFinite f64 (atWD t) = true ∧ |rval f64 (atWD t) - atVR (rval f64 t)| ≤ 511 / 5000 * uRel f64 * |rval f64 t| := by
  have z1 : 1 / 256 ≤ rval f64 t * rval f64 t := by
    rw [← abs_mul_abs_self]
    exact le_trans (by norm_num) (mul_le_mul h1 h1 (by norm_num) (abs_nonneg _))
  have z2 : rval f64 t * rval f64 t ≤ 1190281 / 25000000 := by
    rw [← abs_mul_abs_self]
    exact le_trans (mul_le_mul h2 h2 (abs_nonneg _) (by norm_num)) (by norm_num)
  have hz := (RB.exact hf).mul (RB.exact hf) .double le_rfl le_rfl (by norm_num) (by rw [abs_mul_abs_self']; exact le_trans (by norm_num) z1) (by rw [abs_mul_abs_self']; exact le_trans z2 (by norm_num)) (δ := 1001 / 1000) (by norm_num)
  have hz' : SB f64 (fMul f64 t t) 1 (rval f64 t * rval f64 t) (1001 / 1000) (1 / 256) (1190281 / 25000000) := ⟨by rw [one_mul]; exact hz, z1, by norm_num at z2 ⊢; linarith⟩
  have hp0 : SB f64 0xbfec007fa1f72594#64 (-1) (1970461881518437 / 2251799813685248) 0 (1970461881518437 / 2251799813685248) (1970461881518437 / 2251799813685248) := ⟨RB.const ⟨atD_p0.1, by rw [atD_p0.2]; ring⟩, le_rfl, le_rfl⟩
  have hp1 := hp0.step hz' ⟨atD_p1.1, by rw [atD_p1.2]; ring⟩ .double (by norm_num) (b := 2273971201753149 / 140737488355328) (by norm_num) (by norm_num) (by norm_num) (by norm_num) (by norm_num) (by norm_num) (μ := 1001 / 500) (by norm_num) (S := 3 / 1000) (by norm_num) (by norm_num) (by norm_num) (δ := 1007 / 1000) (by norm_num) (hi' := 20249 / 1250) (by norm_num) (by norm_num) (by norm_num)
  have hp2 := hp1.step hz' ⟨atD_p2.1, by rw [atD_p2.2]; ring⟩ .double (by norm_num) (b := 5278258023629427 / 70368744177664) (by norm_num) (by norm_num) (by norm_num) (by norm_num) (by norm_num) (by norm_num) (μ := 3009 / 1000) (by norm_num) (S := 11 / 1000) (by norm_num) (by norm_num) (by norm_num) (δ := 517 / 500) (by norm_num) (hi' := 37889911 / 500000) (by norm_num) (by norm_num) (by norm_num)
  have hp3 := hp2.step hz' ⟨atD_p3.1, by rw [atD_p3.2]; ring⟩ .double (by norm_num) (b := 8647380534934053 / 70368744177664) (by norm_num) (by norm_num) (by norm_num) (by norm_num) (by norm_num) (by norm_num) (μ := 759 / 250) (by norm_num) (S := 29 / 1000) (by norm_num) (by norm_num) (by norm_num) (δ := 1089 / 1000) (by norm_num) (hi' := 1581183 / 12500) (by norm_num) (by norm_num) (by norm_num)
  have hp4 := hp3.step hz' ⟨atD_p4.1, by rw [atD_p4.2]; ring⟩ .double (by norm_num) (b := 2281714237077063 / 35184372088832) (by norm_num) (by norm_num) (by norm_num) (by norm_num) (by norm_num) (by norm_num) (μ := 3091 / 1000) (by norm_num) (S := 17 / 200) (by norm_num) (by norm_num) (by norm_num) (δ := 1263 / 1000) (by norm_num) (hi' := 35436393 / 500000) (by norm_num) (by norm_num) (by norm_num)
  have hq0 := hz'.add0 ⟨atD_q0.1, by rw [atD_q0.2]; ring⟩ .double (b := 1749258957297679 / 70368744177664) (by norm_num) (by norm_num) (by norm_num) (by norm_num) (S := 1 / 500) (by norm_num) (by norm_num) (by norm_num) (δ := 1003 / 1000) (by norm_num) (hi' := 24906077 / 1000000) (by norm_num) (by norm_num)
  have hq1 := hq0.step hz' ⟨atD_q1.1, by rw [atD_q1.2]; ring⟩ .double (by norm_num) (b := 5806371718625829 / 35184372088832) (by norm_num) (by norm_num) (by norm_num) (by norm_num) (by norm_num) (by norm_num) (μ := 601 / 200) (by norm_num) (S := 1 / 125) (by norm_num) (by norm_num) (by norm_num) (δ := 41 / 40) (by norm_num) (hi' := 8310641 / 50000) (by norm_num) (by norm_num) (by norm_num)
  have hq2 := hq1.step hz' ⟨atD_q2.1, by rw [atD_q2.2]; ring⟩ .double (by norm_num) (b := 7615324151266875 / 17592186044416) (by norm_num) (by norm_num) (by norm_num) (by norm_num) (by norm_num) (by norm_num) (μ := 3027 / 1000) (by norm_num) (S := 9 / 500) (by norm_num) (by norm_num) (by norm_num) (δ := 211 / 200) (by norm_num) (hi' := 440794659 / 1000000) (by norm_num) (by norm_num) (by norm_num)
  have hq3 := hq2.step hz' ⟨atD_q3.1, by rw [atD_q3.2]; ring⟩ .double (by norm_num) (b := 4269539107284213 / 8796093022208) (by norm_num) (by norm_num) (by norm_num) (by norm_num) (by norm_num) (by norm_num) (μ := 3057 / 1000) (by norm_num) (S := 21 / 500) (by norm_num) (by norm_num) (by norm_num) (δ := 1129 / 1000) (by norm_num) (hi' := 25318859 / 50000) (by norm_num) (by norm_num) (by norm_num)
  have hq4 := hq3.step hz' ⟨atD_q4.1, by rw [atD_q4.2]; ring⟩ .double (by norm_num) (b := 1711285677807803 / 8796093022208) (by norm_num) (by norm_num) (by norm_num) (by norm_num) (by norm_num) (by norm_num) (μ := 3131 / 1000) (by norm_num) (S := 111 / 1000) (by norm_num) (by norm_num) (by norm_num) (δ := 337 / 250) (by norm_num) (hi' := 218659903 / 1000000) (by norm_num) (by norm_num) (by norm_num)
  have hk := atD1_kappa (mul_self_nonneg (rval f64 t)) z2
  have hQ := atQR_pos (mul_self_nonneg (rval f64 t))
  have hP := atPR_pos (mul_self_nonneg (rval f64 t))
  have hu := uRel_pos f64
  have hp : RB f64 _ (-1 * atPR (rval f64 t * rval f64 t)) (1263 / 1000) := hp4.rb
  have hq : RB f64 _ (1 * atQR (rval f64 t * rval f64 t)) (337 / 250) := hq4.rb
  clear hp0 hp1 hp2 hp3 hp4 hq0 hq1 hq2 hq3 hq4 hz'
  have hfrac := RB.frac hf hz hp hq .double z1 hP hQ h1 hk (by norm_num) (by norm_num) (by norm_num) (by norm_num)
    (by norm_num) (by norm_num) (a := 653 / 200) (by norm_num) (by norm_num) (b := 2807 / 500) (by norm_num) (by norm_num) (c := 1323 / 200) (by norm_num)
    (atQR_le (mul_self_nonneg _) (le_trans z2 (by norm_num))) (le_trans h2 (by norm_num))
  refine ⟨hfrac.fin, ?_⟩
  have e : rval f64 t * (rval f64 t * rval f64 t * (-1 * atPR (rval f64 t * rval f64 t)) / (1 * atQR (rval f64 t * rval f64 t))) = atVR (rval f64 t) := by
    unfold atVR; rw [one_mul]; ring
  have he := hfrac.err
  rw [e] at he
  refine le_trans he ?_
  have hv : |atVR (rval f64 t)| ≤ 193 / 12500 * |rval f64 t| := by
    unfold atVR
    rw [abs_mul, mul_comm, abs_div, abs_neg, abs_of_pos (show 0 < atQR (rval f64 t * rval f64 t) by linarith)]
    refine mul_le_mul_of_nonneg_right ?_ (abs_nonneg _)
    rw [div_le_iff₀ (by linarith), abs_of_nonneg (mul_nonneg (mul_self_nonneg _) (by linarith))]
    exact hk
  have h3 := mul_le_mul_of_nonneg_left hv (show 0 ≤ 1323 / 200 * uRel f64 by positivity)
  have h4 : 0 ≤ uRel f64 * |rval f64 t| := mul_nonneg hu.le (abs_nonneg _)
  linarith

/-- The error before the last rounding. -/
theorem atD1_pre {t : BitVec 64} (hf : isFinite f64 t = true) (h1 : 1 / 16 ≤ |rval f64 t|) (h2 : |rval f64 t| ≤ 1091 / 5000) :
    isFinite f64 (atWD t) = true ∧ |rval f64 (atWD t) + rval f64 t - Real.arctan (rval f64 t)| ≤ 181 / 1250 * uRel f64 * |rval f64 t| := by
  obtain ⟨f, e⟩ := atD1_w hf (le_trans (by norm_num) h1) h2
  have hp := atD1_apx (t := rval f64 t) (le_trans (by norm_num) h1) h2
  refine ⟨f, ?_⟩
  rw [show ∀ a b c d : ℝ, a + b - c = (a - d) + (b + d - c) by intros; ring]
  refine le_trans (abs_add_le _ _) (le_trans (add_le_add e hp) ?_)
  have := mul_nonneg (uRel_pos f64).le (abs_nonneg (rval f64 t))
  linarith

theorem atD2_cheb : chebBound (0) (1 / 4) (atDDiff 34) ≤ 14561 / 5000000000000000000 := by decide +kernel

theorem atD2_apx {t : ℝ} (h1 : 0 ≤ |t|) (h2 : |t| ≤ 1 / 2) : |t + atVR t - Real.arctan t| ≤ 1349 / 10000 * uRel f64 * |t| := by
  have h3 : t * t ≤ (1 / 2) ^ 2 := by
    have := pow_le_pow_left₀ (abs_nonneg t) h2 2
    rw [sq_abs] at this
    linarith [sq t]
  have h4 : (0) ^ 2 ≤ t * t := by
    have := pow_le_pow_left₀ (by norm_num) h1 2
    rw [sq_abs] at this
    linarith [sq t]
  have := atD_apxG (C := 1349 / 10000) (q0 := 3891 / 20) (tl := 1 / 200000000000000000000) atD2_cheb (by norm_num) (by norm_num) (by norm_num) (t := t)
    (by push_cast; norm_num at h4 ⊢; linarith) (by push_cast; norm_num at h3 ⊢; linarith) (by unfold atQR; push_cast; norm_num) (by norm_num) (by norm_num) (by norm_num)
  push_cast at this
  exact this

theorem atD2_kappa {z : ℝ} (h0 : 0 ≤ z) (h1 : z ≤ 1 / 4) : z * atPR z ≤ 7271 / 100000 * atQR z := by
  have z2 : z ^ 2 ≤ (1 / 4) ^ 2 := pow_le_pow_left₀ h0 h1 2
  have z3 : z ^ 3 ≤ (1 / 4) ^ 3 := pow_le_pow_left₀ h0 h1 3
  have z4 : z ^ 4 ≤ (1 / 4) ^ 4 := pow_le_pow_left₀ h0 h1 4
  have z5 : z ^ 5 ≤ (1 / 4) ^ 5 := pow_le_pow_left₀ h0 h1 5
  unfold atPR atQR
  norm_num at z2 z3 z4 z5
  nlinarith only [z2, z3, z4, z5, h0, h1]

/-- The error of the quotient for larger arguments. -/
theorem atD2_w {t : BitVec 64} (hf : isFinite f64 t = true) (h1 : 1 / 16 ≤ |rval f64 t|) (h2 : |rval f64 t| ≤ 1 / 2) :
    isFinite f64 (atWD t) = true ∧ |rval f64 (atWD t) - atVR (rval f64 t)| ≤ 6417 / 10000 * uRel f64 * |rval f64 t| := by
  have z1 : 1 / 256 ≤ rval f64 t * rval f64 t := by
    rw [← abs_mul_abs_self]
    exact le_trans (by norm_num) (mul_le_mul h1 h1 (by norm_num) (abs_nonneg _))
  have z2 : rval f64 t * rval f64 t ≤ 1 / 4 := by
    rw [← abs_mul_abs_self]
    exact le_trans (mul_le_mul h2 h2 (abs_nonneg _) (by norm_num)) (by norm_num)
  have hz := (RB.exact hf).mul (RB.exact hf) .double le_rfl le_rfl (by norm_num) (by rw [abs_mul_abs_self']; exact le_trans (by norm_num) z1) (by rw [abs_mul_abs_self']; exact le_trans z2 (by norm_num)) (δ := 1001 / 1000) (by norm_num)
  have hz' : SB f64 (fMul f64 t t) 1 (rval f64 t * rval f64 t) (1001 / 1000) (1 / 256) (1 / 4) := ⟨by rw [one_mul]; exact hz, z1, by norm_num at z2 ⊢; linarith⟩
  have hp0 : SB f64 0xbfec007fa1f72594#64 (-1) (1970461881518437 / 2251799813685248) 0 (1970461881518437 / 2251799813685248) (1970461881518437 / 2251799813685248) := ⟨RB.const ⟨atD_p0.1, by rw [atD_p0.2]; ring⟩, le_rfl, le_rfl⟩
  have hp1 := hp0.step hz' ⟨atD_p1.1, by rw [atD_p1.2]; ring⟩ .double (by norm_num) (b := 2273971201753149 / 140737488355328) (by norm_num) (by norm_num) (by norm_num) (by norm_num) (by norm_num) (by norm_num) (μ := 1001 / 500) (by norm_num) (S := 7 / 500) (by norm_num) (by norm_num) (by norm_num) (δ := 1029 / 1000) (by norm_num) (hi' := 16376303 / 1000000) (by norm_num) (by norm_num) (by norm_num)
  have hp2 := hp1.step hz' ⟨atD_p2.1, by rw [atD_p2.2]; ring⟩ .double (by norm_num) (b := 5278258023629427 / 70368744177664) (by norm_num) (by norm_num) (by norm_num) (by norm_num) (by norm_num) (by norm_num) (μ := 3031 / 1000) (by norm_num) (S := 13 / 250) (by norm_num) (by norm_num) (by norm_num) (δ := 579 / 500) (by norm_num) (hi' := 39551317 / 500000) (by norm_num) (by norm_num) (by norm_num)
  have hp3 := hp2.step hz' ⟨atD_p3.1, by rw [atD_p3.2]; ring⟩ .double (by norm_num) (b := 8647380534934053 / 70368744177664) (by norm_num) (by norm_num) (by norm_num) (by norm_num) (by norm_num) (by norm_num) (μ := 79 / 25) (by norm_num) (S := 139 / 1000) (by norm_num) (by norm_num) (by norm_num) (δ := 36 / 25) (by norm_num) (hi' := 142662327 / 1000000) (by norm_num) (by norm_num) (by norm_num)
  have hp4 := hp3.step hz' ⟨atD_p4.1, by rw [atD_p4.2]; ring⟩ .double (by norm_num) (b := 2281714237077063 / 35184372088832) (by norm_num) (by norm_num) (by norm_num) (by norm_num) (by norm_num) (by norm_num) (μ := 1721 / 500) (by norm_num) (S := 71 / 200) (by norm_num) (by norm_num) (by norm_num) (δ := 1111 / 500) (by norm_num) (hi' := 100515801 / 1000000) (by norm_num) (by norm_num) (by norm_num)
  have hq0 := hz'.add0 ⟨atD_q0.1, by rw [atD_q0.2]; ring⟩ .double (b := 1749258957297679 / 70368744177664) (by norm_num) (by norm_num) (by norm_num) (by norm_num) (S := 1 / 100) (by norm_num) (by norm_num) (by norm_num) (δ := 1011 / 1000) (by norm_num) (hi' := 5021693 / 200000) (by norm_num) (by norm_num)
  have hq1 := hq0.step hz' ⟨atD_q1.1, by rw [atD_q1.2]; ring⟩ .double (by norm_num) (b := 5806371718625829 / 35184372088832) (by norm_num) (by norm_num) (by norm_num) (by norm_num) (by norm_num) (by norm_num) (μ := 3013 / 1000) (by norm_num) (S := 37 / 1000) (by norm_num) (by norm_num) (by norm_num) (δ := 139 / 125) (by norm_num) (hi' := 171304127 / 1000000) (by norm_num) (by norm_num) (by norm_num)
  have hq2 := hq1.step hz' ⟨atD_q2.1, by rw [atD_q2.2]; ring⟩ .double (by norm_num) (b := 7615324151266875 / 17592186044416) (by norm_num) (by norm_num) (by norm_num) (by norm_num) (by norm_num) (by norm_num) (μ := 1557 / 500) (by norm_num) (S := 91 / 1000) (by norm_num) (by norm_num) (by norm_num) (δ := 321 / 250) (by norm_num) (hi' := 475707093 / 1000000) (by norm_num) (by norm_num) (by norm_num)
  have hq3 := hq2.step hz' ⟨atD_q3.1, by rw [atD_q3.2]; ring⟩ .double (by norm_num) (b := 4269539107284213 / 8796093022208) (by norm_num) (by norm_num) (by norm_num) (by norm_num) (by norm_num) (by norm_num) (μ := 1643 / 500) (by norm_num) (S := 197 / 1000) (by norm_num) (by norm_num) (by norm_num) (δ := 206 / 125) (by norm_num) (hi' := 604317173 / 1000000) (by norm_num) (by norm_num) (by norm_num)
  have hq4 := hq3.step hz' ⟨atD_q4.1, by rw [atD_q4.2]; ring⟩ .double (by norm_num) (b := 1711285677807803 / 8796093022208) (by norm_num) (by norm_num) (by norm_num) (by norm_num) (by norm_num) (by norm_num) (μ := 73 / 20) (by norm_num) (S := 219 / 500) (by norm_num) (by norm_num) (by norm_num) (δ := 2599 / 1000) (by norm_num) (hi' := 345629951 / 1000000) (by norm_num) (by norm_num) (by norm_num)
  have hk := atD2_kappa (mul_self_nonneg (rval f64 t)) z2
  have hQ := atQR_pos (mul_self_nonneg (rval f64 t))
  have hP := atPR_pos (mul_self_nonneg (rval f64 t))
  have hu := uRel_pos f64
  have hp : RB f64 _ (-1 * atPR (rval f64 t * rval f64 t)) (1111 / 500) := hp4.rb
  have hq : RB f64 _ (1 * atQR (rval f64 t * rval f64 t)) (2599 / 1000) := hq4.rb
  clear hp0 hp1 hp2 hp3 hp4 hq0 hq1 hq2 hq3 hq4 hz'
  have hfrac := RB.frac hf hz hp hq .double z1 hP hQ h1 hk (by norm_num) (by norm_num) (by norm_num) (by norm_num)
    (by norm_num) (by norm_num) (a := 528 / 125) (by norm_num) (by norm_num) (b := 978 / 125) (by norm_num) (by norm_num) (c := 353 / 40) (by norm_num)
    (atQR_le (mul_self_nonneg _) (le_trans z2 (by norm_num))) (le_trans h2 (by norm_num))
  refine ⟨hfrac.fin, ?_⟩
  have e : rval f64 t * (rval f64 t * rval f64 t * (-1 * atPR (rval f64 t * rval f64 t)) / (1 * atQR (rval f64 t * rval f64 t))) = atVR (rval f64 t) := by
    unfold atVR; rw [one_mul]; ring
  have he := hfrac.err
  rw [e] at he
  refine le_trans he ?_
  have hv : |atVR (rval f64 t)| ≤ 7271 / 100000 * |rval f64 t| := by
    unfold atVR
    rw [abs_mul, mul_comm, abs_div, abs_neg, abs_of_pos (show 0 < atQR (rval f64 t * rval f64 t) by linarith)]
    refine mul_le_mul_of_nonneg_right ?_ (abs_nonneg _)
    rw [div_le_iff₀ (by linarith), abs_of_nonneg (mul_nonneg (mul_self_nonneg _) (by linarith))]
    exact hk
  have h3 := mul_le_mul_of_nonneg_left hv (show 0 ≤ 353 / 40 * uRel f64 by positivity)
  have h4 : 0 ≤ uRel f64 * |rval f64 t| := mul_nonneg hu.le (abs_nonneg _)
  linarith

/-- The error before the last rounding. -/
theorem atD2_pre {t : BitVec 64} (hf : isFinite f64 t = true) (h1 : 1 / 16 ≤ |rval f64 t|) (h2 : |rval f64 t| ≤ 1 / 2) :
    isFinite f64 (atWD t) = true ∧ |rval f64 (atWD t) + rval f64 t - Real.arctan (rval f64 t)| ≤ 3883 / 5000 * uRel f64 * |rval f64 t| := by
  obtain ⟨f, e⟩ := atD2_w hf (le_trans (by norm_num) h1) h2
  have hp := atD2_apx (t := rval f64 t) (le_trans (by norm_num) h1) h2
  refine ⟨f, ?_⟩
  rw [show ∀ a b c d : ℝ, a + b - c = (a - d) + (b + d - c) by intros; ring]
  refine le_trans (abs_add_le _ _) (le_trans (add_le_add e hp) ?_)
  have := mul_nonneg (uRel_pos f64).le (abs_nonneg (rval f64 t))
  linarith

theorem atD3_cheb : chebBound (1 / 4) (466489 / 1562500) (atDDiff 38) ≤ 6887 / 2000000000000000000 := by decide +kernel

theorem atD3_apx {t : ℝ} (h1 : 1 / 2 ≤ |t|) (h2 : |t| ≤ 683 / 1250) : |t + atVR t - Real.arctan t| ≤ 899 / 10000 * uRel f64 * |t| := by
  have h3 : t * t ≤ (683 / 1250) ^ 2 := by
    have := pow_le_pow_left₀ (abs_nonneg t) h2 2
    rw [sq_abs] at this
    linarith [sq t]
  have h4 : (1 / 2) ^ 2 ≤ t * t := by
    have := pow_le_pow_left₀ (by norm_num) h1 2
    rw [sq_abs] at this
    linarith [sq t]
  have := atD_apxG (C := 899 / 10000) (q0 := 17281 / 50) (tl := 17 / 1000000000000000000000) atD3_cheb (by norm_num) (by norm_num) (by norm_num) (t := t)
    (by push_cast; norm_num at h4 ⊢; linarith) (by push_cast; norm_num at h3 ⊢; linarith) (by unfold atQR; push_cast; norm_num) (by norm_num) (by norm_num) (by norm_num)
  push_cast at this
  exact this

theorem atD3_kappa {z : ℝ} (h0 : 0 ≤ z) (h1 : z ≤ 466489 / 1562500) : z * atPR z ≤ 8479 / 100000 * atQR z := by
  have z2 : z ^ 2 ≤ (466489 / 1562500) ^ 2 := pow_le_pow_left₀ h0 h1 2
  have z3 : z ^ 3 ≤ (466489 / 1562500) ^ 3 := pow_le_pow_left₀ h0 h1 3
  have z4 : z ^ 4 ≤ (466489 / 1562500) ^ 4 := pow_le_pow_left₀ h0 h1 4
  have z5 : z ^ 5 ≤ (466489 / 1562500) ^ 5 := pow_le_pow_left₀ h0 h1 5
  unfold atPR atQR
  norm_num at z2 z3 z4 z5
  nlinarith only [z2, z3, z4, z5, h0, h1]

/-- The error of the quotient for larger arguments. -/
theorem atD3_w {t : BitVec 64} (hf : isFinite f64 t = true) (h1 : 1 / 16 ≤ |rval f64 t|) (h2 : |rval f64 t| ≤ 683 / 1250) :
    isFinite f64 (atWD t) = true ∧ |rval f64 (atWD t) - atVR (rval f64 t)| ≤ 492 / 625 * uRel f64 * |rval f64 t| := by
  have z1 : 1 / 256 ≤ rval f64 t * rval f64 t := by
    rw [← abs_mul_abs_self]
    exact le_trans (by norm_num) (mul_le_mul h1 h1 (by norm_num) (abs_nonneg _))
  have z2 : rval f64 t * rval f64 t ≤ 466489 / 1562500 := by
    rw [← abs_mul_abs_self]
    exact le_trans (mul_le_mul h2 h2 (abs_nonneg _) (by norm_num)) (by norm_num)
  have hz := (RB.exact hf).mul (RB.exact hf) .double le_rfl le_rfl (by norm_num) (by rw [abs_mul_abs_self']; exact le_trans (by norm_num) z1) (by rw [abs_mul_abs_self']; exact le_trans z2 (by norm_num)) (δ := 1001 / 1000) (by norm_num)
  have hz' : SB f64 (fMul f64 t t) 1 (rval f64 t * rval f64 t) (1001 / 1000) (1 / 256) (466489 / 1562500) := ⟨by rw [one_mul]; exact hz, z1, by norm_num at z2 ⊢; linarith⟩
  have hp0 : SB f64 0xbfec007fa1f72594#64 (-1) (1970461881518437 / 2251799813685248) 0 (1970461881518437 / 2251799813685248) (1970461881518437 / 2251799813685248) := ⟨RB.const ⟨atD_p0.1, by rw [atD_p0.2]; ring⟩, le_rfl, le_rfl⟩
  have hp1 := hp0.step hz' ⟨atD_p1.1, by rw [atD_p1.2]; ring⟩ .double (by norm_num) (b := 2273971201753149 / 140737488355328) (by norm_num) (by norm_num) (by norm_num) (by norm_num) (by norm_num) (by norm_num) (μ := 1001 / 500) (by norm_num) (S := 2 / 125) (by norm_num) (by norm_num) (by norm_num) (δ := 1033 / 1000) (by norm_num) (hi' := 1641879 / 100000) (by norm_num) (by norm_num) (by norm_num)
  have hp2 := hp1.step hz' ⟨atD_p2.1, by rw [atD_p2.2]; ring⟩ .double (by norm_num) (b := 5278258023629427 / 70368744177664) (by norm_num) (by norm_num) (by norm_num) (by norm_num) (by norm_num) (by norm_num) (μ := 607 / 200) (by norm_num) (S := 31 / 500) (by norm_num) (by norm_num) (by norm_num) (δ := 1189 / 1000) (by norm_num) (hi' := 79910437 / 1000000) (by norm_num) (by norm_num) (by norm_num)
  have hp3 := hp2.step hz' ⟨atD_p3.1, by rw [atD_p3.2]; ring⟩ .double (by norm_num) (b := 8647380534934053 / 70368744177664) (by norm_num) (by norm_num) (by norm_num) (by norm_num) (by norm_num) (by norm_num) (μ := 3191 / 1000) (by norm_num) (S := 163 / 1000) (by norm_num) (by norm_num) (by norm_num) (δ := 1521 / 1000) (by norm_num) (hi' := 73372083 / 500000) (by norm_num) (by norm_num) (by norm_num)
  have hp4 := hp3.step hz' ⟨atD_p4.1, by rw [atD_p4.2]; ring⟩ .double (by norm_num) (b := 2281714237077063 / 35184372088832) (by norm_num) (by norm_num) (by norm_num) (by norm_num) (by norm_num) (by norm_num) (μ := 3523 / 1000) (by norm_num) (S := 101 / 250) (by norm_num) (by norm_num) (by norm_num) (δ := 303 / 125) (by norm_num) (hi' := 869289 / 8000) (by norm_num) (by norm_num) (by norm_num)
  have hq0 := hz'.add0 ⟨atD_q0.1, by rw [atD_q0.2]; ring⟩ .double (b := 1749258957297679 / 70368744177664) (by norm_num) (by norm_num) (by norm_num) (by norm_num) (S := 3 / 250) (by norm_num) (by norm_num) (by norm_num) (δ := 1013 / 1000) (by norm_num) (hi' := 12578509 / 500000) (by norm_num) (by norm_num)
  have hq1 := hq0.step hz' ⟨atD_q1.1, by rw [atD_q1.2]; ring⟩ .double (by norm_num) (b := 5806371718625829 / 35184372088832) (by norm_num) (by norm_num) (by norm_num) (by norm_num) (by norm_num) (by norm_num) (μ := 603 / 200) (by norm_num) (S := 11 / 250) (by norm_num) (by norm_num) (by norm_num) (δ := 1133 / 1000) (by norm_num) (hi' := 172537713 / 1000000) (by norm_num) (by norm_num) (by norm_num)
  have hq2 := hq1.step hz' ⟨atD_q2.1, by rw [atD_q2.2]; ring⟩ .double (by norm_num) (b := 7615324151266875 / 17592186044416) (by norm_num) (by norm_num) (by norm_num) (by norm_num) (by norm_num) (by norm_num) (μ := 627 / 200) (by norm_num) (S := 107 / 1000) (by norm_num) (by norm_num) (by norm_num) (δ := 167 / 125) (by norm_num) (hi' := 242196353 / 500000) (by norm_num) (by norm_num) (by norm_num)
  have hq3 := hq2.step hz' ⟨atD_q3.1, by rw [atD_q3.2]; ring⟩ .double (by norm_num) (b := 4269539107284213 / 8796093022208) (by norm_num) (by norm_num) (by norm_num) (by norm_num) (by norm_num) (by norm_num) (μ := 1669 / 500) (by norm_num) (S := 23 / 100) (by norm_num) (by norm_num) (by norm_num) (δ := 221 / 125) (by norm_num) (hi' := 157501819 / 250000) (by norm_num) (by norm_num) (by norm_num)
  have hq4 := hq3.step hz' ⟨atD_q4.1, by rw [atD_q4.2]; ring⟩ .double (by norm_num) (b := 1711285677807803 / 8796093022208) (by norm_num) (by norm_num) (by norm_num) (by norm_num) (by norm_num) (by norm_num) (μ := 377 / 100) (by norm_num) (S := 123 / 250) (by norm_num) (by norm_num) (by norm_num) (δ := 571 / 200) (by norm_num) (hi' := 76528239 / 200000) (by norm_num) (by norm_num) (by norm_num)
  have hk := atD3_kappa (mul_self_nonneg (rval f64 t)) z2
  have hQ := atQR_pos (mul_self_nonneg (rval f64 t))
  have hP := atPR_pos (mul_self_nonneg (rval f64 t))
  have hu := uRel_pos f64
  have hp : RB f64 _ (-1 * atPR (rval f64 t * rval f64 t)) (303 / 125) := hp4.rb
  have hq : RB f64 _ (1 * atQR (rval f64 t * rval f64 t)) (571 / 200) := hq4.rb
  clear hp0 hp1 hp2 hp3 hp4 hq0 hq1 hq2 hq3 hq4 hz'
  have hfrac := RB.frac hf hz hp hq .double z1 hP hQ h1 hk (by norm_num) (by norm_num) (by norm_num) (by norm_num)
    (by norm_num) (by norm_num) (a := 2213 / 500) (by norm_num) (by norm_num) (b := 4141 / 500) (by norm_num) (by norm_num) (c := 9283 / 1000) (by norm_num)
    (atQR_le (mul_self_nonneg _) (le_trans z2 (by norm_num))) (le_trans h2 (by norm_num))
  refine ⟨hfrac.fin, ?_⟩
  have e : rval f64 t * (rval f64 t * rval f64 t * (-1 * atPR (rval f64 t * rval f64 t)) / (1 * atQR (rval f64 t * rval f64 t))) = atVR (rval f64 t) := by
    unfold atVR; rw [one_mul]; ring
  have he := hfrac.err
  rw [e] at he
  refine le_trans he ?_
  have hv : |atVR (rval f64 t)| ≤ 8479 / 100000 * |rval f64 t| := by
    unfold atVR
    rw [abs_mul, mul_comm, abs_div, abs_neg, abs_of_pos (show 0 < atQR (rval f64 t * rval f64 t) by linarith)]
    refine mul_le_mul_of_nonneg_right ?_ (abs_nonneg _)
    rw [div_le_iff₀ (by linarith), abs_of_nonneg (mul_nonneg (mul_self_nonneg _) (by linarith))]
    exact hk
  have h3 := mul_le_mul_of_nonneg_left hv (show 0 ≤ 9283 / 1000 * uRel f64 by positivity)
  have h4 : 0 ≤ uRel f64 * |rval f64 t| := mul_nonneg hu.le (abs_nonneg _)
  linarith

/-- The error before the last rounding. -/
theorem atD3_pre {t : BitVec 64} (hf : isFinite f64 t = true) (h1 : 1 / 2 ≤ |rval f64 t|) (h2 : |rval f64 t| ≤ 683 / 1250) :
    isFinite f64 (atWD t) = true ∧ |rval f64 (atWD t) + rval f64 t - Real.arctan (rval f64 t)| ≤ 8771 / 10000 * uRel f64 * |rval f64 t| := by
  obtain ⟨f, e⟩ := atD3_w hf (le_trans (by norm_num) h1) h2
  have hp := atD3_apx (t := rval f64 t) (le_trans (by norm_num) h1) h2
  refine ⟨f, ?_⟩
  rw [show ∀ a b c d : ℝ, a + b - c = (a - d) + (b + d - c) by intros; ring]
  refine le_trans (abs_add_le _ _) (le_trans (add_le_add e hp) ?_)
  have := mul_nonneg (uRel_pos f64).le (abs_nonneg (rval f64 t))
  linarith

theorem atD4_cheb : chebBound (1 / 4) (43573201 / 100000000) (atDDiff 54) ≤ 26303 / 5000000000000000000 := by decide +kernel

theorem atD4_apx {t : ℝ} (h1 : 1 / 2 ≤ |t|) (h2 : |t| ≤ 6601 / 10000) : |t + atVR t - Real.arctan t| ≤ 1377 / 10000 * uRel f64 * |t| := by
  have h3 : t * t ≤ (6601 / 10000) ^ 2 := by
    have := pow_le_pow_left₀ (abs_nonneg t) h2 2
    rw [sq_abs] at this
    linarith [sq t]
  have h4 : (1 / 2) ^ 2 ≤ t * t := by
    have := pow_le_pow_left₀ (by norm_num) h1 2
    rw [sq_abs] at this
    linarith [sq t]
  have := atD_apxG (C := 1377 / 10000) (q0 := 17281 / 50) (tl := 59 / 1000000000000000000000) atD4_cheb (by norm_num) (by norm_num) (by norm_num) (t := t)
    (by push_cast; norm_num at h4 ⊢; linarith) (by push_cast; norm_num at h3 ⊢; linarith) (by unfold atQR; push_cast; norm_num) (by norm_num) (by norm_num) (by norm_num)
  push_cast at this
  exact this

theorem atD4_kappa {z : ℝ} (h0 : 0 ≤ z) (h1 : z ≤ 43573201 / 100000000) : z * atPR z ≤ 11613 / 100000 * atQR z := by
  have z2 : z ^ 2 ≤ (43573201 / 100000000) ^ 2 := pow_le_pow_left₀ h0 h1 2
  have z3 : z ^ 3 ≤ (43573201 / 100000000) ^ 3 := pow_le_pow_left₀ h0 h1 3
  have z4 : z ^ 4 ≤ (43573201 / 100000000) ^ 4 := pow_le_pow_left₀ h0 h1 4
  have z5 : z ^ 5 ≤ (43573201 / 100000000) ^ 5 := pow_le_pow_left₀ h0 h1 5
  unfold atPR atQR
  norm_num at z2 z3 z4 z5
  nlinarith only [z2, z3, z4, z5, h0, h1]

/-- The error of the quotient for larger arguments. -/
theorem atD4_w {t : BitVec 64} (hf : isFinite f64 t = true) (h1 : 1 / 16 ≤ |rval f64 t|) (h2 : |rval f64 t| ≤ 6601 / 10000) :
    isFinite f64 (atWD t) = true ∧ |rval f64 (atWD t) - atVR (rval f64 t)| ≤ 6071 / 5000 * uRel f64 * |rval f64 t| := by
  have z1 : 1 / 256 ≤ rval f64 t * rval f64 t := by
    rw [← abs_mul_abs_self]
    exact le_trans (by norm_num) (mul_le_mul h1 h1 (by norm_num) (abs_nonneg _))
  have z2 : rval f64 t * rval f64 t ≤ 43573201 / 100000000 := by
    rw [← abs_mul_abs_self]
    exact le_trans (mul_le_mul h2 h2 (abs_nonneg _) (by norm_num)) (by norm_num)
  have hz := (RB.exact hf).mul (RB.exact hf) .double le_rfl le_rfl (by norm_num) (by rw [abs_mul_abs_self']; exact le_trans (by norm_num) z1) (by rw [abs_mul_abs_self']; exact le_trans z2 (by norm_num)) (δ := 1001 / 1000) (by norm_num)
  have hz' : SB f64 (fMul f64 t t) 1 (rval f64 t * rval f64 t) (1001 / 1000) (1 / 256) (43573201 / 100000000) := ⟨by rw [one_mul]; exact hz, z1, by norm_num at z2 ⊢; linarith⟩
  have hp0 : SB f64 0xbfec007fa1f72594#64 (-1) (1970461881518437 / 2251799813685248) 0 (1970461881518437 / 2251799813685248) (1970461881518437 / 2251799813685248) := ⟨RB.const ⟨atD_p0.1, by rw [atD_p0.2]; ring⟩, le_rfl, le_rfl⟩
  have hp1 := hp0.step hz' ⟨atD_p1.1, by rw [atD_p1.2]; ring⟩ .double (by norm_num) (b := 2273971201753149 / 140737488355328) (by norm_num) (by norm_num) (by norm_num) (by norm_num) (by norm_num) (by norm_num) (μ := 1001 / 500) (by norm_num) (S := 3 / 125) (by norm_num) (by norm_num) (by norm_num) (δ := 1049 / 1000) (by norm_num) (hi' := 1653883 / 100000) (by norm_num) (by norm_num) (by norm_num)
  have hp2 := hp1.step hz' ⟨atD_p2.1, by rw [atD_p2.2]; ring⟩ .double (by norm_num) (b := 5278258023629427 / 70368744177664) (by norm_num) (by norm_num) (by norm_num) (by norm_num) (by norm_num) (by norm_num) (μ := 3051 / 1000) (by norm_num) (S := 11 / 125) (by norm_num) (by norm_num) (by norm_num) (δ := 1269 / 1000) (by norm_num) (hi' := 5138441 / 62500) (by norm_num) (by norm_num) (by norm_num)
  have hp3 := hp2.step hz' ⟨atD_p3.1, by rw [atD_p3.2]; ring⟩ .double (by norm_num) (b := 8647380534934053 / 70368744177664) (by norm_num) (by norm_num) (by norm_num) (by norm_num) (by norm_num) (by norm_num) (μ := 3271 / 1000) (by norm_num) (S := 113 / 500) (by norm_num) (by norm_num) (by norm_num) (δ := 87 / 50) (by norm_num) (hi' := 158710401 / 1000000) (by norm_num) (by norm_num) (by norm_num)
  have hp4 := hp3.step hz' ⟨atD_p4.1, by rw [atD_p4.2]; ring⟩ .double (by norm_num) (b := 2281714237077063 / 35184372088832) (by norm_num) (by norm_num) (by norm_num) (by norm_num) (by norm_num) (by norm_num) (μ := 1871 / 500) (by norm_num) (S := 517 / 1000) (by norm_num) (by norm_num) (by norm_num) (δ := 587 / 200) (by norm_num) (hi' := 67002711 / 500000) (by norm_num) (by norm_num) (by norm_num)
  have hq0 := hz'.add0 ⟨atD_q0.1, by rw [atD_q0.2]; ring⟩ .double (b := 1749258957297679 / 70368744177664) (by norm_num) (by norm_num) (by norm_num) (by norm_num) (S := 9 / 500) (by norm_num) (by norm_num) (by norm_num) (δ := 1019 / 1000) (by norm_num) (hi' := 25294197 / 1000000) (by norm_num) (by norm_num)
  have hq1 := hq0.step hz' ⟨atD_q1.1, by rw [atD_q1.2]; ring⟩ .double (by norm_num) (b := 5806371718625829 / 35184372088832) (by norm_num) (by norm_num) (by norm_num) (by norm_num) (by norm_num) (by norm_num) (μ := 3021 / 1000) (by norm_num) (S := 63 / 1000) (by norm_num) (by norm_num) (by norm_num) (δ := 1191 / 1000) (by norm_num) (hi' := 88024251 / 500000) (by norm_num) (by norm_num) (by norm_num)
  have hq2 := hq1.step hz' ⟨atD_q2.1, by rw [atD_q2.2]; ring⟩ .double (by norm_num) (b := 7615324151266875 / 17592186044416) (by norm_num) (by norm_num) (by norm_num) (by norm_num) (by norm_num) (by norm_num) (μ := 3193 / 1000) (by norm_num) (S := 151 / 1000) (by norm_num) (by norm_num) (by norm_num) (δ := 1483 / 1000) (by norm_num) (hi' := 509591029 / 1000000) (by norm_num) (by norm_num) (by norm_num)
  have hq3 := hq2.step hz' ⟨atD_q3.1, by rw [atD_q3.2]; ring⟩ .double (by norm_num) (b := 4269539107284213 / 8796093022208) (by norm_num) (by norm_num) (by norm_num) (by norm_num) (by norm_num) (by norm_num) (μ := 697 / 200) (by norm_num) (S := 157 / 500) (by norm_num) (by norm_num) (by norm_num) (δ := 419 / 200) (by norm_num) (hi' := 707435523 / 1000000) (by norm_num) (by norm_num) (by norm_num)
  have hq4 := hq3.step hz' ⟨atD_q4.1, by rw [atD_q4.2]; ring⟩ .double (by norm_num) (b := 1711285677807803 / 8796093022208) (by norm_num) (by norm_num) (by norm_num) (by norm_num) (by norm_num) (by norm_num) (μ := 4097 / 1000) (by norm_num) (S := 307 / 500) (by norm_num) (by norm_num) (by norm_num) (δ := 879 / 250) (by norm_num) (hi' := 6285037 / 12500) (by norm_num) (by norm_num) (by norm_num)
  have hk := atD4_kappa (mul_self_nonneg (rval f64 t)) z2
  have hQ := atQR_pos (mul_self_nonneg (rval f64 t))
  have hP := atPR_pos (mul_self_nonneg (rval f64 t))
  have hu := uRel_pos f64
  have hp : RB f64 _ (-1 * atPR (rval f64 t * rval f64 t)) (587 / 200) := hp4.rb
  have hq : RB f64 _ (1 * atQR (rval f64 t * rval f64 t)) (879 / 250) := hq4.rb
  clear hp0 hp1 hp2 hp3 hp4 hq0 hq1 hq2 hq3 hq4 hz'
  have hfrac := RB.frac hf hz hp hq .double z1 hP hQ h1 hk (by norm_num) (by norm_num) (by norm_num) (by norm_num)
    (by norm_num) (by norm_num) (a := 4937 / 1000) (by norm_num) (by norm_num) (b := 4727 / 500) (by norm_num) (by norm_num) (c := 2091 / 200) (by norm_num)
    (atQR_le (mul_self_nonneg _) (le_trans z2 (by norm_num))) (le_trans h2 (by norm_num))
  refine ⟨hfrac.fin, ?_⟩
  have e : rval f64 t * (rval f64 t * rval f64 t * (-1 * atPR (rval f64 t * rval f64 t)) / (1 * atQR (rval f64 t * rval f64 t))) = atVR (rval f64 t) := by
    unfold atVR; rw [one_mul]; ring
  have he := hfrac.err
  rw [e] at he
  refine le_trans he ?_
  have hv : |atVR (rval f64 t)| ≤ 11613 / 100000 * |rval f64 t| := by
    unfold atVR
    rw [abs_mul, mul_comm, abs_div, abs_neg, abs_of_pos (show 0 < atQR (rval f64 t * rval f64 t) by linarith)]
    refine mul_le_mul_of_nonneg_right ?_ (abs_nonneg _)
    rw [div_le_iff₀ (by linarith), abs_of_nonneg (mul_nonneg (mul_self_nonneg _) (by linarith))]
    exact hk
  have h3 := mul_le_mul_of_nonneg_left hv (show 0 ≤ 2091 / 200 * uRel f64 by positivity)
  have h4 : 0 ≤ uRel f64 * |rval f64 t| := mul_nonneg hu.le (abs_nonneg _)
  linarith

/-- The error before the last rounding. -/
theorem atD4_pre {t : BitVec 64} (hf : isFinite f64 t = true) (h1 : 1 / 2 ≤ |rval f64 t|) (h2 : |rval f64 t| ≤ 6601 / 10000) :
    isFinite f64 (atWD t) = true ∧ |rval f64 (atWD t) + rval f64 t - Real.arctan (rval f64 t)| ≤ 13519 / 10000 * uRel f64 * |rval f64 t| := by
  obtain ⟨f, e⟩ := atD4_w hf (le_trans (by norm_num) h1) h2
  have hp := atD4_apx (t := rval f64 t) (le_trans (by norm_num) h1) h2
  refine ⟨f, ?_⟩
  rw [show ∀ a b c d : ℝ, a + b - c = (a - d) + (b + d - c) by intros; ring]
  refine le_trans (abs_add_le _ _) (le_trans (add_le_add e hp) ?_)
  have := mul_nonneg (uRel_pos f64).le (abs_nonneg (rval f64 t))
  linarith

end Vc.Lemma
