import Verif.Lemma.AsinBase
import Verif.Lemma.AtanF2

/-!
The series of `asin` of double.
-/

namespace Vc.Lemma
open Vc.Model Vc.Spec

set_option maxRecDepth 10000

/-- A bound of a polynomial. -/
theorem cheb_le {lo hi R : ℚ} {p : List ℚ} {z : ℝ} (hc : chebBound lo hi p ≤ R) (hlh : lo < hi) (h1 : (lo : ℝ) ≤ z) (h2 : z ≤ (hi : ℝ)) :
    |pEval p z| ≤ R := le_trans (cheb_bound hlh h1 h2) (Rat.cast_le.mpr hc)

theorem asD_p0 : isFinite f64 0x3f716b9b0bd48ad3#64 = true ∧ rval f64 0x3f716b9b0bd48ad3#64 = 4903388266662611 / 1152921504606846976 := by
  refine ⟨by decide, rval_lit false 1015 399788639292115 (-60) (by decide) (by decide) (by decide) (by decide) (by decide) ?_⟩
  norm_num [f64]

theorem asD_p1 : isFinite f64 0xbfe34341333e5c16#64 = true ∧ rval f64 0xbfe34341333e5c16#64 = -(2710985934581259 / 4503599627370496) := by
  refine ⟨by decide, rval_lit true 1022 918372241792022 (-53) (by decide) (by decide) (by decide) (by decide) (by decide) ?_⟩
  norm_num [f64]

theorem asD_p2 : isFinite f64 0x4015c74b178a2dd9#64 = true ∧ rval f64 0x4015c74b178a2dd9#64 = 6130099842330073 / 1125899906842624 := by
  refine ⟨by decide, rval_lit false 1025 1626500214959577 (-50) (by decide) (by decide) (by decide) (by decide) (by decide) ?_⟩
  norm_num [f64]

theorem asD_p3 : isFinite f64 0xc0304331de27907b#64 = true ∧ rval f64 0xc0304331de27907b#64 = -(4577481086963835 / 281474976710656) := by
  refine ⟨by decide, rval_lit true 1027 73881459593339 (-48) (by decide) (by decide) (by decide) (by decide) (by decide) ?_⟩
  norm_num [f64]

theorem asD_p4 : isFinite f64 0x40339007da779259#64 = true ∧ rval f64 0x40339007da779259#64 = 5506387961942617 / 281474976710656 := by
  refine ⟨by decide, rval_lit false 1027 1002788334572121 (-48) (by decide) (by decide) (by decide) (by decide) (by decide) ?_⟩
  norm_num [f64]

theorem asD_p5 : isFinite f64 0xc020656c06ceafd5#64 = true ∧ rval f64 0xc020656c06ceafd5#64 = -(4615114272452565 / 562949953421312) := by
  refine ⟨by decide, rval_lit true 1026 111514645082069 (-49) (by decide) (by decide) (by decide) (by decide) (by decide) ?_⟩
  norm_num [f64]

theorem asD_q0 : isFinite f64 0xc02d7b590b5e0eab#64 = true ∧ rval f64 0xc02d7b590b5e0eab#64 = -(8298396697628331 / 562949953421312) := by
  refine ⟨by decide, rval_lit true 1026 3794797070257835 (-49) (by decide) (by decide) (by decide) (by decide) (by decide) ?_⟩
  norm_num [f64]

theorem asD_q1 : isFinite f64 0x40519fc025fe9054#64 = true ∧ rval f64 0x40519fc025fe9054#64 = 1240180556014613 / 17592186044416 := by
  refine ⟨by decide, rval_lit false 1029 457122596687956 (-46) (by decide) (by decide) (by decide) (by decide) (by decide) ?_⟩
  norm_num [f64]

theorem asD_q2 : isFinite f64 0xc06265bb6d3576d7#64 = true ∧ rval f64 0xc06265bb6d3576d7#64 = -(5178405246301911 / 35184372088832) := by
  refine ⟨by decide, rval_lit true 1030 674805618931415 (-45) (by decide) (by decide) (by decide) (by decide) (by decide) ?_⟩
  norm_num [f64]

theorem asD_q3 : isFinite f64 0x4061705684ffbf9d#64 = true ∧ rval f64 0x4061705684ffbf9d#64 = 4908591504932765 / 35184372088832 := by
  refine ⟨by decide, rval_lit false 1030 404991877562269 (-45) (by decide) (by decide) (by decide) (by decide) (by decide) ?_⟩
  norm_num [f64]

theorem asD_q4 : isFinite f64 0xc04898220a3607ac#64 = true ∧ rval f64 0xc04898220a3607ac#64 = -(1730667852169707 / 35184372088832) := by
  refine ⟨by decide, rval_lit true 1028 2419071781308332 (-47) (by decide) (by decide) (by decide) (by decide) (by decide) ?_⟩
  norm_num [f64]

theorem asD_r0 : isFinite f64 0x3f684fc3988e9f08#64 = true ∧ rval f64 0x3f684fc3988e9f08#64 = 855387617219553 / 288230376151711744 := by
  refine ⟨by decide, rval_lit false 1014 2339501310385928 (-61) (by decide) (by decide) (by decide) (by decide) (by decide) ?_⟩
  norm_num [f64]

theorem asD_r1 : isFinite f64 0xbfe2079259f9290f#64 = true ∧ rval f64 0xbfe2079259f9290f#64 = -(5074874736912655 / 9007199254740992) := by
  refine ⟨by decide, rval_lit true 1022 571275109542159 (-53) (by decide) (by decide) (by decide) (by decide) (by decide) ?_⟩
  norm_num [f64]

theorem asD_r2 : isFinite f64 0x401bdff5baf33e6a#64 = true ∧ rval f64 0x401bdff5baf33e6a#64 = 3923035433836341 / 562949953421312 := by
  refine ⟨by decide, rval_lit false 1025 3342471240302186 (-50) (by decide) (by decide) (by decide) (by decide) (by decide) ?_⟩
  norm_num [f64]

theorem asD_r3 : isFinite f64 0xc03991aaac01ab68#64 = true ∧ rval f64 0xc03991aaac01ab68#64 = -(899629579253101 / 35184372088832) := by
  refine ⟨by decide, rval_lit true 1027 2693437006654312 (-48) (by decide) (by decide) (by decide) (by decide) (by decide) ?_⟩
  norm_num [f64]

theorem asD_r4 : isFinite f64 0x403c896240f3081d#64 = true ∧ rval f64 0x403c896240f3081d#64 = 8032354437367837 / 281474976710656 := by
  refine ⟨by decide, rval_lit false 1027 3528754809997341 (-48) (by decide) (by decide) (by decide) (by decide) (by decide) ?_⟩
  norm_num [f64]

theorem asD_s0 : isFinite f64 0xc035f2a2b6bf5d8c#64 = true ∧ rval f64 0xc035f2a2b6bf5d8c#64 = -(1544438793885539 / 70368744177664) := by
  refine ⟨by decide, rval_lit true 1027 1674155548171660 (-48) (by decide) (by decide) (by decide) (by decide) (by decide) ?_⟩
  norm_num [f64]

theorem asD_s1 : isFinite f64 0x40626219af6a7f42#64 = true ∧ rval f64 0x40626219af6a7f42#64 = 2587206018744225 / 17592186044416 := by
  refine ⟨by decide, rval_lit false 1030 670812410117954 (-45) (by decide) (by decide) (by decide) (by decide) (by decide) ?_⟩
  norm_num [f64]

theorem asD_s2 : isFinite f64 0xc077fe08959063ee#64 = true ∧ rval f64 0xc077fe08959063ee#64 = -(3376618643403255 / 8796093022208) := by
  refine ⟨by decide, rval_lit true 1031 2249637659436014 (-44) (by decide) (by decide) (by decide) (by decide) (by decide) ?_⟩
  norm_num [f64]

theorem asD_s3 : isFinite f64 0x40756709b0b644be#64 = true ∧ rval f64 0x40756709b0b644be#64 = 3012132914012767 / 8796093022208 := by
  refine ⟨by decide, rval_lit false 1031 1520666200655038 (-44) (by decide) (by decide) (by decide) (by decide) (by decide) ?_⟩
  norm_num [f64]

theorem asD_c4 : isFinite f64 0x3fe921fb54442d18#64 = true ∧ rval f64 0x3fe921fb54442d18#64 = 884279719003555 / 1125899906842624 := by
  refine ⟨by decide, rval_lit false 1022 2570638124657944 (-53) (by decide) (by decide) (by decide) (by decide) (by decide) ?_⟩
  norm_num [f64]

theorem asD_mb : isFinite f64 0x3c91a62633145c07#64 = true ∧ rval f64 0x3c91a62633145c07#64 = 4967757600021511 / 81129638414606681695789005144064 := by
  refine ⟨by decide, rval_lit false 969 464157972651015 (-106) (by decide) (by decide) (by decide) (by decide) (by decide) ?_⟩
  norm_num [f64]

theorem asD_big : isFinite f64 0x3fe4000000000000#64 = true ∧ rval f64 0x3fe4000000000000#64 = 5 / 8 := by
  refine ⟨by decide, rval_lit false 1022 1125899906842624 (-53) (by decide) (by decide) (by decide) (by decide) (by decide) ?_⟩
  norm_num [f64]

theorem asD_lim : isFinite f64 0x3e45798ee2308c3a#64 = true ∧ rval f64 0x3e45798ee2308c3a#64 = 3022314549036573 / 302231454903657293676544 := by
  refine ⟨by decide, rval_lit false 996 1541029470702650 (-79) (by decide) (by decide) (by decide) (by decide) (by decide) ?_⟩
  norm_num [f64]

/-- The factor of small arguments. -/
def asFrS (z : BitVec 64) : BitVec 64 :=
  fDiv f64 (fMul f64 z
    (fAdd f64 (fMul f64 (fAdd f64 (fMul f64 (fAdd f64 (fMul f64 (fAdd f64 (fMul f64 (fAdd f64 (fMul f64 0x3f716b9b0bd48ad3#64 z) 0xbfe34341333e5c16#64) z) 0x4015c74b178a2dd9#64) z) 0xc0304331de27907b#64) z) 0x40339007da779259#64) z) 0xc020656c06ceafd5#64))
    (fAdd f64 (fMul f64 (fAdd f64 (fMul f64 (fAdd f64 (fMul f64 (fAdd f64 (fMul f64 (fAdd f64 z 0xc02d7b590b5e0eab#64) z) 0x40519fc025fe9054#64) z) 0xc06265bb6d3576d7#64) z) 0x4061705684ffbf9d#64) z) 0xc04898220a3607ac#64)

def asNS : List ℚ := [-(4615114272452565 / 562949953421312), 5506387961942617 / 281474976710656, -(4577481086963835 / 281474976710656), 6130099842330073 / 1125899906842624, -(2710985934581259 / 4503599627370496), 4903388266662611 / 1152921504606846976]
def asDS : List ℚ := [-(1730667852169707 / 35184372088832), 4908591504932765 / 35184372088832, -(5178405246301911 / 35184372088832), 1240180556014613 / 17592186044416, -(8298396697628331 / 562949953421312), 1]

/-- The same in real numbers. -/
noncomputable def asRS (z : ℝ) : ℝ := z * pEval asNS z / pEval asDS z

theorem asDS_low {z : ℝ} (h0 : 0 ≤ z) (h1 : z ≤ 25 / 64) : 909 / 100 ≤ |pEval asDS z| := by
  have h := cheb_le (lo := 0) (hi := 25 / 64) (R := 2191 / 100) (p := pAdd asDS [31]) (z := z) (by decide +kernel) (by norm_num) (by simpa using h0) (by push_cast; exact h1)
  rw [pEval_add] at h
  simp only [pEval] at h
  push_cast at h
  have := abs_le.mp h
  rw [abs_of_neg (by linarith)]
  linarith

theorem asRS_le {z : ℝ} (h0 : 0 ≤ z) (h1 : z ≤ 25 / 64) : asRS z ≤ 167 / 1000 ∧ 0 ≤ asRS z := by
  have hl := asDS_low h0 h1
  have h := cheb_le (lo := 0) (hi := 25 / 64) (R := 997 / 200) (p := pAdd (pAdd (pScale (167 / 1000) asDS) (pScale (-1) (0 :: asNS))) [5]) (z := z) (by decide +kernel) (by norm_num) (by simpa using h0) (by push_cast; exact h1)
  have hn := cheb_le (lo := 0) (hi := 25 / 64) (R := 82 / 25) (p := pAdd asNS [11 / 2]) (z := z) (by decide +kernel) (by norm_num) (by simpa using h0) (by push_cast; exact h1)
  have hd := cheb_le (lo := 0) (hi := 25 / 64) (R := 2191 / 100) (p := pAdd asDS [31]) (z := z) (by decide +kernel) (by norm_num) (by simpa using h0) (by push_cast; exact h1)
  rw [pEval_add, pEval_add, pEval_scale, pEval_scale, show pEval (0 :: asNS) z = z * pEval asNS z by simp [pEval]] at h
  rw [pEval_add] at hn hd
  rw [show ∀ c : ℚ, pEval [c] z = c by intro c; simp [pEval]] at h hn hd
  push_cast at h hn hd
  have h' := abs_le.mp h
  have hn' := abs_le.mp hn
  have hd' := abs_le.mp hd
  unfold asRS
  generalize pEval asNS z = X at *
  generalize pEval asDS z = Y at *
  have hY : Y < 0 := by linarith
  have hX : X < 0 := by linarith
  constructor
  · rw [div_le_iff_of_neg hY]; linarith
  · exact div_nonneg_of_nonpos (mul_nonpos_of_nonneg_of_nonpos h0 hX.le) hY.le
set_option maxHeartbeats 1000000 in
theorem asFrS_apx {z : BitVec 64} {v : ℝ} (az : Apx f64 z v (1 / 36028797018963968) (25 / 64)) (h0 : 0 ≤ v) (h1 : v ≤ 25 / 64) :
    Apx f64 (asFrS z) (asRS v) (716 / 125 * uRel f64) (167 / 1000) := by
  have k0 : Apx f64 _ _ 0 (43 / 10000) := Apx.const asD_p0 (by norm_num [abs_le])
  have a1 := k0.mul az .double (-9) (by decide) (R := 17 / 10000) (by rw [abs_mul]; exact le_trans (mul_le_mul k0.bnd az.bnd (abs_nonneg _) (by norm_num)) (by norm_num)) (by norm_num) (d := 3 / 9007199254740992000) (by norm_num [f64])
  have k2 : Apx f64 _ _ 0 (301 / 500) := Apx.const asD_p1 (by norm_num [abs_le])
  have a3 := a1.add k2 .double (0) (by decide) (R := 301 / 500) (by have := cheb_le (lo := 0) (hi := 25 / 64) (R := 301 / 500) (p := [-(2710985934581259 / 4503599627370496), 4903388266662611 / 1152921504606846976]) (z := v) (by decide +kernel) (by norm_num) (by simpa using h0) (by push_cast; exact h1); simp only [pEval] at this; push_cast at this; refine le_trans (le_of_eq (congrArg _ ?_)) this; ring) (by norm_num) (d := 503 / 9007199254740992000) (by norm_num [f64])
  have a4 := a3.mul az .double (-2) (by decide) (R := 147 / 625) (by rw [abs_mul]; exact le_trans (mul_le_mul a3.bnd az.bnd (abs_nonneg _) (by norm_num)) (by norm_num)) (by norm_num) (d := 59 / 1125899906842624000) (by norm_num [f64])
  have k5 : Apx f64 _ _ 0 (54447 / 10000) := Apx.const asD_p2 (by norm_num [abs_le])
  have a6 := a4.add k5 .double (3) (by decide) (R := 1089 / 200) (by have := cheb_le (lo := 0) (hi := 25 / 64) (R := 1089 / 200) (p := [6130099842330073 / 1125899906842624, -(2710985934581259 / 4503599627370496), 4903388266662611 / 1152921504606846976]) (z := v) (by decide +kernel) (by norm_num) (by simpa using h0) (by push_cast; exact h1); simp only [pEval] at this; push_cast at this; refine le_trans (le_of_eq (congrArg _ ?_)) this; ring) (by norm_num) (d := 559 / 1125899906842624000) (by norm_num [f64])
  have a7 := a6.mul az .double (2) (by decide) (R := 2127 / 1000) (by rw [abs_mul]; exact le_trans (mul_le_mul a6.bnd az.bnd (abs_nonneg _) (by norm_num)) (by norm_num)) (by norm_num) (d := 5109 / 9007199254740992000) (by norm_num [f64])
  have k8 : Apx f64 _ _ 0 (1301 / 80) := Apx.const asD_p3 (by norm_num [abs_le])
  have a9 := a7.add k8 .double (5) (by decide) (R := 16263 / 1000) (by have := cheb_le (lo := 0) (hi := 25 / 64) (R := 16263 / 1000) (p := [-(4577481086963835 / 281474976710656), 6130099842330073 / 1125899906842624, -(2710985934581259 / 4503599627370496), 4903388266662611 / 1152921504606846976]) (z := v) (by decide +kernel) (by norm_num) (by simpa using h0) (by push_cast; exact h1); simp only [pEval] at this; push_cast at this; refine le_trans (le_of_eq (congrArg _ ?_)) this; ring) (by norm_num) (d := 21109 / 9007199254740992000) (by norm_num [f64])
  have a10 := a9.mul az .double (3) (by decide) (R := 7941 / 1250) (by rw [abs_mul]; exact le_trans (mul_le_mul a9.bnd az.bnd (abs_nonneg _) (by norm_num)) (by norm_num)) (by norm_num) (d := 2039 / 1125899906842624000) (by norm_num [f64])
  have k11 : Apx f64 _ _ 0 (195627 / 10000) := Apx.const asD_p4 (by norm_num [abs_le])
  have a12 := a10.add k11 .double (5) (by decide) (R := 19563 / 1000) (by have := cheb_le (lo := 0) (hi := 25 / 64) (R := 19563 / 1000) (p := [5506387961942617 / 281474976710656, -(4577481086963835 / 281474976710656), 6130099842330073 / 1125899906842624, -(2710985934581259 / 4503599627370496), 4903388266662611 / 1152921504606846976]) (z := v) (by decide +kernel) (by norm_num) (by simpa using h0) (by push_cast; exact h1); simp only [pEval] at this; push_cast at this; refine le_trans (le_of_eq (congrArg _ ?_)) this; ring) (by norm_num) (d := 4039 / 1125899906842624000) (by norm_num [f64])
  have a13 := a12.mul az .double (3) (by decide) (R := 38209 / 5000) (by rw [abs_mul]; exact le_trans (mul_le_mul a12.bnd az.bnd (abs_nonneg _) (by norm_num)) (by norm_num)) (by norm_num) (d := 21513 / 9007199254740992000) (by norm_num [f64])
  have k14 : Apx f64 _ _ 0 (81981 / 10000) := Apx.const asD_p5 (by norm_num [abs_le])
  have a15 := a13.add k14 .double (4) (by decide) (R := 8199 / 1000) (by have := cheb_le (lo := 0) (hi := 25 / 64) (R := 8199 / 1000) (p := [-(4615114272452565 / 562949953421312), 5506387961942617 / 281474976710656, -(4577481086963835 / 281474976710656), 6130099842330073 / 1125899906842624, -(2710985934581259 / 4503599627370496), 4903388266662611 / 1152921504606846976]) (z := v) (by decide +kernel) (by norm_num) (by simpa using h0) (by push_cast; exact h1); simp only [pEval] at this; push_cast at this; refine le_trans (le_of_eq (congrArg _ ?_)) this; ring) (by norm_num) (d := 29513 / 9007199254740992000) (by norm_num [f64])
  have k16 : Apx f64 _ _ 0 (14741 / 1000) := Apx.const asD_q0 (by norm_num [abs_le])
  have a17 := az.add k16 .double (4) (by decide) (R := 14741 / 1000) (by have := cheb_le (lo := 0) (hi := 25 / 64) (R := 14741 / 1000) (p := [-(8298396697628331 / 562949953421312), 1]) (z := v) (by decide +kernel) (by norm_num) (by simpa using h0) (by push_cast; exact h1); simp only [pEval] at this; push_cast at this; refine le_trans (le_of_eq (congrArg _ ?_)) this; ring) (by norm_num) (d := 33 / 36028797018963968) (by norm_num [f64])
  have a18 := a17.mul az .double (3) (by decide) (R := 57583 / 10000) (by rw [abs_mul]; exact le_trans (mul_le_mul a17.bnd az.bnd (abs_nonneg _) (by norm_num)) (by norm_num)) (by norm_num) (d := 2727 / 2251799813685248000) (by norm_num [f64])
  have k19 : Apx f64 _ _ 0 (352481 / 5000) := Apx.const asD_q1 (by norm_num [abs_le])
  have a20 := a18.add k19 .double (7) (by decide) (R := 70497 / 1000) (by have := cheb_le (lo := 0) (hi := 25 / 64) (R := 70497 / 1000) (p := [1240180556014613 / 17592186044416, -(8298396697628331 / 562949953421312), 1]) (z := v) (by decide +kernel) (by norm_num) (by simpa using h0) (by push_cast; exact h1); simp only [pEval] at this; push_cast at this; refine le_trans (le_of_eq (congrArg _ ?_)) this; ring) (by norm_num) (d := 18727 / 2251799813685248000) (by norm_num [f64])
  have a21 := a20.mul az .double (5) (by decide) (R := 275379 / 10000) (by rw [abs_mul]; exact le_trans (mul_le_mul a20.bnd az.bnd (abs_nonneg _) (by norm_num)) (by norm_num)) (by norm_num) (d := 31443 / 4503599627370496000) (by norm_num [f64])
  have k22 : Apx f64 _ _ 0 (91987 / 625) := Apx.const asD_q2 (by norm_num [abs_le])
  have a23 := a21.add k22 .double (8) (by decide) (R := 7359 / 50) (by have := cheb_le (lo := 0) (hi := 25 / 64) (R := 7359 / 50) (p := [-(5178405246301911 / 35184372088832), 1240180556014613 / 17592186044416, -(8298396697628331 / 562949953421312), 1]) (z := v) (by decide +kernel) (by norm_num) (by simpa using h0) (by push_cast; exact h1); simp only [pEval] at this; push_cast at this; refine le_trans (le_of_eq (congrArg _ ?_)) this; ring) (by norm_num) (d := 95443 / 4503599627370496000) (by norm_num [f64])
  have a24 := a23.mul az .double (6) (by decide) (R := 287461 / 5000) (by rw [abs_mul]; exact le_trans (mul_le_mul a23.bnd az.bnd (abs_nonneg _) (by norm_num)) (by norm_num)) (by norm_num) (d := 7 / 439804651110400) (by norm_num [f64])
  have k25 : Apx f64 _ _ 0 (697553 / 5000) := Apx.const asD_q3 (by norm_num [abs_le])
  have a26 := a24.add k25 .double (8) (by decide) (R := 139511 / 1000) (by have := cheb_le (lo := 0) (hi := 25 / 64) (R := 139511 / 1000) (p := [4908591504932765 / 35184372088832, -(5178405246301911 / 35184372088832), 1240180556014613 / 17592186044416, -(8298396697628331 / 562949953421312), 1]) (z := v) (by decide +kernel) (by norm_num) (by simpa using h0) (by push_cast; exact h1); simp only [pEval] at this; push_cast at this; refine le_trans (le_of_eq (congrArg _ ?_)) this; ring) (by norm_num) (d := 53 / 1759218604441600) (by norm_num [f64])
  have a27 := a26.mul az .double (6) (by decide) (R := 108993 / 2000) (by rw [abs_mul]; exact le_trans (mul_le_mul a26.bnd az.bnd (abs_nonneg _) (by norm_num)) (by norm_num)) (by norm_num) (d := 86439 / 4503599627370496000) (by norm_num [f64])
  have k28 : Apx f64 _ _ 0 (245943 / 5000) := Apx.const asD_q4 (by norm_num [abs_le])
  have a29 := a27.add k28 .double (6) (by decide) (R := 49189 / 1000) (by have := cheb_le (lo := 0) (hi := 25 / 64) (R := 49189 / 1000) (p := [-(1730667852169707 / 35184372088832), 4908591504932765 / 35184372088832, -(5178405246301911 / 35184372088832), 1240180556014613 / 17592186044416, -(8298396697628331 / 562949953421312), 1]) (z := v) (by decide +kernel) (by norm_num) (by simpa using h0) (by push_cast; exact h1); simp only [pEval] at this; push_cast at this; refine le_trans (le_of_eq (congrArg _ ?_)) this; ring) (by norm_num) (d := 102439 / 4503599627370496000) (by norm_num [f64])
  have a30 := az.mul a15 .double (2) (by decide) (R := 8007 / 2500) (by rw [abs_mul]; exact le_trans (mul_le_mul az.bnd a15.bnd (abs_nonneg _) (by norm_num)) (by norm_num)) (by norm_num) (d := 15579 / 9007199254740992000) (by norm_num [f64])
  have hl := asDS_low h0 h1
  have hk := asRS_le h0 h1
  have eN : (((((4903388266662611 / 1152921504606846976 * v + -(2710985934581259 / 4503599627370496)) * v + 6130099842330073 / 1125899906842624) * v + -(4577481086963835 / 281474976710656)) * v + 5506387961942617 / 281474976710656) * v + -(4615114272452565 / 562949953421312)) = pEval asNS v := by simp only [asNS, pEval]; push_cast; ring
  have eD : (((((v + -(8298396697628331 / 562949953421312)) * v + 1240180556014613 / 17592186044416) * v + -(5178405246301911 / 35184372088832)) * v + 4908591504932765 / 35184372088832) * v + -(1730667852169707 / 35184372088832)) = pEval asDS v := by simp only [asDS, pEval]; push_cast; ring
  rw [eN] at a30
  rw [eD] at a29
  have hr := a30.div a29 .double (-1) (by decide) (L := 909 / 100) hl (by norm_num) (R := 167 / 1000) (by
    have := hk; unfold asRS at this; rw [abs_of_nonneg this.2]; exact this.1) (by norm_num) (d := 179 / 281474976710656000) (by norm_num [f64])
  have hu : uRel f64 = 1 / 9007199254740992 := by unfold uRel; norm_num [f64]
  rw [hu]
  exact hr.weaken (by norm_num) le_rfl

theorem asDS_cheb : chebBound 0 (25 / 64) (pAdd (pAdd asDS (0 :: asNS)) (pScale (-1) (pMul asDS (asinTaylor 0 44)))) ≤ 399 / 1250000000000000000 := by decide +kernel

theorem asDS_real {t : ℝ} (h0 : 0 ≤ t) (h1 : t * t ≤ 25 / 64) :
    |t * (1 + asRS ((t * t))) - Real.arcsin t| ≤ 159 / 500 * uRel f64 * Real.arcsin t := by
  have hu : uRel f64 = 1 / 9007199254740992 := by unfold uRel; norm_num [f64]
  have e1 : pEval (0 :: asNS) (t * t) = (t * t) * pEval asNS ((t * t)) := by
    simp [pEval]
  have e2 : pEval asDS (t * t) = pEval asDS ((t * t)) := by
    rfl
  have hT : t ≤ 5 / 8 := by
    by_contra hc
    push Not at hc
    have := mul_lt_mul hc hc.le (by norm_num) h0
    norm_num at this h1
    linarith
  have h := asin_apxQ (n := 43) (q0 := 909 / 100) (ε := 119 / 1000000000000000000000) (T := 5 / 8) (K := 12811 / 10000) (t := t) asDS_cheb (by norm_num)
    (by push_cast; exact mul_self_nonneg t) (by push_cast; exact h1) (by
      rw [e2]; push_cast; exact asDS_low (by nlinarith [mul_self_nonneg t]) (by linarith)) (by norm_num)
    (by norm_num) (by norm_num) (by norm_num) (by decide +kernel) h0 (by push_cast; exact hT)
  rw [e1, e2] at h
  unfold asRS
  refine le_trans h (mul_le_mul_of_nonneg_right ?_ (Real.arcsin_nonneg.mpr h0))
  rw [hu]; push_cast; norm_num

/-- The factor of large arguments. -/
def asFrL (z : BitVec 64) : BitVec 64 :=
  fDiv f64 (fMul f64 z
    (fAdd f64 (fMul f64 (fAdd f64 (fMul f64 (fAdd f64 (fMul f64 (fAdd f64 (fMul f64 0x3f684fc3988e9f08#64 z) 0xbfe2079259f9290f#64) z) 0x401bdff5baf33e6a#64) z) 0xc03991aaac01ab68#64) z) 0x403c896240f3081d#64))
    (fAdd f64 (fMul f64 (fAdd f64 (fMul f64 (fAdd f64 (fMul f64 (fAdd f64 z 0xc035f2a2b6bf5d8c#64) z) 0x40626219af6a7f42#64) z) 0xc077fe08959063ee#64) z) 0x40756709b0b644be#64)

def asNL : List ℚ := [8032354437367837 / 281474976710656, -(899629579253101 / 35184372088832), 3923035433836341 / 562949953421312, -(5074874736912655 / 9007199254740992), 855387617219553 / 288230376151711744]
def asDL : List ℚ := [3012132914012767 / 8796093022208, -(3376618643403255 / 8796093022208), 2587206018744225 / 17592186044416, -(1544438793885539 / 70368744177664), 1]

/-- The same in real numbers. -/
noncomputable def asRL (z : ℝ) : ℝ := z * pEval asNL z / pEval asDL z

theorem asDL_low {z : ℝ} (h0 : 0 ≤ z) (h1 : z ≤ 3 / 8) : 5332 / 25 ≤ |pEval asDL z| := by
  have h := cheb_le (lo := 0) (hi := 3 / 8) (R := 1668 / 25) (p := pAdd asDL [-(280)]) (z := z) (by decide +kernel) (by norm_num) (by simpa using h0) (by push_cast; exact h1)
  rw [pEval_add] at h
  simp only [pEval] at h
  push_cast at h
  have := abs_le.mp h
  rw [abs_of_pos (by linarith)]
  linarith

theorem asRL_le {z : ℝ} (h0 : 0 ≤ z) (h1 : z ≤ 3 / 8) : asRL z ≤ 39 / 1000 ∧ 0 ≤ asRL z := by
  have hl := asDL_low h0 h1
  have h := cheb_le (lo := 0) (hi := 3 / 8) (R := 6911 / 1000) (p := pAdd (pAdd (pScale (39 / 1000) asDL) (pScale (-1) (0 :: asNL))) [-(7)]) (z := z) (by decide +kernel) (by norm_num) (by simpa using h0) (by push_cast; exact h1)
  have hn := cheb_le (lo := 0) (hi := 3 / 8) (R := 227 / 50) (p := pAdd asNL [-(121 / 5)]) (z := z) (by decide +kernel) (by norm_num) (by simpa using h0) (by push_cast; exact h1)
  have hd := cheb_le (lo := 0) (hi := 3 / 8) (R := 1668 / 25) (p := pAdd asDL [-(280)]) (z := z) (by decide +kernel) (by norm_num) (by simpa using h0) (by push_cast; exact h1)
  rw [pEval_add, pEval_add, pEval_scale, pEval_scale, show pEval (0 :: asNL) z = z * pEval asNL z by simp [pEval]] at h
  rw [pEval_add] at hn hd
  rw [show ∀ c : ℚ, pEval [c] z = c by intro c; simp [pEval]] at h hn hd
  push_cast at h hn hd
  have h' := abs_le.mp h
  have hn' := abs_le.mp hn
  have hd' := abs_le.mp hd
  unfold asRL
  generalize pEval asNL z = X at *
  generalize pEval asDL z = Y at *
  have hY : 0 < Y := by linarith
  have hX : 0 < X := by linarith
  constructor
  · rw [div_le_iff₀ hY]; linarith
  · exact div_nonneg (mul_nonneg h0 hX.le) hY.le
set_option maxHeartbeats 1000000 in
theorem asFrL_apx {z : BitVec 64} {v : ℝ} (az : Apx f64 z v (0) (3 / 8)) (h0 : 0 ≤ v) (h1 : v ≤ 3 / 8) :
    Apx f64 (asFrL z) (asRL v) (109 / 500 * uRel f64) (39 / 1000) := by
  have k0 : Apx f64 _ _ 0 (3 / 1000) := Apx.const asD_r0 (by norm_num [abs_le])
  have a1 := k0.mul az .double (-9) (by decide) (R := 3 / 2500) (by rw [abs_mul]; exact le_trans (mul_le_mul k0.bnd az.bnd (abs_nonneg _) (by norm_num)) (by norm_num)) (by norm_num) (d := 1 / 9007199254740992000) (by norm_num [f64])
  have k2 : Apx f64 _ _ 0 (1127 / 2000) := Apx.const asD_r1 (by norm_num [abs_le])
  have a3 := a1.add k2 .double (0) (by decide) (R := 141 / 250) (by have := cheb_le (lo := 0) (hi := 3 / 8) (R := 141 / 250) (p := [-(5074874736912655 / 9007199254740992), 855387617219553 / 288230376151711744]) (z := v) (by decide +kernel) (by norm_num) (by simpa using h0) (by push_cast; exact h1); simp only [pEval] at this; push_cast at this; refine le_trans (le_of_eq (congrArg _ ?_)) this; ring) (by norm_num) (d := 501 / 9007199254740992000) (by norm_num [f64])
  have a4 := a3.mul az .double (-2) (by decide) (R := 423 / 2000) (by rw [abs_mul]; exact le_trans (mul_le_mul a3.bnd az.bnd (abs_nonneg _) (by norm_num)) (by norm_num)) (by norm_num) (d := 313 / 9007199254740992000) (by norm_num [f64])
  have k5 : Apx f64 _ _ 0 (8711 / 1250) := Apx.const asD_r2 (by norm_num [abs_le])
  have a6 := a4.add k5 .double (3) (by decide) (R := 6969 / 1000) (by have := cheb_le (lo := 0) (hi := 3 / 8) (R := 6969 / 1000) (p := [3923035433836341 / 562949953421312, -(5074874736912655 / 9007199254740992), 855387617219553 / 288230376151711744]) (z := v) (by decide +kernel) (by norm_num) (by simpa using h0) (by push_cast; exact h1); simp only [pEval] at this; push_cast at this; refine le_trans (le_of_eq (congrArg _ ?_)) this; ring) (by norm_num) (d := 4313 / 9007199254740992000) (by norm_num [f64])
  have a7 := a6.mul az .double (2) (by decide) (R := 13067 / 5000) (by rw [abs_mul]; exact le_trans (mul_le_mul a6.bnd az.bnd (abs_nonneg _) (by norm_num)) (by norm_num)) (by norm_num) (d := 1809 / 4503599627370496000) (by norm_num [f64])
  have k8 : Apx f64 _ _ 0 (255691 / 10000) := Apx.const asD_r3 (by norm_num [abs_le])
  have a9 := a7.add k8 .double (5) (by decide) (R := 2557 / 100) (by have := cheb_le (lo := 0) (hi := 3 / 8) (R := 2557 / 100) (p := [-(899629579253101 / 35184372088832), 3923035433836341 / 562949953421312, -(5074874736912655 / 9007199254740992), 855387617219553 / 288230376151711744]) (z := v) (by decide +kernel) (by norm_num) (by simpa using h0) (by push_cast; exact h1); simp only [pEval] at this; push_cast at this; refine le_trans (le_of_eq (congrArg _ ?_)) this; ring) (by norm_num) (d := 9809 / 4503599627370496000) (by norm_num [f64])
  have a10 := a9.mul az .double (4) (by decide) (R := 5993 / 625) (by rw [abs_mul]; exact le_trans (mul_le_mul a9.bnd az.bnd (abs_nonneg _) (by norm_num)) (by norm_num)) (by norm_num) (d := 15357 / 9007199254740992000) (by norm_num [f64])
  have k11 : Apx f64 _ _ 0 (285367 / 10000) := Apx.const asD_r4 (by norm_num [abs_le])
  have a12 := a10.add k11 .double (5) (by decide) (R := 28537 / 1000) (by have := cheb_le (lo := 0) (hi := 3 / 8) (R := 28537 / 1000) (p := [8032354437367837 / 281474976710656, -(899629579253101 / 35184372088832), 3923035433836341 / 562949953421312, -(5074874736912655 / 9007199254740992), 855387617219553 / 288230376151711744]) (z := v) (by decide +kernel) (by norm_num) (by simpa using h0) (by push_cast; exact h1); simp only [pEval] at this; push_cast at this; refine le_trans (le_of_eq (congrArg _ ?_)) this; ring) (by norm_num) (d := 31357 / 9007199254740992000) (by norm_num [f64])
  have k13 : Apx f64 _ _ 0 (109739 / 5000) := Apx.const asD_s0 (by norm_num [abs_le])
  have a14 := az.add k13 .double (5) (by decide) (R := 5487 / 250) (by have := cheb_le (lo := 0) (hi := 3 / 8) (R := 5487 / 250) (p := [-(1544438793885539 / 70368744177664), 1]) (z := v) (by decide +kernel) (by norm_num) (by simpa using h0) (by push_cast; exact h1); simp only [pEval] at this; push_cast at this; refine le_trans (le_of_eq (congrArg _ ?_)) this; ring) (by norm_num) (d := 1 / 562949953421312) (by norm_num [f64])
  have a15 := a14.mul az .double (4) (by decide) (R := 16461 / 2000) (by rw [abs_mul]; exact le_trans (mul_le_mul a14.bnd az.bnd (abs_nonneg _) (by norm_num)) (by norm_num)) (by norm_num) (d := 7 / 4503599627370496) (by norm_num [f64])
  have k16 : Apx f64 _ _ 0 (1470657 / 10000) := Apx.const asD_s1 (by norm_num [abs_le])
  have a17 := a15.add k16 .double (8) (by decide) (R := 73533 / 500) (by have := cheb_le (lo := 0) (hi := 3 / 8) (R := 73533 / 500) (p := [2587206018744225 / 17592186044416, -(1544438793885539 / 70368744177664), 1]) (z := v) (by decide +kernel) (by norm_num) (by simpa using h0) (by push_cast; exact h1); simp only [pEval] at this; push_cast at this; refine le_trans (le_of_eq (congrArg _ ?_)) this; ring) (by norm_num) (d := 71 / 4503599627370496) (by norm_num [f64])
  have a18 := a17.mul az .double (6) (by decide) (R := 275749 / 5000) (by rw [abs_mul]; exact le_trans (mul_le_mul a17.bnd az.bnd (abs_nonneg _) (by norm_num)) (by norm_num)) (by norm_num) (d := 341 / 36028797018963968) (by norm_num [f64])
  have k19 : Apx f64 _ _ 0 (3838771 / 10000) := Apx.const asD_s2 (by norm_num [abs_le])
  have a20 := a18.add k19 .double (9) (by decide) (R := 191939 / 500) (by have := cheb_le (lo := 0) (hi := 3 / 8) (R := 191939 / 500) (p := [-(3376618643403255 / 8796093022208), 2587206018744225 / 17592186044416, -(1544438793885539 / 70368744177664), 1]) (z := v) (by decide +kernel) (by norm_num) (by simpa using h0) (by push_cast; exact h1); simp only [pEval] at this; push_cast at this; refine le_trans (le_of_eq (congrArg _ ?_)) this; ring) (by norm_num) (d := 1365 / 36028797018963968) (by norm_num [f64])
  have a21 := a20.mul az .double (8) (by decide) (R := 1439543 / 10000) (by rw [abs_mul]; exact le_trans (mul_le_mul a20.bnd az.bnd (abs_nonneg _) (by norm_num)) (by norm_num)) (by norm_num) (d := 255969 / 9007199254740992000) (by norm_num [f64])
  have k22 : Apx f64 _ _ 0 (3424399 / 10000) := Apx.const asD_s3 (by norm_num [abs_le])
  have a23 := a21.add k22 .double (9) (by decide) (R := 8561 / 25) (by have := cheb_le (lo := 0) (hi := 3 / 8) (R := 8561 / 25) (p := [3012132914012767 / 8796093022208, -(3376618643403255 / 8796093022208), 2587206018744225 / 17592186044416, -(1544438793885539 / 70368744177664), 1]) (z := v) (by decide +kernel) (by norm_num) (by simpa using h0) (by push_cast; exact h1); simp only [pEval] at this; push_cast at this; refine le_trans (le_of_eq (congrArg _ ?_)) this; ring) (by norm_num) (d := 511969 / 9007199254740992000) (by norm_num [f64])
  have a24 := az.mul a12 .double (4) (by decide) (R := 53507 / 5000) (by rw [abs_mul]; exact le_trans (mul_le_mul az.bnd a12.bnd (abs_nonneg _) (by norm_num)) (by norm_num)) (by norm_num) (d := 19759 / 9007199254740992000) (by norm_num [f64])
  have hl := asDL_low h0 h1
  have hk := asRL_le h0 h1
  have eN : ((((855387617219553 / 288230376151711744 * v + -(5074874736912655 / 9007199254740992)) * v + 3923035433836341 / 562949953421312) * v + -(899629579253101 / 35184372088832)) * v + 8032354437367837 / 281474976710656) = pEval asNL v := by simp only [asNL, pEval]; push_cast; ring
  have eD : ((((v + -(1544438793885539 / 70368744177664)) * v + 2587206018744225 / 17592186044416) * v + -(3376618643403255 / 8796093022208)) * v + 3012132914012767 / 8796093022208) = pEval asDL v := by simp only [asDL, pEval]; push_cast; ring
  rw [eN] at a24
  rw [eD] at a23
  have hr := a24.div a23 .double (-4) (by decide) (L := 5332 / 25) hl (by norm_num) (R := 39 / 1000) (by
    have := hk; unfold asRL at this; rw [abs_of_nonneg this.2]; exact this.1) (by norm_num) (d := 109 / 4503599627370496000) (by norm_num [f64])
  have hu : uRel f64 = 1 / 9007199254740992 := by unfold uRel; norm_num [f64]
  rw [hu]
  exact hr.weaken (by norm_num) le_rfl

def asNL' : List ℚ := [0, 8032354437367837 / 140737488355328, -(899629579253101 / 8796093022208), 3923035433836341 / 70368744177664, -(5074874736912655 / 562949953421312), 855387617219553 / 9007199254740992]
def asDL' : List ℚ := [3012132914012767 / 8796093022208, -(3376618643403255 / 4398046511104), 2587206018744225 / 4398046511104, -(1544438793885539 / 8796093022208), 16]

theorem asDL_cheb : chebBound 0 (3 / 16) (pAdd (pAdd asDL' asNL') (pScale (-1) (pMul asDL' (asinTaylor 0 24)))) ≤ 12777 / 1000000000000000000 := by decide +kernel

theorem asDL_real {t : ℝ} (h0 : 0 ≤ t) (h1 : t * t ≤ 3 / 16) :
    |t * (1 + asRL (2 * (t * t))) - Real.arcsin t| ≤ 68 / 125 * uRel f64 * Real.arcsin t := by
  have hu : uRel f64 = 1 / 9007199254740992 := by unfold uRel; norm_num [f64]
  have e1 : pEval asNL' (t * t) = 2 * (t * t) * pEval asNL (2 * (t * t)) := by
    simp only [asNL', asNL, pEval]; push_cast; ring
  have e2 : pEval asDL' (t * t) = pEval asDL (2 * (t * t)) := by
    simp only [asDL', asDL, pEval]; push_cast; ring
  have hT : t ≤ 4331 / 10000 := by
    by_contra hc
    push Not at hc
    have := mul_lt_mul hc hc.le (by norm_num) h0
    norm_num at this h1
    linarith
  have h := asin_apxQ (n := 23) (q0 := 5332 / 25) (ε := 229 / 500000000000000000000) (T := 4331 / 10000) (K := 2219 / 2000) (t := t) asDL_cheb (by norm_num)
    (by push_cast; exact mul_self_nonneg t) (by push_cast; exact h1) (by
      rw [e2]; push_cast; exact asDL_low (by nlinarith [mul_self_nonneg t]) (by linarith)) (by norm_num)
    (by norm_num) (by norm_num) (by norm_num) (by decide +kernel) h0 (by push_cast; exact hT)
  rw [e1, e2] at h
  unfold asRL
  refine le_trans h (mul_le_mul_of_nonneg_right ?_ (Real.arcsin_nonneg.mpr h0))
  rw [hu]; push_cast; norm_num

end Vc.Lemma
