import Verif.Lemma.LogLane
import Verif.Lemma.ExpF3
import Verif.Lemma.RelApx

/-!
The argument reduction of `log`.
-/

namespace Vc.Lemma
open Vc.Model Vc.Spec

/-- What the proofs need to know about the constants and about `exponent`. -/
structure LogKOk (F : Fmt) {w : Nat} (K : LogConst w) (expo : BitVec w → BitVec w) : Prop where
  fw : FmtW F w
  mask : ∀ x : BitVec w, fneg F x = false → fneg F (logM1 K x) = false ∧ fmag F (logM1 K x) / 2 ^ F.m = bias F - 1 ∧
    fmag F (logM1 K x) % 2 ^ F.m = fmag F x % 2 ^ F.m
  min : isFinite F K.min = true ∧ fval F K.min = 2 ^ F.m
  sq : isFinite F K.invSqrt2 = true ∧ 0.7071067 ≤ rval F K.invSqrt2 ∧ rval F K.invSqrt2 ≤ 0.7071068
  root : ∃ c : Nat, rval F K.invSqrt2 = c * 2 ^ (-((F.m : Int) + 1)) ∧ 2 * (c - 1) ^ 2 ≤ (2 ^ (F.m + 1)) ^ 2
  one : isFinite F K.one = true ∧ rval F K.one = 1
  p54 : isFinite F K.p54 = true ∧ rval F K.p54 = 2 ^ (54 : Int)
  c54 : isFinite F K.c54 = true ∧ rval F K.c54 = 54
  expo : ∀ x : BitVec w, fneg F x = false → isFinite F (expo x) = true ∧
    rval F (expo x) = ((fmag F x / 2 ^ F.m : Nat) : ℝ) - (bias F : ℝ)

theorem fmag_of_toNat {F : Fmt} {w : Nat} {x : BitVec w} (hx : x.toNat < 2 ^ (F.e + F.m)) :
    fneg F x = false ∧ fmag F x = x.toNat := by
  refine ⟨?_, Nat.mod_eq_of_lt hx⟩
  unfold fneg
  exact Nat.testBit_lt_two_pow hx

theorem mant_bits32 (x : BitVec 32) (hx : fneg f32 x = false) : (logM1 logConstF x).toNat = x.toNat % 2 ^ 23 + 126 * 2 ^ 23 := by
  have hlt : x.toNat < 2 ^ 31 := by
    have := toNat_sm .single x
    rw [hx] at this
    have h2 := fmag_lt f32 x
    simp only [Bool.false_eq_true, if_false] at this
    have : (2 : Nat) ^ (f32.e + f32.m) = 2 ^ 31 := rfl
    omega
  have e : logM1 logConstF x = x &&& 0x007fffff#32 ||| 0x3f000000#32 := by
    unfold logM1 logConstF
    simp only
    rw [BitVec.and_comm]
    apply BitVec.eq_of_toNat_eq
    apply Nat.eq_of_testBit_eq
    intro j
    simp only [BitVec.toNat_or, BitVec.toNat_and, Nat.testBit_or, Nat.testBit_and]
    have hm : (~~~(0x7f800000#32)).toNat = 0x807fffff := by decide
    have hm2 : (0x007fffff#32).toNat = 0x007fffff := by decide
    rw [hm, hm2]
    by_cases hj : j < 31
    · have : (0x807fffff : Nat).testBit j = (0x007fffff : Nat).testBit j := by
        have : ∀ j : Fin 31, (0x807fffff : Nat).testBit j = (0x007fffff : Nat).testBit j := by decide
        exact this ⟨j, hj⟩
      rw [this]
    · have : x.toNat.testBit j = false := Nat.testBit_lt_two_pow (Nat.lt_of_lt_of_le hlt (Nat.pow_le_pow_right (by decide) (by omega)))
      rw [this]; simp
  rw [e, BitVec.toNat_or, BitVec.toNat_and]
  have h1 : (0x007fffff#32).toNat = 2 ^ 23 - 1 := by decide
  have h2 : (0x3f000000#32).toNat = 126 * 2 ^ 23 := by decide
  rw [h1, h2, Nat.and_two_pow_sub_one_eq_mod, Nat.or_comm, Nat.mul_comm 126, ← Nat.two_pow_add_eq_or_of_lt (Nat.mod_lt _ (by decide))]
  omega

theorem mant_bits64 (x : BitVec 64) (hx : fneg f64 x = false) : (logM1 logConstD x).toNat = x.toNat % 2 ^ 52 + 1022 * 2 ^ 52 := by
  have hlt : x.toNat < 2 ^ 63 := by
    have := toNat_sm .double x
    rw [hx] at this
    have h2 := fmag_lt f64 x
    simp only [Bool.false_eq_true, if_false] at this
    have : (2 : Nat) ^ (f64.e + f64.m) = 2 ^ 63 := rfl
    omega
  have e : logM1 logConstD x = x &&& 0x000fffffffffffff#64 ||| 0x3fe0000000000000#64 := by
    unfold logM1 logConstD
    simp only
    rw [BitVec.and_comm]
    apply BitVec.eq_of_toNat_eq
    apply Nat.eq_of_testBit_eq
    intro j
    simp only [BitVec.toNat_or, BitVec.toNat_and, Nat.testBit_or, Nat.testBit_and]
    have hm : (~~~(0x7ff0000000000000#64)).toNat = 0x800fffffffffffff := by decide
    have hm2 : (0x000fffffffffffff#64).toNat = 0x000fffffffffffff := by decide
    rw [hm, hm2]
    by_cases hj : j < 63
    · have : (0x800fffffffffffff : Nat).testBit j = (0x000fffffffffffff : Nat).testBit j := by
        have : ∀ j : Fin 63, (0x800fffffffffffff : Nat).testBit j = (0x000fffffffffffff : Nat).testBit j := by decide
        exact this ⟨j, hj⟩
      rw [this]
    · have : x.toNat.testBit j = false := Nat.testBit_lt_two_pow (Nat.lt_of_lt_of_le hlt (Nat.pow_le_pow_right (by decide) (by omega)))
      rw [this]; simp
  rw [e, BitVec.toNat_or, BitVec.toNat_and]
  have h1 : (0x000fffffffffffff#64).toNat = 2 ^ 52 - 1 := by decide
  have h2 : (0x3fe0000000000000#64).toNat = 1022 * 2 ^ 52 := by decide
  rw [h1, h2, Nat.and_two_pow_sub_one_eq_mod, Nat.or_comm, Nat.mul_comm 1022, ← Nat.two_pow_add_eq_or_of_lt (Nat.mod_lt _ (by decide))]
  omega

/-- The integer computed by `exponent`, converted; also for infinities and NaNs. -/
theorem expo_val {F : Fmt} {w : Nat} (h : FmtW F w) {x : BitVec w} {a c : BitVec 32} (ha : a.toNat = fmag F x / 2 ^ F.m)
    (hc : c.toNat = bias F) :
    isFinite F (cvtI2F F w (a - c)) = true ∧
    rval F (cvtI2F F w (a - c)) = ((fmag F x / 2 ^ F.m : Nat) : ℝ) - (bias F : ℝ) := by
  have hf := field_lt F x
  have ht : (a - c).toInt = ((fmag F x / 2 ^ F.m : Nat) : Int) - (bias F : Int) := by
    rw [BitVec.toInt_sub, BitVec.toInt_eq_toNat_of_lt (x := a), BitVec.toInt_eq_toNat_of_lt (x := c), ha, hc]
    · generalize fmag F x / 2 ^ F.m = k at *
      cases h
      · have hf : k < 256 := hf
        show ((k : Int) - (127 : Nat)).bmod (2 ^ 32) = k - (127 : Nat)
        apply Int.bmod_eq_of_le <;> omega
      · have hf : k < 2048 := hf
        show ((k : Int) - (1023 : Nat)).bmod (2 ^ 32) = k - (1023 : Nat)
        apply Int.bmod_eq_of_le <;> omega
    · rw [hc]; cases h <;> decide
    · rw [ha]
      generalize fmag F x / 2 ^ F.m = k at *
      cases h
      · have hf : k < 256 := hf
        omega
      · have hf : k < 2048 := hf
        omega
  have := cvtI2F_exact F h.lt (a := a - c) (r := (a - c).toInt.natAbs) (j := 0) (by
    rw [ht]
    generalize fmag F x / 2 ^ F.m = k at *
    cases h
    · have hf : k < 256 := hf
      show ((k : Int) - (127 : Nat)).natAbs ≤ 2 ^ 24
      omega
    · have hf : k < 2048 := hf
      show ((k : Int) - (1023 : Nat)).natAbs ≤ 2 ^ 53
      omega) (by cases h <;> decide) (by simp)
  refine ⟨this.2.1, ?_⟩
  rw [rval_int this.1, ht]
  push_cast; rfl

theorem logKF : LogKOk f32 logConstF expoF where
  fw := .single
  mask x hx := by
    have h := mant_bits32 x hx
    have hm : x.toNat % 2 ^ 23 < 2 ^ 23 := Nat.mod_lt _ (by decide)
    have h2 := fmag_of_toNat (F := f32) (x := logM1 logConstF x) (by
      rw [h]; show _ < 2 ^ 31; omega)
    have h3 := toNat_sm .single x
    rw [hx] at h3
    simp only [Bool.false_eq_true, if_false, Nat.add_zero] at h3
    refine ⟨h2.1, ?_, ?_⟩
    · rw [h2.2, h]; show _ / 2 ^ 23 = 126; omega
    · rw [h2.2, h, ← h3]; show _ % 2 ^ 23 = x.toNat % 2 ^ 23; omega
  min := by decide +kernel
  sq := by
    have h : isFinite f32 0x3f3504f3#32 = true ∧ rval f32 0x3f3504f3#32 = 11863283 / 16777216 := by
      refine ⟨by decide, rval_lit false 126 3474675 (-24) (by decide) (by decide) (by decide) (by decide) (by decide) ?_⟩
      norm_num [f32]
    refine ⟨h.1, ?_⟩
    show _ ≤ rval f32 0x3f3504f3#32 ∧ rval f32 0x3f3504f3#32 ≤ _
    rw [h.2]; norm_num
  root := by
    have h : rval f32 0x3f3504f3#32 = 11863283 / 16777216 := by
      refine rval_lit false 126 3474675 (-24) (by decide) (by decide) (by decide) (by decide) (by decide) ?_
      norm_num [f32]
    refine ⟨11863283, ?_, by decide⟩
    show rval f32 0x3f3504f3#32 = _
    rw [h]; norm_num [f32]
  one := by
    refine ⟨by decide, rval_lit false 127 0 (-23) (by decide) (by decide) (by decide) (by decide) (by decide) ?_⟩
    norm_num [f32]
  p54 := by
    refine ⟨by decide, rval_lit false 181 0 31 (by decide) (by decide) (by decide) (by decide) (by decide) ?_⟩
    norm_num [f32]
  c54 := by
    refine ⟨by decide, rval_lit false 132 5767168 (-18) (by decide) (by decide) (by decide) (by decide) (by decide) ?_⟩
    norm_num [f32]
  expo x hx := expo_val .single (toNat_shift .single hx) rfl

theorem logKD : LogKOk f64 logConstD expoD where
  fw := .double
  mask x hx := by
    have h := mant_bits64 x hx
    have hm : x.toNat % 2 ^ 52 < 2 ^ 52 := Nat.mod_lt _ (by decide)
    have h2 := fmag_of_toNat (F := f64) (x := logM1 logConstD x) (by
      rw [h]; show _ < 2 ^ 63; omega)
    have h3 := toNat_sm .double x
    rw [hx] at h3
    simp only [Bool.false_eq_true, if_false, Nat.add_zero] at h3
    refine ⟨h2.1, ?_, ?_⟩
    · rw [h2.2, h]; show _ / 2 ^ 52 = 1022; omega
    · rw [h2.2, h, ← h3]; show _ % 2 ^ 52 = x.toNat % 2 ^ 52; omega
  min := by decide +kernel
  sq := by
    have h : isFinite f64 0x3fe6a09e667f3bcd#64 = true ∧ rval f64 0x3fe6a09e667f3bcd#64 = 6369051672525773 / 9007199254740992 := by
      refine ⟨by decide, rval_lit false 1022 1865452045155277 (-53) (by decide) (by decide) (by decide) (by decide) (by decide) ?_⟩
      norm_num [f64]
    refine ⟨h.1, ?_⟩
    show _ ≤ rval f64 0x3fe6a09e667f3bcd#64 ∧ rval f64 0x3fe6a09e667f3bcd#64 ≤ _
    rw [h.2]; norm_num
  root := by
    have h : rval f64 0x3fe6a09e667f3bcd#64 = 6369051672525773 / 9007199254740992 := by
      refine rval_lit false 1022 1865452045155277 (-53) (by decide) (by decide) (by decide) (by decide) (by decide) ?_
      norm_num [f64]
    refine ⟨6369051672525773, ?_, by decide⟩
    show rval f64 0x3fe6a09e667f3bcd#64 = _
    rw [h]; norm_num [f64]
  one := by
    refine ⟨by decide, rval_lit false 1023 0 (-52) (by decide) (by decide) (by decide) (by decide) (by decide) ?_⟩
    norm_num [f64]
  p54 := by
    refine ⟨by decide, rval_lit false 1077 0 2 (by decide) (by decide) (by decide) (by decide) (by decide) ?_⟩
    norm_num [f64]
  c54 := by
    refine ⟨by decide, rval_lit false 1028 3096224743817216 (-47) (by decide) (by decide) (by decide) (by decide) (by decide) ?_⟩
    norm_num [f64]
  expo x hx := expo_val .double (toNat_shift64 hx) rfl

section
variable {F : Fmt} {w : Nat} {K : LogConst w} {expo : BitVec w → BitVec w} {x : BitVec w}

theorem small_mag (hs : fneg F x = false) (hm : fmag F x ≤ 2 ^ F.m) : fval F x = fmag F x := by
  rw [fval_signed, hs]
  show (magVal F (fmag F x) : Int) = fmag F x
  unfold magVal
  split
  · rfl
  · rename_i h
    have : 2 ^ F.m ≤ fmag F x := by
      by_contra hc
      exact h (Nat.div_eq_of_lt (by omega))
    have e : fmag F x = 2 ^ F.m := by omega
    rw [e, Nat.mod_self, Nat.div_self (pow_pos2 _)]; simp

/-- The scaled argument is not denormal, and how it is scaled. -/
theorem logX1_spec (hK : LogKOk F K expo) (hs : fneg F x = false) (h0 : fmag F x ≠ 0) :
    fneg F (logX1 F K x) = false ∧ 1 ≤ fmag F (logX1 F K x) / 2 ^ F.m ∧
    (fLe F x K.min = true → rval F (logX1 F K x) = rval F x * 2 ^ (54 : Int) ∧
      2 ^ (54 - (oneExp F : Int)) ≤ rval F (logX1 F K x)) ∧
    (fLe F x K.min = false → logX1 F K x = x) := by
  have hp := pow_pos2 F.m
  unfold logX1
  cases hc : fLe F x K.min
  · refine ⟨hs, ?_, (fun h => by cases h), fun _ => rfl⟩
    simp only [Bool.false_eq_true, if_false]
    rw [Nat.le_div_iff_mul_le hp, Nat.one_mul]
    by_contra hlt
    have hf : isFinite F x = true := by
      unfold isFinite infMag
      rw [decide_eq_true_eq]
      have h8 : 2 ≤ 2 ^ F.e := by cases hK.fw <;> decide
      have : 1 * 2 ^ F.m ≤ (2 ^ F.e - 1) * 2 ^ F.m := Nat.mul_le_mul_right _ (by omega)
      omega
    unfold fLe at hc
    rw [(isFinite_not hf).1, (isFinite_not hK.min.1).1, small_mag hs (by omega), hK.min.2] at hc
    simp at hc
    have : (fmag F x : Int) < 2 ^ F.m := by exact_mod_cast (not_le.mp hlt)
    omega
  · simp only [if_true]
    have hle : fmag F x ≤ 2 ^ F.m := by
      unfold fLe at hc
      simp only [Bool.and_eq_true, decide_eq_true_eq, Bool.not_eq_true'] at hc
      have h1 := hc.2
      rw [hK.min.2, fval_signed, hs] at h1
      have h1' : (magVal F (fmag F x) : Int) ≤ 2 ^ F.m := h1
      by_contra hlt
      have hlt : 2 ^ F.m < fmag F x := by omega
      have h2 : magVal F (fmag F x) ≤ 2 ^ F.m := by exact_mod_cast h1'
      unfold magVal at h2
      have hd := Nat.div_add_mod (fmag F x) (2 ^ F.m)
      generalize fmag F x / 2 ^ F.m = q at *
      split at h2
      · omega
      · rename_i h3
        have : (2 ^ F.m + fmag F x % 2 ^ F.m) * 1 ≤ (2 ^ F.m + fmag F x % 2 ^ F.m) * 2 ^ (q - 1) :=
          Nat.mul_le_mul_left _ (pow_pos2 _)
        have hmz : fmag F x % 2 ^ F.m = 0 := by omega
        rw [hmz, Nat.add_zero] at h2 hd
        have h4 : 2 ^ F.m * 2 ^ (q - 1) ≤ 2 ^ F.m * 1 := by omega
        have h5 := Nat.le_of_mul_le_mul_left h4 hp
        have h6 : q - 1 = 0 := by
          by_contra h7
          have : 2 ^ 1 ≤ 2 ^ (q - 1) := Nat.pow_le_pow_right (by decide) (by omega)
          omega
        have h8 : q = 1 := by omega
        rw [h8, Nat.mul_one] at hd
        omega
    have hfx : isFinite F x = true := by
      unfold isFinite infMag
      rw [decide_eq_true_eq]
      have h8 : 4 ≤ 2 ^ F.e := by cases hK.fw <;> decide
      have : 2 * 2 ^ F.m ≤ (2 ^ F.e - 1) * 2 ^ F.m := Nat.mul_le_mul_right _ (by omega)
      omega
    have hrx : rval F x = fmag F x / 2 ^ oneExp F := by unfold rval; rw [small_mag hs hle]; push_cast; rfl
    have hv : rval F x * 2 ^ (54 : Int) = ((fmag F x : Int) : ℝ) * 2 ^ (54 - (oneExp F : Int)) := by
      rw [hrx, zpow_sub₀ (by norm_num), zpow_natCast]; push_cast; ring
    have hr := fMul_repr hK.fw hfx hK.p54.1 (v := rval F x * 2 ^ (54 : Int)) ⟨fmag F x, 54 - oneExp F, hv, by
      rw [abs_of_nonneg (by positivity)]
      have : fmag F x ≤ 2 ^ (F.m + 1) := Nat.le_trans hle (Nat.pow_le_pow_right (by decide) (by omega))
      exact_mod_cast this, by omega, by
      have : (57 : Int) < 2 ^ F.e := by cases hK.fw <;> decide
      omega⟩ (by rw [hK.p54.2])
    have hge : (2 : ℝ) ^ (54 - (oneExp F : Int)) ≤ rval F (fMul F x K.p54) := by
      rw [hr.2, hv]
      have : (1 : ℝ) ≤ ((fmag F x : Int) : ℝ) := by exact_mod_cast Nat.one_le_iff_ne_zero.mpr h0
      exact le_mul_of_one_le_left (by positivity) this
    have hpos : 0 < rval F (fMul F x K.p54) := lt_of_lt_of_le (by positivity) hge
    have hsg := rval_nonneg_sign hpos
    refine ⟨hsg, ?_, fun _ => ⟨hr.2, hge⟩, (fun h => by cases h)⟩
    rw [Nat.le_div_iff_mul_le hp, Nat.one_mul]
    by_contra hlt
    have hsm := small_mag hsg (show fmag F (fMul F x K.p54) ≤ 2 ^ F.m by omega)
    have hlt2 : (fmag F (fMul F x K.p54) : ℝ) < 2 ^ F.m := by exact_mod_cast (not_le.mp hlt)
    unfold rval at hge
    rw [hsm, le_div_iff₀ (one_pos F), ← zpow_natCast (2 : ℝ) (oneExp F), ← zpow_add₀ (by norm_num)] at hge
    rw [show 54 - (oneExp F : Int) + oneExp F = 54 by ring] at hge
    push_cast at hge
    have h9 : (2 : ℝ) ^ F.m ≤ 2 ^ (54 : Int) := by
      rw [← zpow_natCast]
      refine zpow_le_zpow_right₀ (by norm_num) ?_
      cases hK.fw <;> decide
    linarith

/-- What the series gets: `x = (1 + t) * 2 ^ e`. -/
structure LogRedR (F : Fmt) {w : Nat} (x m e : BitVec w) (E : Int) : Prop where
  mfin : isFinite F m = true
  efin : isFinite F e = true
  eval : rval F e = E
  value : rval F x = (1 + rval F m) * 2 ^ E
  lo : -0.2928933 ≤ rval F m
  hi : rval F m ≤ 0.4142136
  small : |E| ≤ oneExp F
  grid : ∃ k : Int, rval F m = k * 2 ^ (-((F.m : Int) + 1))
  root : (1 + rval F m) ^ 2 ≤ 2

theorem log_red (hK : LogKOk F K expo) (hs : fneg F x = false) (h0 : fmag F x ≠ 0) :
    ∃ E, LogRedR F x (logM2 F K (logM1 K (logX1 F K x))) (logE2 F K (logM1 K (logX1 F K x)) (logE1 F K expo x)) E := by
  obtain ⟨s1, f1, x1, x2⟩ := logX1_spec hK hs h0
  have hp := pow_pos2 F.m
  have hkb := hK.fw
  have hb : 100 ≤ bias F := by cases hkb <;> decide
  have hb2 : bias F < 2 ^ F.e ∧ 2 * bias F = 2 ^ F.e - 2 := by cases hkb <;> decide
  have hone : oneExp F = bias F + F.m - 1 := rfl
  have hm2 : 4 ≤ F.m ∧ F.m ≤ 54 ∧ 60 < 2 ^ F.m := by cases hkb <;> decide
  have hfl := field_lt F (logX1 F K x)
  -- the exponent
  obtain ⟨ef, ev⟩ := hK.expo _ s1
  obtain ⟨mk1, mk2, mk3⟩ := hK.mask _ s1
  have vx1 := rval_field f1 rfl rfl (F := F) (x := logX1 F K x)
  have vm := rval_field (F := F) (x := logM1 K (logX1 F K x)) (by omega) mk2 mk3
  rw [s1] at vx1
  rw [mk1] at vm
  have hMlt := Nat.mod_lt (fmag F (logX1 F K x)) hp
  have mfin : isFinite F (logM1 K (logX1 F K x)) = true := by
    unfold isFinite infMag
    rw [decide_eq_true_eq]
    have hd := Nat.div_add_mod (fmag F (logM1 K (logX1 F K x))) (2 ^ F.m)
    have hl := Nat.mod_lt (fmag F (logM1 K (logX1 F K x))) hp
    rw [mk2] at hd
    have : (bias F - 1 + 1) * 2 ^ F.m ≤ (2 ^ F.e - 1) * 2 ^ F.m := Nat.mul_le_mul_right _ (by omega)
    rw [Nat.add_mul, Nat.one_mul, Nat.mul_comm] at this
    omega
  generalize hfd : fmag F (logX1 F K x) / 2 ^ F.m = f at *
  generalize fmag F (logX1 F K x) % 2 ^ F.m = M at *
  generalize hxx : logX1 F K x = X at *
  simp only [Bool.false_eq_true, if_false, one_mul] at vx1 vm
  rw [show ((bias F - 1 : Nat) : Int) - 1 - oneExp F = -((F.m : Int) + 1) by omega] at vm
  have hXm : rval F X = rval F (logM1 K X) * 2 ^ ((f : Int) - bias F + 1) := by
    rw [vx1, vm, mul_assoc, ← zpow_add₀ (by norm_num)]; congr 2; omega
  have hMr : (M : ℝ) < 2 ^ F.m := by exact_mod_cast hMlt
  have hpr : (0 : ℝ) < 2 ^ F.m := by positivity
  have hz : (2 : ℝ) ^ (-((F.m : Int) + 1)) = (2 ^ F.m)⁻¹ / 2 := by
    rw [neg_add, zpow_add₀ (by norm_num), zpow_neg, zpow_natCast]
    norm_num
    ring
  have mhalf : 1 / 2 ≤ rval F (logM1 K X) ∧ rval F (logM1 K X) < 1 := by
    rw [vm, hz]; push_cast
    constructor
    · have : (0 : ℝ) ≤ M := by positivity
      rw [← sub_nonneg]
      have e : (2 ^ F.m + (M : ℝ)) * ((2 ^ F.m)⁻¹ / 2) - 1 / 2 = M * (2 ^ F.m)⁻¹ / 2 := by field_simp; ring
      rw [e]; positivity
    · rw [← sub_pos]
      have e : 1 - (2 ^ F.m + (M : ℝ)) * ((2 ^ F.m)⁻¹ / 2) = (2 ^ F.m - M) * (2 ^ F.m)⁻¹ / 2 := by field_simp; ring
      rw [e]
      have : 0 < 2 ^ F.m - (M : ℝ) := by linarith
      positivity
  -- the unscaled exponent
  have hE1 : ∃ k : Int, isFinite F (logE1 F K expo x) = true ∧ rval F (logE1 F K expo x) = k ∧
      rval F x = rval F (logM1 K X) * 2 ^ (k + 1) ∧ -(oneExp F : Int) ≤ k ∧ k ≤ bias F + 1 := by
    unfold logE1
    rw [hxx]
    cases hc : fLe F x K.min
    · simp only [Bool.false_eq_true, if_false]
      refine ⟨(f : Int) - bias F, ef, ?_, ?_, ?_, ?_⟩
      · rw [ev]; push_cast; rfl
      · rw [← hXm, ← x2 hc]
      · omega
      · omega
    · simp only [if_true]
      obtain ⟨y1, y2⟩ := x1 hc
      have hrange : 54 - (oneExp F : Int) < (f : Int) - bias F + 1 := by
        have : (2 : ℝ) ^ (54 - (oneExp F : Int)) < 2 ^ ((f : Int) - bias F + 1) := by
          refine lt_of_le_of_lt y2 ?_
          rw [hXm]
          exact mul_lt_of_lt_one_left (by positivity) mhalf.2
        exact (zpow_lt_zpow_iff_right₀ (by norm_num)).mp this
      have hs2 := fSub_repr hkb ef hK.c54.1 (v := (((f : Int) - bias F - 54 : Int) : ℝ)) ⟨(f : Int) - bias F - 54, 0, by simp, by
        have h1 : (2 : Int) ^ F.e + 54 ≤ 2 ^ (F.m + 1) := by cases hkb <;> decide
        have h2 : (f : Int) < 2 ^ F.e := by exact_mod_cast hfl
        have h3 : (bias F : Int) < 2 ^ F.e := by exact_mod_cast hb2.1
        rw [abs_le]; constructor <;> omega, by omega, by
        have : (oneExp F : Int) + 3 < 2 ^ F.e := by cases hkb <;> decide
        omega⟩ (by rw [ev, hK.c54.2]; push_cast; ring)
      refine ⟨(f : Int) - bias F - 54, hs2.1, hs2.2, ?_, by omega, by omega⟩
      have : rval F x = rval F X * 2 ^ (-54 : Int) := by
        rw [y1, mul_assoc, ← zpow_add₀ (by norm_num)]; simp
      rw [this, hXm, mul_assoc, ← zpow_add₀ (by norm_num)]; congr 2; omega
  obtain ⟨k, kf, kv, kx, k1, k2⟩ := hE1
  generalize logE1 F K expo x = e at *
  have hko : (bias F : Int) + 2 ≤ oneExp F := by omega
  have hrepr : ∀ c : Int, |c| ≤ 2 ^ (F.m + 1) → Repr F ((c : ℝ) * 2 ^ (-((F.m : Int) + 1))) := fun c hc =>
    ⟨c, -((F.m : Int) + 1), rfl, hc, by omega, by
      have : (oneExp F : Int) + 3 < 2 ^ F.e := by cases hkb <;> decide
      omega⟩
  have hpi : (M : Int) < 2 ^ F.m := by exact_mod_cast hMlt
  have hps : (2 : Int) ^ (F.m + 1) = 2 * 2 ^ F.m := by rw [pow_succ]; ring
  have hcm : fLt F (logM1 K X) K.invSqrt2 = decide (rval F (logM1 K X) < rval F K.invSqrt2) := fLt_real mfin hK.sq.1
  unfold logM2 logE2
  rw [hcm]
  obtain ⟨sq1, sq2⟩ := hK.sq.2
  by_cases hlt : rval F (logM1 K X) < rval F K.invSqrt2
  · rw [decide_eq_true hlt]
    simp only [if_true]
    have ha := fAdd_repr hkb mfin mfin (v := ((2 ^ F.m + M : Int) : ℝ) * 2 ^ (-(F.m : Int)))
      ⟨2 ^ F.m + M, -(F.m : Int), rfl, by rw [abs_of_nonneg (by positivity)]; omega, by omega, by
        have : (oneExp F : Int) + 3 < 2 ^ F.e := by cases hkb <;> decide
        omega⟩ (by
        rw [vm, show -(F.m : Int) = -((F.m : Int) + 1) + 1 by ring, zpow_add₀ (by norm_num), zpow_one]
        push_cast; ring)
    have ha2 : rval F (fAdd F (logM1 K X) (logM1 K X)) = 2 * rval F (logM1 K X) := by
      rw [ha.2, vm, show -(F.m : Int) = -((F.m : Int) + 1) + 1 by ring, zpow_add₀ (by norm_num), zpow_one]
      push_cast; ring
    have hsb := fSub_repr hkb ha.1 hK.one.1 (v := ((2 * M : Int) : ℝ) * 2 ^ (-((F.m : Int) + 1)))
      (hrepr _ (by rw [abs_of_nonneg (by positivity)]; omega)) (by
        rw [ha2, hK.one.2, vm, hz]; push_cast; field_simp; ring)
    have hsv : rval F (fSub F (fAdd F (logM1 K X) (logM1 K X)) K.one) = 2 * rval F (logM1 K X) - 1 := by
      rw [hsb.2, vm, hz]; push_cast; field_simp; ring
    refine ⟨k, hsb.1, kf, kv, ?_, ?_, ?_, ?_, ⟨_, hsb.2⟩, ?_⟩
    · rw [hsv, kx, zpow_add₀ (by norm_num), zpow_one]; ring
    · rw [hsv]; have := mhalf.1; norm_num; linarith
    · rw [hsv]; norm_num at sq2 ⊢; linarith
    · rw [abs_le]; constructor <;> omega
    · obtain ⟨c, c1, c2⟩ := hK.root
      rw [vm, c1] at hlt
      have hpz : (0 : ℝ) < 2 ^ (-((F.m : Int) + 1)) := by positivity
      have h1 : ((2 ^ F.m + M : Nat) : ℝ) < c := lt_of_mul_lt_mul_right hlt hpz.le
      have h2 : 2 ^ F.m + M ≤ c - 1 := by have : 2 ^ F.m + M < c := by exact_mod_cast h1
                                          omega
      have h3 : 2 * (2 ^ F.m + M) ^ 2 ≤ (2 ^ (F.m + 1)) ^ 2 := le_trans (Nat.mul_le_mul_left 2 (Nat.pow_le_pow_left h2 2)) c2
      have h4 : 2 * (((2 ^ F.m + M : Nat) : ℝ)) ^ 2 ≤ (2 ^ (F.m + 1)) ^ 2 := by exact_mod_cast h3
      rw [hsv, vm, hz, show (1 : ℝ) + (2 * (((2 ^ F.m + M : Nat) : ℝ) * ((2 ^ F.m)⁻¹ / 2)) - 1) = ((2 ^ F.m + M : Nat) : ℝ) / 2 ^ F.m by field_simp; ring,
        div_pow, div_le_iff₀ (by positivity)]
      rw [show (2 : ℝ) ^ (F.m + 1) = 2 * 2 ^ F.m by ring, mul_pow] at h4
      linarith
  · rw [decide_eq_false hlt]
    simp only [Bool.false_eq_true, if_false]
    have hsb := fSub_repr hkb mfin hK.one.1 (v := ((M - 2 ^ F.m : Int) : ℝ) * 2 ^ (-((F.m : Int) + 1)))
      (hrepr _ (by rw [abs_le]; constructor <;> omega)) (by
        rw [hK.one.2, vm, hz]; push_cast; field_simp; ring)
    have hsv : rval F (fSub F (logM1 K X) K.one) = rval F (logM1 K X) - 1 := by
      rw [hsb.2, vm, hz]; push_cast; field_simp; ring
    have hea := fAdd_repr hkb kf hK.one.1 (v := ((k + 1 : Int) : ℝ)) ⟨k + 1, 0, by simp, by
        have h1 : (oneExp F : Int) + 60 ≤ 2 ^ (F.m + 1) := by cases hkb <;> decide
        rw [abs_le]; constructor <;> omega, by omega, by
        have : (oneExp F : Int) + 3 < 2 ^ F.e := by cases hkb <;> decide
        omega⟩ (by rw [kv, hK.one.2]; push_cast; ring)
    refine ⟨k + 1, hsb.1, hea.1, hea.2, ?_, ?_, ?_, ?_, ⟨_, hsb.2⟩, ?_⟩
    · rw [hsv, kx]; ring
    · rw [hsv]; push Not at hlt; norm_num at sq1 ⊢; linarith
    · rw [hsv]; have := mhalf.2; norm_num; linarith
    · rw [abs_le]; constructor <;> omega
    · rw [hsv]; have := mhalf.1; have := mhalf.2; nlinarith

end

end Vc.Lemma
