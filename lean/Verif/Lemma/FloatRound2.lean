import Verif.Lemma.FloatRound

/-!
The emulations of `trunc`, `floor`, `ceil` and `round` without SSE4.1.
-/

namespace Vc.Lemma

open Vc.Model Vc.Spec

theorem toInt_intOr {n : Int} (h1 : -2147483648 ≤ n) (h2 : n < 2147483648) : (intOrIndefinite n).toInt = n := by
  unfold intOrIndefinite
  rw [if_pos ⟨h1, h2⟩, BitVec.toInt_ofInt]
  apply Int.bmod_eq_of_le
  · exact h1
  · exact h2

theorem signed_false (n : Nat) : signed false n = (n : Int) := rfl

theorem signed_tdiv (s : Bool) (v d : Nat) : (signed s v).tdiv (d : Int) = signed s (v / d) := by
  unfold signed
  cases s
  · simp only [Bool.false_eq_true, if_false]; rw [Int.natCast_ediv]; exact Int.tdiv_eq_ediv_of_nonneg (Int.natCast_nonneg _)
  · simp only [if_true]; rw [Int.neg_tdiv, Int.natCast_ediv, Int.tdiv_eq_ediv_of_nonneg (Int.natCast_nonneg _)]

theorem natAbs_signed (s : Bool) (n : Nat) : (signed s n).natAbs = n := by
  unfold signed; cases s <;> simp

/-- Conversion to int with truncation, in range. -/
theorem cvtt_small {F : Fmt} {w : Nat} {x : BitVec w} (hx : isFinite F x = true)
    (h : magVal F (fmag F x) / 2 ^ oneExp F < 2147483648) :
    (cvttF2I F x).toInt = signed (fneg F x) (magVal F (fmag F x) / 2 ^ oneExp F) := by
  unfold cvttF2I
  rw [if_pos hx, fval_signed]
  have e := signed_tdiv (fneg F x) (magVal F (fmag F x)) (2 ^ oneExp F)
  rw [Int.natCast_pow] at e
  rw [show ((2 : Int) ^ oneExp F) = (((2 : Nat) : Int) ^ oneExp F) from rfl, e]
  generalize magVal F (fmag F x) / 2 ^ oneExp F = q at *
  apply toInt_intOr <;> unfold signed <;> cases fneg F x <;> simp <;> omega

/-- The exponent field. -/
theorem and_exp {F : Fmt} {w : Nat} (hw : w = F.e + F.m + 1) (x : BitVec w) :
    (x &&& BitVec.ofNat w (infMag F)).toNat = fmag F x / 2 ^ F.m * 2 ^ F.m := by
  rw [BitVec.toNat_and, toNat_ofNat_lt (Nat.lt_trans (infMag_lt F) (pow_lt_width hw))]
  apply Nat.eq_of_testBit_eq
  intro j
  have h1 := Nat.testBit_two_pow_mul_add (2 ^ F.e - 1) (b := 0) (i := F.m) (pow_pos2 _) j
  have h2 := Nat.testBit_two_pow_mul_add (fmag F x / 2 ^ F.m) (b := 0) (i := F.m) (pow_pos2 _) j
  rw [Nat.add_zero, Nat.mul_comm] at h1 h2
  rw [Nat.testBit_and, h2]
  unfold infMag
  rw [h1]
  by_cases hj : j < F.m
  · simp [hj]
  · rw [if_neg hj, if_neg hj, Nat.testBit_two_pow_sub_one, Nat.testBit_div_two_pow]
    unfold fmag
    rw [Nat.testBit_mod_two_pow, show j - F.m + F.m = j from by omega, Bool.and_comm]
    congr 1
    rw [decide_eq_decide]; omega

/-- A bitwise selection with a uniform mask. -/
theorem select_mask {w : Nat} (p : Bool) (x y : BitVec w) :
    (~~~(laneMask p : BitVec w) &&& x) ||| (laneMask p &&& y) = if p then y else x := by
  cases p
  · simp [laneMask]
  · simp [laneMask]

theorem lane_andnot {n w : Nat} (x y : BitVec n) {i : Nat} (h : w * (i + 1) ≤ n) :
    lane w (andnot x y) i = ~~~lane w x i &&& lane w y i := by
  unfold andnot; rw [lane_and, lane_not _ h]

/-- `trunc` of a float. -/
def truncPsLane (a : BitVec 32) : BitVec 32 :=
  if fmag f32 a / 2 ^ 23 ≤ 149 then cvtI2F f32 32 (cvttF2I f32 a) else a

theorem lane_truncPsEmul (x : M128) {i : Nat} (hi : i < 4) : lane 32 (truncPsEmul x) i = truncPsLane (lane 32 x i) := by
  unfold truncPsEmul cvtepi32PsN truncPsLane
  simp only
  rw [lane_or, lane_andnot _ _ (by omega), lane_and, lane_cmpltEpi (by omega), lane_and, lane_set1 _ (by omega),
    lane_set1 _ (by omega), lane_map1 _ _ (by omega), lane_map1 _ _ (by omega), select_mask]
  generalize lane 32 x i = a
  have e := and_exp (F := f32) (w := 32) rfl a
  rw [show BitVec.ofNat 32 (infMag f32) = 0x7f800000#32 from by decide] at e
  have hf := fmag_lt f32 a
  have hlt : fmag f32 a / 2 ^ 23 < 256 := by
    apply Nat.div_lt_of_lt_mul; exact hf
  have hi1 : (a &&& 0x7f800000#32).toInt = ((fmag f32 a / 2 ^ 23 * 2 ^ 23 : Nat) : Int) := by
    rw [BitVec.toInt_eq_toNat_of_lt, e]
    · rfl
    · rw [e]; show 2 * (fmag f32 a / 2 ^ 23 * 2 ^ 23) < 2 ^ 32; omega
  have hc : decide ((a &&& 0x7f800000#32).toInt < (0x4b000000#32).toInt) = decide (fmag f32 a / 2 ^ 23 ≤ 149) := by
    rw [hi1, show (0x4b000000#32).toInt = 1258291200 from by decide, decide_eq_decide]; omega
  rw [hc, ite_decide]

/-- The result is the truncated number; infinities and NaNs stay. -/
theorem truncPsLane_spec (a : BitVec 32) :
    (isFinite f32 a = true → isFinite f32 (truncPsLane a) = true ∧
      fval f32 (truncPsLane a) = signed (fneg f32 a) (magVal f32 (fmag f32 a) / 2 ^ oneExp f32) * 2 ^ oneExp f32) ∧
    (isFinite f32 a = false → truncPsLane a = a) := by
  have h149 : oneExp f32 = 149 := by decide
  constructor
  · intro ha
    have hd := pow_pos2 (oneExp f32)
    unfold truncPsLane
    rcases int_or_small FmtW.single (fmag f32 a) with ⟨hc, hs⟩ | ⟨hc, q, hq⟩
    · rw [if_pos (by rw [← h149]; exact hc)]
      have hq : magVal f32 (fmag f32 a) / 2 ^ oneExp f32 < 2 ^ 23 := by
        apply Nat.div_lt_of_lt_mul; rw [Nat.mul_comm]; exact hs
      have ht := cvtt_small ha (Nat.lt_trans hq (by decide))
      have := cvtI2F_exact f32 (w := 32) FmtW.single.lt (a := cvttF2I f32 a)
        (r := magVal f32 (fmag f32 a) / 2 ^ oneExp f32) (j := 0) (Nat.le_trans (Nat.le_of_lt hq) (by decide))
        (by decide) (by rw [ht, natAbs_signed, Nat.pow_zero, Nat.mul_one])
      rw [ht] at this
      exact ⟨this.2.1, this.1⟩
    · rw [if_neg (by rw [← h149]; show ¬ fmag f32 a / 2 ^ f32.m ≤ oneExp f32; omega)]
      refine ⟨ha, ?_⟩
      rw [fval_signed, hq, Nat.mul_div_cancel _ hd, signed_mul, Int.natCast_pow]
      rfl
  · intro ha
    unfold truncPsLane
    rw [if_neg]
    intro hc
    have : fmag f32 a < infMag f32 := by
      have h1 := Nat.div_add_mod (fmag f32 a) (2 ^ 23)
      have h2 := Nat.mod_lt (fmag f32 a) (show 0 < 2 ^ 23 by decide)
      have : infMag f32 = 255 * 2 ^ 23 := by decide
      omega
    unfold isFinite at ha
    exact absurd this (of_decide_eq_false ha)

theorem fAdd_fin (F : Fmt) {w : Nat} {a b : BitVec w} (ha : isFinite F a = true) (hb : isFinite F b = true) :
    fAdd F a b = roundInt F w (fval F a + fval F b) (fneg F a && fneg F b) := by
  obtain ⟨a1, a2⟩ := isFinite_not ha
  obtain ⟨b1, b2⟩ := isFinite_not hb
  unfold fAdd; rw [a1, b1, a2, b2]; rfl

theorem fSub_fin (F : Fmt) {w : Nat} {a b : BitVec w} (ha : isFinite F a = true) (hb : isFinite F b = true) :
    fSub F a b = roundInt F w (fval F a - fval F b) (fneg F a && !fneg F b) := by
  obtain ⟨a1, a2⟩ := isFinite_not ha
  obtain ⟨b1, b2⟩ := isFinite_not hb
  unfold fSub; rw [a1, b1, a2, b2]; rfl

/-- Adding a multiple of `2 * d` does not change the rounding. -/
theorem rne_add (v k : Nat) {d : Nat} (hd : 0 < d) : rne (v + 2 * k * d) d = rne v d + 2 * k := by
  unfold rne
  simp only
  rw [Nat.add_mul_mod_self_right, Nat.add_mul_div_right _ _ hd]
  split
  · rfl
  · split <;> omega

/-- A number `q * d` with `q ≤ 2 ^ (m + 1)` as result of a subtraction. -/
theorem fSub_int {F : Fmt} {w : Nat} (h : FmtW F w) {a b : BitVec w} (ha : isFinite F a = true)
    (hb : isFinite F b = true) {q : Nat} (hq : q ≤ 2 ^ (F.m + 1)) (hv : fval F a - fval F b = ((q * 2 ^ oneExp F : Nat) : Int))
    (hz : fneg F a = false) :
    isFinite F (fSub F a b) = true ∧ fneg F (fSub F a b) = false ∧
      fval F (fSub F a b) = ((q * 2 ^ oneExp F : Nat) : Int) := by
  rw [fSub_fin F ha hb, hv, hz]
  have := roundInt_exact F h.lt (n := ((q * 2 ^ oneExp F : Nat) : Int)) false (r := q) (j := oneExp F) hq
    (by cases h <;> decide) (by rw [Int.natAbs_natCast])
  refine ⟨this.2.1, ?_, this.1⟩
  have e := this.2.2
  rw [Bool.false_and, e]
  split
  · rfl
  · exact decide_eq_false (by have := Int.natCast_nonneg (q * 2 ^ oneExp F); omega)

/-- `trunc` of a double. -/
def truncPdLane (a : BitVec 64) : BitVec 64 :=
  let ab := a &&& 0x7fffffffffffffff#64
  let big := 0x4330000000000000#64
  let t := fSub f64 (fAdd f64 ab big) big
  let t := fSub f64 t (laneMask (fLt f64 ab t) &&& 0x3ff0000000000000#64)
  (0x8000000000000000#64 &&& a) ||| t

theorem lane_truncPdEmul (x : M128) {i : Nat} (hi : i < 2) : lane 64 (truncPdEmul x) i = truncPdLane (lane 64 x i) := by
  unfold truncPdEmul truncPdLane vFLt vFAbs
  simp only
  have ha : lane 64 sseDouble.absMask i = 0x7fffffffffffffff#64 := Platform.sseDouble.absMask (by omega)
  rw [lane_or, lane_and, lane_set1 _ (by omega), lane_map2 _ _ _ (by omega), lane_map2 _ _ _ (by omega),
    lane_map2 _ _ _ (by omega), lane_and, lane_and, lane_map2 _ _ _ (by omega), lane_set1 _ (by omega),
    lane_set1 _ (by omega), lane_map2 _ _ _ (by omega), lane_map2 _ _ _ (by omega), lane_and, lane_set1 _ (by omega), ha]

/-- Sign and magnitude after putting the sign of `a` over a positive number. -/
theorem or_sign (a t : BitVec 64) (ht : fneg f64 t = false) :
    fneg f64 ((0x8000000000000000#64 &&& a) ||| t) = fneg f64 a ∧
    fmag f64 ((0x8000000000000000#64 &&& a) ||| t) = fmag f64 t := by
  unfold fneg fmag at *
  rw [BitVec.toNat_or, BitVec.toNat_and, Nat.testBit_or, ht, Nat.or_mod_two_pow, Bool.or_false, Nat.testBit_and,
    Nat.and_mod_two_pow]
  constructor
  · rw [show (0x8000000000000000#64).toNat = 2 ^ (f64.e + f64.m) from by decide, Nat.testBit_two_pow_self, Bool.true_and]
  · rw [show (0x8000000000000000#64).toNat % 2 ^ (f64.e + f64.m) = 0 from by decide, Nat.zero_and, Nat.zero_or]

/-- The truncated number, if there can be a fraction. -/
theorem truncPdLane_spec (a : BitVec 64) (ha : isFinite f64 a = true)
    (hsm : magVal f64 (fmag f64 a) < 2 ^ 52 * 2 ^ oneExp f64) :
    isFinite f64 (truncPdLane a) = true ∧ fneg f64 (truncPdLane a) = fneg f64 a ∧
      fval f64 (truncPdLane a) = signed (fneg f64 a) (magVal f64 (fmag f64 a) / 2 ^ oneExp f64) * 2 ^ oneExp f64 := by
  have hd := pow_pos2 (oneExp f64)
  have hab := sm_abs (F := f64) (w := 64) rfl a
  rw [show BitVec.ofNat 64 (2 ^ (f64.e + f64.m) - 1) = 0x7fffffffffffffff#64 from by decide] at hab
  generalize hb : a &&& 0x7fffffffffffffff#64 = ab at hab
  generalize hV : magVal f64 (fmag f64 a) = V at *
  have habf : isFinite f64 ab = true := by
    unfold isFinite at ha ⊢; rw [hab.2]; exact ha
  have habv : fval f64 ab = (V : Int) := by
    rw [fval_signed, hab.1, hab.2, hV]; rfl
  have hd1074 : oneExp f64 = 1074 := by decide
  -- the constant 2 ^ 52
  have hbigf : isFinite f64 0x4330000000000000#64 = true := by decide
  have hbigm : fmag f64 0x4330000000000000#64 = 1075 * 2 ^ 52 := by decide
  have hbign : fneg f64 0x4330000000000000#64 = false := by decide
  have hbigv : fval f64 0x4330000000000000#64 = ((2 ^ 52 * 2 ^ oneExp f64 : Nat) : Int) := by
    rw [fval_signed, hbign, hbigm]
    have := magVal_pack f64 (k := 1074) (r := 2 ^ 52) (by decide) (.inr (Nat.le_refl _))
    have e : (1074 * 2 ^ f64.m + 2 ^ 52) = 1075 * 2 ^ 52 := by decide
    rw [e, ← hd1074] at this
    rw [this]; exact signed_false _
  -- the sum
  have hsum : isFinite f64 (fAdd f64 ab 0x4330000000000000#64) = true ∧
      fneg f64 (fAdd f64 ab 0x4330000000000000#64) = false ∧
      fval f64 (fAdd f64 ab 0x4330000000000000#64) = (((rne V (2 ^ oneExp f64) + 2 ^ 52) * 2 ^ oneExp f64 : Nat) : Int) := by
    rw [fAdd_fin f64 habf hbigf, habv, hbigv]
    have hpos : 0 < V + 2 ^ 52 * 2 ^ oneExp f64 := Nat.add_pos_right _ (Nat.mul_pos (by decide) hd)
    have hn0 : ((V : Int) + ((2 ^ 52 * 2 ^ oneExp f64 : Nat) : Int)) = ((V + 2 ^ 52 * 2 ^ oneExp f64 : Nat) : Int) :=
      (Int.natCast_add _ _).symm
    rw [hn0]
    generalize hS : V + 2 ^ 52 * 2 ^ oneExp f64 = S at *
    unfold roundInt
    rw [if_neg (by omega), decide_eq_false (by omega), Int.natAbs_natCast]
    have hno : roundMag f64 S 1 < infMag f64 := by
      apply roundMag_lt f64 S (by decide) (k := 1075) (by decide)
      rw [Nat.one_mul, ← hS, show (f64.m + 1075) = 1 + (52 + oneExp f64) from by decide, Nat.pow_add 2 1,
        Nat.pow_add 2 52]
      have := Nat.le_of_lt hsm
      generalize 2 ^ 52 * 2 ^ oneExp f64 = A at *
      omega
    have hulp : ulpExp f64 S 1 = oneExp f64 := by
      unfold ulpExp
      rw [Nat.div_one]
      have : Nat.log2 S = 52 + oneExp f64 := by
        apply log2_eq
        · rw [Nat.pow_add, ← hS]; exact Nat.le_add_left _ _
        · rw [show 52 + oneExp f64 + 1 = 1 + (52 + oneExp f64) from by omega, Nat.pow_add 2 1, Nat.pow_add 2 52, ← hS]
          generalize 2 ^ 52 * 2 ^ oneExp f64 = A at *
          omega
      rw [this, show f64.m = 52 from rfl]
      exact Nat.add_sub_cancel_left _ _
    have hlt := Nat.lt_trans hno (infMag_lt f64)
    have hw : f64.e + f64.m < 64 := by decide
    refine ⟨isFinite_mk f64 hw _ hno, (fneg_mk f64 hw _ hlt).1, ?_⟩
    rw [fval_mk f64 hw _ hlt, magVal_roundMag f64 S (by decide) hno, hulp, Nat.one_mul, ← hS,
      show (2 : Nat) ^ 52 * 2 ^ oneExp f64 = 2 * 2 ^ 51 * 2 ^ oneExp f64 from by
        rw [show (2 : Nat) ^ 52 = 2 * 2 ^ 51 from by decide],
      rne_add V (2 ^ 51) hd, show (2 : Nat) * 2 ^ 51 = 2 ^ 52 from by decide]
    rfl
  generalize hsmeq : fAdd f64 ab 0x4330000000000000#64 = sm at hsum
  -- minus the constant
  have hq52 : rne V (2 ^ oneExp f64) ≤ 2 ^ 52 := rne_le V hd (Nat.le_of_lt hsm)
  have hb2 := rne_bounds V hd
  have hfl := floorDiv_spec V hd
  have hlow : V / 2 ^ oneExp f64 ≤ rne V (2 ^ oneExp f64) := rne_ge V hd hfl.1
  have hup : rne V (2 ^ oneExp f64) ≤ V / 2 ^ oneExp f64 + 1 :=
    rne_le V hd (by rw [Nat.add_mul, Nat.one_mul]; exact Nat.le_of_lt hfl.2)
  generalize hq : rne V (2 ^ oneExp f64) = q at *
  have ht1 := fSub_int FmtW.double hsum.1 hbigf (q := q) (Nat.le_trans hq52 (by decide)) (by
    rw [hsum.2.2, hbigv, Nat.add_mul]
    generalize 2 ^ 52 * 2 ^ oneExp f64 = A
    generalize q * 2 ^ oneExp f64 = B
    omega) hsum.2.1
  generalize ht : fSub f64 sm 0x4330000000000000#64 = t1 at ht1
  -- the correction
  have hlt : fLt f64 ab t1 = decide (V < q * 2 ^ oneExp f64) := by
    unfold fLt
    rw [(isFinite_not habf).1, (isFinite_not ht1.1).1, habv, ht1.2.2]
    simp only [Bool.not_false, Bool.and_self, Bool.true_and]
    rw [decide_eq_decide]; exact Int.ofNat_lt
  have hfin : ∃ t2, fSub f64 t1 (laneMask (fLt f64 ab t1) &&& 0x3ff0000000000000#64) = t2 ∧ isFinite f64 t2 = true ∧
      fneg f64 t2 = false ∧ fval f64 t2 = ((V / 2 ^ oneExp f64 * 2 ^ oneExp f64 : Nat) : Int) := by
    refine ⟨_, rfl, ?_⟩
    by_cases hc : V < q * 2 ^ oneExp f64
    · rw [hlt, decide_eq_true hc, show (laneMask true &&& 0x3ff0000000000000#64 : BitVec 64) = 0x3ff0000000000000#64 from by decide]
      have hone : fval f64 0x3ff0000000000000#64 = ((2 ^ oneExp f64 : Nat) : Int) := by
        rw [fval_signed, show fneg f64 0x3ff0000000000000#64 = false from by decide,
          show fmag f64 0x3ff0000000000000#64 = 1022 * 2 ^ f64.m + 2 ^ 52 from by decide,
          magVal_pack f64 (k := 1022) (r := 2 ^ 52) (Nat.pow_le_pow_right (by decide) (by decide)) (.inr (Nat.le_refl _)), ← Nat.pow_add,
          show 52 + 1022 = oneExp f64 from by decide]
        exact signed_false _
      have hqe : q = V / 2 ^ oneExp f64 + 1 := by
        rcases Nat.lt_or_eq_of_le hup with h | h
        · have : q = V / 2 ^ oneExp f64 := by omega
          rw [this] at hc; omega
        · exact h
      have := fSub_int FmtW.double ht1.1 (b := 0x3ff0000000000000#64) (by decide) (q := V / 2 ^ oneExp f64)
        (Nat.le_trans hlow (Nat.le_trans hq52 (by decide))) (by
          rw [ht1.2.2, hone, hqe, Nat.add_mul, Nat.one_mul]
          generalize 2 ^ oneExp f64 = A
          generalize V / A * A = B
          omega) ht1.2.1
      exact this
    · rw [hlt, decide_eq_false hc, show (laneMask false &&& 0x3ff0000000000000#64 : BitVec 64) = 0#64 from by decide]
      have hqe : q = V / 2 ^ oneExp f64 := by
        rcases Nat.lt_or_eq_of_le hup with h | h
        · omega
        · rw [h, Nat.add_mul, Nat.one_mul] at hc; omega
      have := fSub_int FmtW.double ht1.1 (b := 0#64) (by decide) (q := V / 2 ^ oneExp f64)
        (Nat.le_trans hlow (Nat.le_trans hq52 (by decide))) (by
          rw [ht1.2.2, fval_zero_of_mag (by decide), hqe, Int.sub_zero]) ht1.2.1
      exact this
  obtain ⟨t2, e2, f2, n2, v2⟩ := hfin
  have e : truncPdLane a = (0x8000000000000000#64 &&& a) ||| t2 := by
    unfold truncPdLane
    simp only
    rw [hb, hsmeq, ht, e2]
  obtain ⟨o1, o2⟩ := or_sign a t2 n2
  rw [e]
  refine ⟨?_, o1, ?_⟩
  · unfold isFinite at f2 ⊢; rw [o2]; exact f2
  · rw [fval_signed, o1, o2]
    rw [fval_signed, n2] at v2
    have v2 : magVal f64 (fmag f64 t2) = V / 2 ^ oneExp f64 * 2 ^ oneExp f64 := Int.ofNat_inj.mp v2
    rw [v2, signed_mul, Int.natCast_pow]
    rfl

end Vc.Lemma
