import Verif.Lemma.FloatRound2
import Verif.Lemma.Avx
import Verif.Model.FloatExp
import Verif.Spec.FloatExp

namespace Vc.Lemma

open Vc.Model Vc.Spec

/-! ### Single numbers -/

theorem magVal_eq_zero (F : Fmt) (k : Nat) : magVal F k = 0 ↔ k = 0 := by
  have hp := pow_pos2 F.m
  unfold magVal
  by_cases h : k / 2 ^ F.m = 0
  · rw [if_pos h]
  · rw [if_neg h]
    have h2 := pow_pos2 (k / 2 ^ F.m - 1)
    constructor
    · intro e
      rcases Nat.mul_eq_zero.mp e with h | h <;> omega
    · intro e; subst e; exact absurd (Nat.zero_div _) h

theorem fval_eq_zero {F : Fmt} {w : Nat} (x : BitVec w) : fval F x = 0 ↔ fmag F x = 0 := by
  rw [← magVal_eq_zero F]
  unfold fval
  split <;> omega

theorem fEq_zero {F : Fmt} {w : Nat} (h : FmtW F w) (x : BitVec w) : fEq F x 0#w = decide (fmag F x = 0) := by
  have hz : fmag F (0#w) = 0 := by unfold fmag; simp
  have hz1 : isNaN F (0#w) = false := by unfold isNaN; rw [hz]; simp
  have hz3 : fval F (0#w) = 0 := fval_zero_of_mag hz
  unfold fEq
  rw [hz1, hz3]
  have hp : 0 < infMag F := by cases h <;> decide
  by_cases h0 : fmag F x = 0
  · have hn : isNaN F x = false := by unfold isNaN; rw [h0]; simp
    rw [hn, decide_eq_true h0, decide_eq_true ((fval_eq_zero x).mpr h0)]; rfl
  · rw [decide_eq_false h0, decide_eq_false (fun e => h0 ((fval_eq_zero x).mp e)), Bool.and_false]

/-- The constant `frexpMask`. -/
theorem Platform.frexpMask {F : Fmt} {n w : Nat} {K : FConst n} (h : Platform F n w K) {i : Nat}
    (hi : w * (i + 1) ≤ n) :
    Model.lane w K.frexpMask i = BitVec.ofNat w (2 ^ w - 1 - 2 ^ (F.e + F.m - 1) - 2 ^ F.m) := by
  cases h <;> exact (lane_set1 _ hi).trans (by decide)

/-- Exponent field `bias - 1`, the same mantissa and sign. -/
theorem frexp_mag {F : Fmt} {w : Nat} (h : FmtW F w) (x : BitVec w) :
    (x ||| BitVec.ofNat w (infMag F)) &&& BitVec.ofNat w (2 ^ w - 1 - 2 ^ (F.e + F.m - 1) - 2 ^ F.m) =
      mkFloat F w (fneg F x) (2 ^ F.m * (bias F - 1) + fmag F x % 2 ^ F.m) := by
  have hp := pow_pos2 F.m
  have hm := Nat.mod_lt (fmag F x) hp
  have hlt : 2 ^ F.m * (bias F - 1) + fmag F x % 2 ^ F.m < 2 ^ (F.e + F.m) := by
    generalize fmag F x % 2 ^ F.m = r at hm
    cases h
    · show 2 ^ 23 * 126 + r < 2 ^ 31
      replace hm : r < 2 ^ 23 := hm
      omega
    · show 2 ^ 52 * 1022 + r < 2 ^ 63
      replace hm : r < 2 ^ 52 := hm
      omega
  have hk := fneg_mk F h.lt (fneg F x) hlt
  refine sm_ext h.width ?_ ?_
  · rw [hk.1]
    unfold fneg
    rw [BitVec.toNat_and, BitVec.toNat_or, Nat.testBit_and, Nat.testBit_or]
    cases h
    · rw [show (BitVec.ofNat 32 (infMag f32)).toNat.testBit (f32.e + f32.m) = false from by decide,
        show (BitVec.ofNat 32 (2 ^ 32 - 1 - 2 ^ (f32.e + f32.m - 1) - 2 ^ f32.m)).toNat.testBit (f32.e + f32.m) = true
          from by decide, Bool.or_false, Bool.and_true]
    · rw [show (BitVec.ofNat 64 (infMag f64)).toNat.testBit (f64.e + f64.m) = false from by decide,
        show (BitVec.ofNat 64 (2 ^ 64 - 1 - 2 ^ (f64.e + f64.m - 1) - 2 ^ f64.m)).toNat.testBit (f64.e + f64.m) = true
          from by decide, Bool.or_false, Bool.and_true]
  · rw [hk.2]
    apply Nat.eq_of_testBit_eq
    intro j
    rw [Nat.testBit_two_pow_mul_add _ hm]
    unfold fmag
    rw [Nat.testBit_mod_two_pow, BitVec.toNat_and, BitVec.toNat_or, Nat.testBit_and, Nat.testBit_or,
      Nat.testBit_mod_two_pow, Nat.testBit_mod_two_pow]
    by_cases hj : j < F.m
    · rw [if_pos hj, decide_eq_true hj, Bool.true_and, decide_eq_true (show j < F.e + F.m by omega), Bool.true_and,
        Bool.true_and]
      have c : (BitVec.ofNat w (infMag F)).toNat.testBit j = false ∧
          (BitVec.ofNat w (2 ^ w - 1 - 2 ^ (F.e + F.m - 1) - 2 ^ F.m)).toNat.testBit j = true := by
        cases h
        · exact (show ∀ j : Fin 23, (BitVec.ofNat 32 (infMag f32)).toNat.testBit j = false ∧
            (BitVec.ofNat 32 (2 ^ 32 - 1 - 2 ^ (f32.e + f32.m - 1) - 2 ^ f32.m)).toNat.testBit j = true
              from by decide +kernel) ⟨j, hj⟩
        · exact (show ∀ j : Fin 52, (BitVec.ofNat 64 (infMag f64)).toNat.testBit j = false ∧
            (BitVec.ofNat 64 (2 ^ 64 - 1 - 2 ^ (f64.e + f64.m - 1) - 2 ^ f64.m)).toNat.testBit j = true
              from by decide +kernel) ⟨j, hj⟩
      rw [c.1, c.2, Bool.or_false, Bool.and_true]
    · rw [if_neg hj]
      by_cases hj2 : j < F.e + F.m
      · rw [decide_eq_true hj2, Bool.true_and]
        obtain ⟨i, rfl⟩ : ∃ i, j = F.m + i := ⟨j - F.m, by omega⟩
        have hi : i < F.e := by omega
        have c : (BitVec.ofNat w (infMag F)).toNat.testBit (F.m + i) = true ∧
            (BitVec.ofNat w (2 ^ w - 1 - 2 ^ (F.e + F.m - 1) - 2 ^ F.m)).toNat.testBit (F.m + i) =
              (bias F - 1).testBit i := by
          cases h
          · exact (show ∀ i : Fin 8, (BitVec.ofNat 32 (infMag f32)).toNat.testBit (23 + i) = true ∧
              (BitVec.ofNat 32 (2 ^ 32 - 1 - 2 ^ (f32.e + f32.m - 1) - 2 ^ f32.m)).toNat.testBit (23 + i) =
                (bias f32 - 1).testBit i from by decide +kernel) ⟨i, hi⟩
          · exact (show ∀ i : Fin 11, (BitVec.ofNat 64 (infMag f64)).toNat.testBit (52 + i) = true ∧
              (BitVec.ofNat 64 (2 ^ 64 - 1 - 2 ^ (f64.e + f64.m - 1) - 2 ^ f64.m)).toNat.testBit (52 + i) =
                (bias f64 - 1).testBit i from by decide +kernel) ⟨i, hi⟩
        rw [c.1, c.2, Bool.or_true, Bool.true_and, Nat.add_sub_cancel_left]
      · rw [decide_eq_false hj2, Bool.false_and]
        symm
        apply Nat.testBit_lt_two_pow
        refine Nat.lt_of_lt_of_le (m := 2 ^ F.e) ?_ (Nat.pow_le_pow_right (by decide) (by omega))
        cases h <;> decide

/-- What `frexp` does to a lane. -/
def frexpR (F : Fmt) {w : Nat} (x : BitVec w) : BitVec w :=
  if !isFinite F x || decide (fmag F x = 0) then x
  else mkFloat F w (fneg F x) (2 ^ F.m * (bias F - 1) + fmag F x % 2 ^ F.m)

/-- The exponent `frexp` computes. -/
def frexpE (F : Fmt) {w : Nat} (x : BitVec w) : Int :=
  if fmag F x = 0 then 0 else (fmag F x / 2 ^ F.m : Nat) - (bias F - 1 : Nat)

/-- What `ldexp` does to a lane. -/
def LdexpR (F : Fmt) {w : Nat} (x : BitVec w) (e : Int) (r : BitVec w) : Prop :=
  if fmag F x = 0 then r = x else ∃ k : Int, (r.toNat : Int) = x.toNat + e * 2 ^ F.m + k * 2 ^ w

theorem field_lt (F : Fmt) {w : Nat} (x : BitVec w) : fmag F x / 2 ^ F.m < 2 ^ F.e := by
  have h := fmag_lt F x
  apply Nat.div_lt_of_lt_mul
  rwa [← Nat.pow_add, Nat.add_comm]

theorem normal_iff {F : Fmt} {w : Nat} (h : FmtW F w) (x : BitVec w) :
    isNormal F x = true ↔ 1 ≤ fmag F x / 2 ^ F.m ∧ fmag F x / 2 ^ F.m ≤ 2 ^ F.e - 2 := by
  have hp := pow_pos2 F.m
  unfold isNormal infMag
  rw [Bool.and_eq_true, decide_eq_true_eq, decide_eq_true_eq, Nat.le_div_iff_mul_le hp, Nat.one_mul,
    ← Nat.div_lt_iff_lt_mul hp]
  have : 2 ≤ 2 ^ F.e := by cases h <;> decide
  omega

/-- Value of a normal number. -/
theorem fval_normal {F : Fmt} {w : Nat} {x : BitVec w} (h : 1 ≤ fmag F x / 2 ^ F.m) :
    fval F x = signed (fneg F x) ((2 ^ F.m + fmag F x % 2 ^ F.m) * 2 ^ (fmag F x / 2 ^ F.m - 1)) := by
  rw [fval_signed]
  unfold magVal
  rw [if_neg (by omega)]

/-- Two numbers with the same sign and mantissa. -/
theorem scaled_of_fields {F : Fmt} {w : Nat} {x y : BitVec w} {e : Int} (hs : fneg F y = fneg F x)
    (hm : fmag F y % 2 ^ F.m = fmag F x % 2 ^ F.m) (hx : 1 ≤ fmag F x / 2 ^ F.m) (hy : 1 ≤ fmag F y / 2 ^ F.m)
    (he : ((fmag F y / 2 ^ F.m : Nat) : Int) = (fmag F x / 2 ^ F.m : Nat) + e) : IsScaled F x e y := by
  refine ⟨hs, ?_⟩
  rw [fval_normal hx, fval_normal hy, hs, hm]
  generalize fmag F x / 2 ^ F.m = a at *
  generalize fmag F y / 2 ^ F.m = b at *
  generalize 2 ^ F.m + fmag F x % 2 ^ F.m = M
  rw [signed_mul, signed_mul, Int.mul_assoc, Int.mul_assoc]
  congr 1
  rw [Int.natCast_pow, Int.natCast_pow, show ((2 : Nat) : Int) = 2 from rfl, ← Int.pow_add, ← Int.pow_add]
  congr 1
  omega

theorem signed_natAbs (s : Bool) (a : Nat) : (signed s a).natAbs = a := by
  unfold signed; split <;> omega

/-- `frexp` of a lane, except for denormal numbers. -/
theorem frexpR_spec {F : Fmt} {w : Nat} (h : FmtW F w) (x : BitVec w) (hd : isDenormal F x = false) :
    IsFrexp F x (frexpR F x) (frexpE F x) := by
  have hp := pow_pos2 F.m
  have hb : 2 ≤ bias F ∧ bias F - 1 ≤ 2 ^ F.e - 2 := by cases h <;> decide
  have hr : isFinite F x = true → fmag F x ≠ 0 →
      fneg F (frexpR F x) = fneg F x ∧ fmag F (frexpR F x) = 2 ^ F.m * (bias F - 1) + fmag F x % 2 ^ F.m := by
    intro h1 h2
    unfold frexpR
    rw [h1, decide_eq_false h2]
    simp only [Bool.not_true, Bool.or_self, Bool.false_eq_true, if_false]
    apply fneg_mk F h.lt
    have hm := Nat.mod_lt (fmag F x) hp
    have : 2 ^ F.m * (bias F - 1 + 1) ≤ 2 ^ F.m * 2 ^ F.e := Nat.mul_le_mul_left _ (by omega)
    rw [Nat.mul_add, ← Nat.pow_add, Nat.add_comm F.m] at this
    omega
  have hfield : isFinite F x = true → fmag F x ≠ 0 →
      fmag F (frexpR F x) / 2 ^ F.m = bias F - 1 ∧ fmag F (frexpR F x) % 2 ^ F.m = fmag F x % 2 ^ F.m := by
    intro h1 h2
    have hm := Nat.mod_lt (fmag F x) hp
    rw [(hr h1 h2).2]
    constructor
    · rw [Nat.mul_add_div hp, Nat.div_eq_of_lt hm, Nat.add_zero]
    · rw [Nat.mul_add_mod, Nat.mod_mod]
  constructor
  · intro h0
    unfold frexpR frexpE
    rw [decide_eq_true h0, Bool.or_true]
    exact ⟨if_pos rfl, if_pos h0⟩
  · intro h1
    unfold frexpR
    rw [h1]; rfl
  · intro h1 h2
    obtain ⟨f1, f2⟩ := hfield h1 h2
    have hm := Nat.mod_lt (fmag F x) hp
    refine ⟨?_, ?_⟩
    · unfold isFinite infMag
      rw [decide_eq_true_eq, ← Nat.div_lt_iff_lt_mul hp, f1]
      have : 2 ≤ 2 ^ F.e := by cases h <;> decide
      omega
    · rw [fval_normal (by omega), f1, f2, signed_natAbs]
      have e : 2 ^ oneExp F = (2 ^ F.m + 2 ^ F.m) * 2 ^ (bias F - 1 - 1) := by
        rw [← two_pow_succ, ← Nat.pow_add]; congr 1; unfold oneExp; omega
      have e2 : 2 ^ (oneExp F - 1) = 2 ^ F.m * 2 ^ (bias F - 1 - 1) := by
        rw [← Nat.pow_add]; congr 1; unfold oneExp; omega
      rw [e, e2]
      exact ⟨Nat.mul_le_mul_right _ (by omega), Nat.mul_lt_mul_of_pos_right (by omega) (pow_pos2 _)⟩
  · intro h1 h2
    obtain ⟨f1, f2⟩ := hfield h1 h2
    have hn : 1 ≤ fmag F x / 2 ^ F.m := by
      rw [Nat.le_div_iff_mul_le hp, Nat.one_mul]
      unfold isDenormal at hd
      simp only [Bool.and_eq_false_iff, decide_eq_false_iff_not] at hd
      omega
    refine scaled_of_fields (hr h1 h2).1.symm f2.symm (by omega) hn ?_
    rw [f1]
    unfold frexpE
    rw [if_neg h2]
    omega

/-- Sign and magnitude of a pattern. -/
theorem toNat_sm {F : Fmt} {w : Nat} (h : FmtW F w) (x : BitVec w) :
    x.toNat = fmag F x + if fneg F x then 2 ^ (F.e + F.m) else 0 := by
  have hx : x = mkFloat F w (fneg F x) (fmag F x) := by
    have := fneg_mk F h.lt (fneg F x) (fmag_lt F x)
    exact sm_ext h.width this.1.symm this.2.symm
  have hf := fmag_lt F x
  have hw : 2 ^ w = 2 ^ (F.e + F.m) + 2 ^ (F.e + F.m) := by rw [h.width, two_pow_succ]
  conv => lhs; rw [hx]
  unfold mkFloat
  apply toNat_ofNat_lt
  split <;> omega

/-- `ldexp` where the result has a representation with the same mantissa. -/
theorem ldexpR_mk {F : Fmt} {w : Nat} (h : FmtW F w) {x r : BitVec w} {e : Int} (hr : LdexpR F x e r)
    (hx : fmag F x ≠ 0) {k : Nat} (hk : (k : Int) = fmag F x + e * 2 ^ F.m) (hlt : k < 2 ^ (F.e + F.m)) :
    r = mkFloat F w (fneg F x) k := by
  unfold LdexpR at hr
  rw [if_neg hx] at hr
  obtain ⟨q, hq⟩ := hr
  apply BitVec.eq_of_toNat_eq
  have hm := fneg_mk F h.lt (fneg F x) hlt
  have e1 := toNat_sm h (mkFloat F w (fneg F x) k)
  rw [hm.1, hm.2] at e1
  have e2 := toNat_sm h x
  have hr := r.isLt
  have hmk := (mkFloat F w (fneg F x) k).isLt
  rw [e1] at hmk ⊢
  have hD : (2 ^ w : Int) = ((2 ^ w : Nat) : Int) := by rw [Int.natCast_pow]; rfl
  rw [hD] at hq
  generalize (2 ^ w : Nat) = D at *
  generalize (if fneg F x = true then 2 ^ (F.e + F.m) else 0) = s at *
  generalize e * 2 ^ F.m = g at *
  have h1 : (r.toNat : Int) = (k + s : Nat) + q * D := by rw [hq]; push_cast; omega
  have h2 : q = 0 := by
    rcases Int.lt_trichotomy q 0 with hneg | h0 | hpos
    · have : q * D ≤ (-1) * D := Int.mul_le_mul_of_nonneg_right (by omega) (by omega)
      omega
    · exact h0
    · have : 1 * (D : Int) ≤ q * D := Int.mul_le_mul_of_nonneg_right (by omega) (by omega)
      omega
  rw [h2] at h1
  omega

theorem ldexpR_spec {F : Fmt} {w : Nat} (h : FmtW F w) {x r : BitVec w} {e : Int} (hr : LdexpR F x e r)
    (hx : isNormal F x = true) (h1 : 1 ≤ (fmag F x / 2 ^ F.m : Nat) + e)
    (h2 : (fmag F x / 2 ^ F.m : Nat) + e ≤ (2 ^ F.e - 2 : Nat)) :
    isNormal F r = true ∧ IsScaled F x e r := by
  have hp := pow_pos2 F.m
  have hE : 2 ≤ 2 ^ F.e := by cases h <;> decide
  have hn := (normal_iff h x).mp hx
  obtain ⟨b, hb⟩ : ∃ b : Nat, (b : Int) = (fmag F x / 2 ^ F.m : Nat) + e :=
    ⟨((fmag F x / 2 ^ F.m : Nat) + e).toNat, by omega⟩
  have hm := Nat.mod_lt (fmag F x) hp
  have hdm := Nat.div_add_mod (fmag F x) (2 ^ F.m)
  have hk : ((2 ^ F.m * b + fmag F x % 2 ^ F.m : Nat) : Int) = fmag F x + e * 2 ^ F.m := by
    conv => rhs; rw [← hdm]
    push_cast
    rw [hb]
    push_cast
    rw [Int.mul_add, Int.mul_comm e]
    omega
  have hlt : 2 ^ F.m * b + fmag F x % 2 ^ F.m < 2 ^ (F.e + F.m) := by
    have : 2 ^ F.m * (b + 1) ≤ 2 ^ F.m * 2 ^ F.e := Nat.mul_le_mul_left _ (by omega)
    rw [Nat.mul_add, ← Nat.pow_add, Nat.add_comm F.m] at this
    omega
  have h0 : fmag F x ≠ 0 := by intro e; rw [e, Nat.zero_div] at hn; omega
  rw [ldexpR_mk h hr h0 hk hlt]
  have hmk := fneg_mk F h.lt (fneg F x) hlt
  have f1 : fmag F (mkFloat F w (fneg F x) (2 ^ F.m * b + fmag F x % 2 ^ F.m)) / 2 ^ F.m = b := by
    rw [hmk.2, Nat.mul_add_div hp, Nat.div_eq_of_lt hm, Nat.add_zero]
  refine ⟨(normal_iff h _).mpr ?_, scaled_of_fields hmk.1 ?_ hn.1 ?_ ?_⟩
  · rw [f1]; omega
  · rw [hmk.2, Nat.mul_add_mod, Nat.mod_mod]
  · rw [f1]; omega
  · rw [f1]; exact hb

theorem ldexpR_zero {F : Fmt} {w : Nat} {x r : BitVec w} {e : Int} (hr : LdexpR F x e r) (hx : fmag F x = 0) : r = x := by
  unfold LdexpR at hr
  rwa [if_pos hx] at hr

/-- `ldexp` undoes `frexp` for all finite numbers. -/
theorem ldexpR_frexpR {F : Fmt} {w : Nat} (h : FmtW F w) {x r : BitVec w} (hx : isFinite F x = true)
    (hr : LdexpR F (frexpR F x) (frexpE F x) r) : r = x := by
  have hp := pow_pos2 F.m
  have hb : 2 ≤ bias F ∧ bias F - 1 ≤ 2 ^ F.e - 2 := by cases h <;> decide
  by_cases h0 : fmag F x = 0
  · have e : frexpR F x = x := by
      unfold frexpR
      rw [decide_eq_true h0, Bool.or_true]; rfl
    rw [e] at hr
    exact ldexpR_zero hr h0
  · have hm := Nat.mod_lt (fmag F x) hp
    have hmk : fneg F (frexpR F x) = fneg F x ∧
        fmag F (frexpR F x) = 2 ^ F.m * (bias F - 1) + fmag F x % 2 ^ F.m := by
      unfold frexpR
      rw [hx, decide_eq_false h0]
      simp only [Bool.not_true, Bool.or_self, Bool.false_eq_true, if_false]
      apply fneg_mk F h.lt
      have : 2 ^ F.m * (bias F - 1 + 1) ≤ 2 ^ F.m * 2 ^ F.e := Nat.mul_le_mul_left _ (by omega)
      rw [Nat.mul_add, ← Nat.pow_add, Nat.add_comm F.m] at this
      omega
    have hne : fmag F (frexpR F x) ≠ 0 := by
      rw [hmk.2]
      have := Nat.mul_le_mul_left (2 ^ F.m) (show 1 ≤ bias F - 1 by omega)
      omega
    have := ldexpR_mk h hr hne (k := fmag F x) (by
      rw [hmk.2]
      unfold frexpE
      rw [if_neg h0, Int.sub_mul]
      have hdm := Nat.div_add_mod (fmag F x) (2 ^ F.m)
      conv => lhs; rw [← hdm]
      push_cast
      rw [Int.mul_comm (2 ^ F.m) ((bias F - 1 : Nat) : Int), Int.mul_comm (2 ^ F.m) ((fmag F x : Int) / 2 ^ F.m)]
      omega) (fmag_lt F x)
    rw [this, hmk.1]
    have := fneg_mk F h.lt (fneg F x) (fmag_lt F x)
    exact sm_ext h.width this.1 this.2

end Vc.Lemma
