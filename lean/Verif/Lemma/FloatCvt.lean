import Verif.Lemma.FloatNearest
import Verif.Lemma.SseConv
import Verif.Model.FloatCvt

/-! Conversions of one lane. -/

namespace Vc.Lemma

open Vc.Model Vc.Spec

theorem isTrunc_signed {s : Bool} {a d : Nat} {n : Int} (hd : 0 < d) (h : IsTrunc (signed s a) d n) :
    n = signed s (a / d) := by
  have h' := isTrunc_div s a hd
  have hD : (0 : Int) < d := by omega
  unfold IsTrunc at h h'
  by_cases hp : 0 ≤ signed s a
  · obtain ⟨a1, a2⟩ := h.1 hp
    obtain ⟨b1, b2⟩ := h'.1 hp
    rw [Int.add_mul, Int.one_mul] at a2 b2
    rw [Int.mul_comm] at a1 a2 b1 b2
    exact floor_uniq hD a1 a2 b1 b2
  · obtain ⟨a1, a2⟩ := h.2 (by omega)
    obtain ⟨b1, b2⟩ := h'.2 (by omega)
    rw [Int.sub_mul, Int.one_mul] at a2 b2
    rw [Int.mul_comm] at a1 a2 b1 b2
    have := floor_uniq (D := (d : Int)) (a := -n) (b := -signed s (a / d)) (t := -signed s a) hD
      (by rw [Int.mul_neg]; omega) (by rw [Int.mul_neg]; omega) (by rw [Int.mul_neg]; omega)
      (by rw [Int.mul_neg]; omega)
    omega

theorem pow_cast (k : Nat) : (2 : Int) ^ k = ((2 ^ k : Nat) : Int) := by simp

/-- `cvttps2dq`, `cvttpd2dq`. -/
theorem cvtt_conv {F : Fmt} {w : Nat} {x : BitVec w} (hx : isFinite F x = true) {n : Int}
    (hn : IsTrunc (fval F x) (2 ^ oneExp F) n) (h1 : -2147483648 ≤ n) (h2 : n < 2147483648) :
    (cvttF2I F x).toInt = n := by
  rw [pow_cast, fval_signed] at hn
  have e := isTrunc_signed (pow_pos2 _) hn
  unfold cvttF2I
  rw [if_pos hx, fval_signed, pow_cast, signed_tdiv, ← e]
  exact toInt_intOr h1 h2

theorem add_sign (b : BitVec 32) : b + 0x80000000#32 = b ^^^ 0x80000000#32 := by
  apply BitVec.eq_of_toNat_eq
  rw [BitVec.toNat_xor, BitVec.toNat_add]
  have hb := b.isLt
  have e : (0x80000000#32).toNat = 2 ^ 31 := by decide
  rw [e]
  by_cases h : b.toNat < 2 ^ 31
  · rw [xor_two_pow_lt h]; omega
  · rw [xor_two_pow_ge (by omega) hb]; omega

theorem sub_sign (b : BitVec 32) : b - 0x80000000#32 = b ^^^ 0x80000000#32 := by
  rw [← add_sign, BitVec.sub_eq_add_neg]
  rfl

theorem toNat_xor_sign {b : BitVec 32} (h : 0 ≤ b.toInt) : (b ^^^ 0x80000000#32).toNat = b.toNat + 2147483648 := by
  rw [← add_sign, BitVec.toNat_add]
  rw [BitVec.toInt_eq_toNat_cond] at h
  have := b.isLt
  split at h
  · have e : (0x80000000#32).toNat = 2147483648 := by decide
    rw [e]; omega
  · omega

theorem toInt_nonneg_toNat {v : Nat} {b : BitVec v} (h : 0 ≤ b.toInt) : (b.toNat : Int) = b.toInt := by
  rw [BitVec.toInt_eq_toNat_cond] at h ⊢
  have := b.isLt
  split
  · rfl
  · rename_i hh; rw [if_neg hh] at h; omega

/-- The two patterns of 2^31. -/
structure IsTwo31 (F : Fmt) {w : Nat} (c : BitVec w) : Prop where
  fin : isFinite F c = true
  val : fval F c = ((2 ^ (oneExp F + 31) : Nat) : Int)

theorem isTwo31f : IsTwo31 f32 two31f := ⟨by decide +kernel, by decide +kernel⟩
theorem isTwo31d : IsTwo31 f64 two31d := ⟨by decide +kernel, by decide +kernel⟩

theorem fLe_fin {F : Fmt} {w : Nat} {x y : BitVec w} (hx : isFinite F x = true) (hy : isFinite F y = true) :
    fLe F x y = decide (fval F x ≤ fval F y) := by
  unfold fLe
  rw [(isFinite_not hx).1, (isFinite_not hy).1]
  rfl

/-- Subtracting 2^31 from a number between 2^31 and 2^32 is exact. -/
theorem sub31_exact {F : Fmt} {w : Nat} (h : FmtW F w) {c x : BitVec w} (hc : IsTwo31 F c)
    (hx : isFinite F x = true) (h1 : ((2 ^ (oneExp F + 31) : Nat) : Int) ≤ fval F x)
    (h2 : fval F x < ((2 ^ (oneExp F + 32) : Nat) : Int)) :
    fval F (fSub F x c) = fval F x - ((2 ^ (oneExp F + 31) : Nat) : Int) ∧ isFinite F (fSub F x c) = true := by
  obtain ⟨r, j, e, hr, hj⟩ := magVal_split F (fmag F x)
  have hpos : fval F x = ((r * 2 ^ j : Nat) : Int) := by
    have := natAbs_fval F x
    rw [e] at this
    have := pow_pos2 (oneExp F + 31)
    omega
  rw [hpos, Int.ofNat_le] at h1
  rw [hpos, Int.ofNat_lt] at h2
  have hm : F.m ≤ oneExp F + 31 := by cases h <;> decide
  have hj1 : j ≤ oneExp F + 31 := by
    apply Nat.le_of_not_lt; intro hlt
    have hle : 2 ^ (oneExp F + 32) ≤ 2 ^ j := Nat.pow_le_pow_right (by decide) hlt
    have hr0 : 0 < r := by
      rcases Nat.eq_zero_or_pos r with h0 | h0
      · rw [h0, Nat.zero_mul] at h1; have := pow_pos2 (oneExp F + 31); omega
      · exact h0
    have := Nat.mul_le_mul_right (2 ^ j) hr0
    rw [Nat.succ_mul, Nat.zero_mul] at this
    omega
  have hj3 : j + 3 < 2 ^ F.e := by
    have : oneExp F + 34 < 2 ^ F.e := by cases h <;> decide
    omega
  have ep : 2 ^ (oneExp F + 31) = 2 ^ (oneExp F + 31 - j) * 2 ^ j := by
    rw [← Nat.pow_add]; congr 1; omega
  have key := fSub_exact F h.lt hx hc.fin (r := r - 2 ^ (oneExp F + 31 - j)) (j := j)
    (Nat.le_trans (Nat.sub_le _ _) (Nat.le_of_lt hr)) hj3 (by
    rw [hc.val, hpos, Nat.sub_mul, ← ep]; omega)
  rw [hc.val] at key
  exact key

/-- The conversion to unsigned numbers by subtraction of 2^31. -/
def f2uLane (F : Fmt) {w : Nat} (c x : BitVec w) : BitVec 32 :=
  if fLe F c x then cvttF2I F (fSub F x c) ^^^ 0x80000000#32 else cvttF2I F x

theorem f2u_spec {F : Fmt} {w : Nat} (h : FmtW F w) {c : BitVec w} (hc : IsTwo31 F c) (x : BitVec w) :
    ConvertsToInt F false x (f2uLane F c x) := by
  intro hx n hn hr
  unfold InRange at hr
  simp only [Bool.false_eq_true, if_false] at hr
  obtain ⟨hr1, hr2⟩ := hr
  have hn' := hn
  have hD := pow_pos2 (oneExp F)
  have e31 : ((2 ^ (oneExp F + 31) : Nat) : Int) = 2147483648 * 2 ^ oneExp F := by
    rw [Nat.pow_add, Nat.mul_comm, Int.natCast_mul, pow_cast]; rfl
  have e32 : ((2 ^ (oneExp F + 32) : Nat) : Int) = 4294967296 * 2 ^ oneExp F := by
    rw [Nat.pow_add, Nat.mul_comm, Int.natCast_mul, pow_cast]; rfl
  have hD' : (0 : Int) < 2 ^ oneExp F := by rw [pow_cast]; omega
  have up : ∀ {k : Int}, n < k → n * 2 ^ oneExp F + 2 ^ oneExp F ≤ k * 2 ^ oneExp F := fun {k} hk => by
    have := Int.mul_le_mul_of_nonneg_right (a := n + 1) (b := k) (c := 2 ^ oneExp F) (by omega) (by omega)
    rwa [Int.add_mul, Int.one_mul] at this
  have lo : ∀ {k : Int}, k ≤ n → k * 2 ^ oneExp F ≤ n * 2 ^ oneExp F := fun {k} hk =>
    Int.mul_le_mul_of_nonneg_right hk (by omega)
  unfold IsTrunc at hn
  rw [Int.add_mul, Int.sub_mul, Int.one_mul] at hn
  unfold f2uLane
  rw [fLe_fin hc.fin hx, hc.val]
  unfold val
  simp only [Bool.false_eq_true, if_false]
  by_cases hge : ((2 ^ (oneExp F + 31) : Nat) : Int) ≤ fval F x
  · rw [if_pos (decide_eq_true hge)]
    have ht := hn.1 (by omega)
    have hup := up hr2
    have hlt : fval F x < ((2 ^ (oneExp F + 32) : Nat) : Int) := by
      rw [e32]; omega
    obtain ⟨ev, ef⟩ := sub31_exact h hc hx hge hlt
    have hn31 : 2147483648 ≤ n := by
      by_cases hh : n < 2147483648
      · have := up hh; omega
      · omega
    have hc2 := cvtt_conv ef (n := n - 2147483648) (by
      have := lo hn31
      unfold IsTrunc
      rw [ev, e31, Int.add_mul, Int.sub_mul, Int.sub_mul, Int.sub_mul, Int.one_mul]
      refine ⟨fun _ => ?_, fun hz => ?_⟩
      · generalize n * 2 ^ oneExp F = P at *
        omega
      · generalize n * 2 ^ oneExp F = P at *
        omega) (by omega) (by omega)
    rw [toNat_xor_sign (by omega), Int.natCast_add, toInt_nonneg_toNat (by omega), hc2]
    omega
  · rw [if_neg (by simpa using hge)]
    have hn31 : n < 2147483648 := by
      by_cases hh : n < 2147483648
      · exact hh
      · have := lo (k := 2147483648) (by omega)
        rcases Int.le_total 0 (fval F x) with hpos | hneg
        · have ht := hn.1 hpos
          omega
        · have ht := hn.2 hneg
          omega
    have hc2 := cvtt_conv hx hn' (by omega) hn31
    rw [toInt_nonneg_toNat (by omega), hc2]

/-- The conversion of double to unsigned numbers by rounding down. -/
def d2uLane (x : BitVec 64) : BitVec 32 :=
  cvttF2I f64 (fSub f64 (fRound f64 .down x) two31d) ^^^ 0x80000000#32

theorem d2u_spec (x : BitVec 64) : ConvertsToInt f64 false x (d2uLane x) := by
  intro hx n hn hr
  unfold InRange at hr
  simp only [Bool.false_eq_true, if_false] at hr
  obtain ⟨hr1, hr2⟩ := hr
  obtain ⟨hf, q, hq, hfl⟩ := fRound_down .double hx
  have hD' : (0 : Int) < 2 ^ oneExp f64 := by decide +kernel
  unfold IsTrunc at hn
  unfold IsFloor at hfl
  rw [Int.add_mul, Int.sub_mul, Int.one_mul] at hn
  rw [Int.add_mul, Int.one_mul] at hfl
  have hqn : q = n ∨ (q = -1 ∧ n = 0) := by
    rcases Int.le_total 0 (fval f64 x) with hp | hp
    · left
      have h1 := hn.1 hp
      rw [Int.mul_comm] at h1 hfl
      exact floor_uniq hD' hfl.1 hfl.2 h1.1 h1.2
    · have h2 := hn.2 hp
      have hn0 : n = 0 := by
        by_cases h0 : n = 0
        · exact h0
        · have := Int.mul_le_mul_of_nonneg_right (a := 1) (b := n) (c := 2 ^ oneExp f64) (by omega) (by omega)
          omega
      subst hn0
      rw [Int.zero_mul] at h2
      by_cases h0 : fval f64 x = 0
      · left
        rw [h0, Int.mul_comm] at hfl
        exact floor_uniq hD' hfl.1 hfl.2 (t := 0) (by omega) (by omega)
      · right
        refine ⟨?_, rfl⟩
        rw [Int.mul_comm] at hfl
        exact floor_uniq hD' hfl.1 hfl.2 (t := fval f64 x) (by omega) (by omega)
  have hv31 : fval f64 two31d = 2147483648 * 2 ^ oneExp f64 := by decide +kernel
  have hsub : fval f64 (fRound f64 .down x) - fval f64 two31d = (q - 2147483648) * 2 ^ oneExp f64 := by
    rw [hq, hv31, Int.sub_mul]
  obtain ⟨ev, ef⟩ := fSub_exact f64 (w := 64) (by decide) hf isTwo31d.fin (r := (q - 2147483648).natAbs) (j := oneExp f64)
    (by have : (2 : Nat) ^ (f64.m + 1) = 9007199254740992 := by decide
        rw [this]; omega) (by decide) (by rw [hsub, natAbs_mul_pow])
  rw [hsub] at ev
  have ec : cvttF2I f64 (fSub f64 (fRound f64 .down x) two31d) = intOrIndefinite (q - 2147483648) := by
    unfold cvttF2I
    rw [if_pos ef, ev, Int.mul_tdiv_cancel _ (by omega)]
  unfold d2uLane val
  rw [ec]
  simp only [Bool.false_eq_true, if_false]
  rcases hqn with rfl | ⟨rfl, rfl⟩
  · have h1 := toInt_intOr (n := q - 2147483648) (by omega) (by omega)
    rw [BitVec.toInt_eq_toNat_cond] at h1
    rw [← add_sign, BitVec.toNat_add]
    have e : (0x80000000#32).toNat = 2147483648 := by decide
    have := (intOrIndefinite (q - 2147483648)).isLt
    rw [e]
    split at h1 <;> omega
  · decide +kernel

/-- The conversion of unsigned numbers to double. -/
def u2dLane (v : BitVec 32) : BitVec 64 := fAdd f64 (cvtI2F f64 64 (v ^^^ 0x80000000#32)) two31d

theorem toInt_xor_sign (v : BitVec 32) : (v ^^^ 0x80000000#32).toInt = (v.toNat : Int) - 2147483648 := by
  rw [← add_sign, BitVec.toInt_eq_toNat_cond, BitVec.toNat_add]
  have e : (0x80000000#32).toNat = 2147483648 := by decide
  have := v.isLt
  rw [e]
  split <;> omega

theorem exactInt_mk {F : Fmt} {w : Nat} {r : BitVec w} {n : Int} (h : fval F r = n * 2 ^ oneExp F)
    (hf : isFinite F r = true) : ExactInt F n r := ⟨hf, h⟩

theorem cvtI2F_double (a : BitVec 32) : ExactInt f64 a.toInt (cvtI2F f64 64 a) := by
  have hb : a.toInt.natAbs ≤ 2147483648 := by
    have h1 := BitVec.le_toInt a
    have h2 := BitVec.toInt_lt (x := a)
    simp only [Nat.reduceSub] at h1 h2
    omega
  have := cvtI2F_exact f64 (w := 64) (by decide) (a := a) (r := a.toInt.natAbs) (j := 0)
    (by have : (2 : Nat) ^ (f64.m + 1) = 9007199254740992 := by decide
        rw [this]; omega) (by decide) (by rw [Nat.pow_zero, Nat.mul_one])
  exact ⟨this.2.1, this.1⟩

theorem u2d_spec (v : BitVec 32) : ExactInt f64 v.toNat (u2dLane v) := by
  obtain ⟨hf, hv⟩ := cvtI2F_double (v ^^^ 0x80000000#32)
  rw [toInt_xor_sign] at hv
  have hv31 : fval f64 two31d = 2147483648 * 2 ^ oneExp f64 := by decide +kernel
  have hsum : fval f64 (cvtI2F f64 64 (v ^^^ 0x80000000#32)) + fval f64 two31d = (v.toNat : Int) * 2 ^ oneExp f64 := by
    rw [hv, hv31, ← Int.add_mul]; congr 1; omega
  have := v.isLt
  obtain ⟨ev, ef⟩ := fAdd_exact f64 (w := 64) (by decide) hf isTwo31d.fin (r := v.toNat) (j := oneExp f64)
    (by have : (2 : Nat) ^ (f64.m + 1) = 9007199254740992 := by decide
        rw [this]; omega) (by decide) (by rw [hsum, natAbs_mul_pow]; rfl)
  rw [hsum] at ev
  exact ⟨ef, ev⟩

theorem cvtI2F_nearest {F : Fmt} {w : Nat} (h : FmtW F w) (a : BitVec 32) : RoundedInt F a.toInt (cvtI2F F w a) :=
  roundInt_nearest h _ _

/-- Numbers of up to 24 bits are exact. -/
theorem cvtI2F_small {F : Fmt} {w : Nat} (h : FmtW F w) (a : BitVec 32) (ha : a.toInt.natAbs ≤ 16777216) :
    ExactInt F a.toInt (cvtI2F F w a) := by
  have := cvtI2F_exact F h.lt (a := a) (r := a.toInt.natAbs) (j := 0)
    (by cases h
        · exact ha
        · have : (2 : Nat) ^ (f64.m + 1) = 9007199254740992 := by decide
          rw [this]; omega) (by cases h <;> decide) (by rw [Nat.pow_zero, Nat.mul_one])
  exact ⟨this.2.1, this.1⟩

/-! ### uint to float -/

/-- The conversion of unsigned numbers to float. -/
def u2fLane (v : BitVec 32) : BitVec 32 :=
  if v.toInt < 0 then
    fAdd f32 (cvtI2F f32 32 (v &&& 0x7ffffe00#32)) (fAdd f32 two31f (cvtI2F f32 32 (v &&& 0x000001ff#32)))
  else cvtI2F f32 32 v

/-- Rounding of the integers from 2^31 to 2^32. -/
theorem roundMag_big {v : Nat} (h1 : 2147483648 ≤ v) (h2 : v < 4294967296) :
    magVal f32 (roundMag f32 (v * 2 ^ oneExp f32) 1) = rne v 256 * 256 * 2 ^ oneExp f32 ∧
    roundMag f32 (v * 2 ^ oneExp f32) 1 < infMag f32 := by
  have hlt : roundMag f32 (v * 2 ^ oneExp f32) 1 < infMag f32 := by
    refine roundMag_lt f32 _ (by decide) (k := oneExp f32 + 9) (by decide) ?_
    have : 1 * 2 ^ (f32.m + (oneExp f32 + 9)) = 4294967296 * 2 ^ oneExp f32 := by decide +kernel
    rw [this]
    exact Nat.mul_le_mul_right _ (Nat.le_of_lt h2)
  refine ⟨?_, hlt⟩
  have hu : ulpExp f32 (v * 2 ^ oneExp f32) 1 = 157 := by
    unfold ulpExp
    rw [Nat.div_one, log2_eq (k := 180)]
    · rfl
    · have : (2 : Nat) ^ 180 = 2147483648 * 2 ^ oneExp f32 := by decide +kernel
      rw [this]; exact Nat.mul_le_mul_right _ h1
    · have : (2 : Nat) ^ (180 + 1) = 4294967296 * 2 ^ oneExp f32 := by decide +kernel
      rw [this]; exact Nat.mul_lt_mul_of_pos_right h2 (pow_pos2 _)
  rw [magVal_roundMag f32 _ (by decide) hlt, hu]
  have e : 1 * 2 ^ 157 = 256 * 2 ^ oneExp f32 := by decide +kernel
  have e' : 2 ^ 157 = 256 * 2 ^ oneExp f32 := by decide +kernel
  rw [e, e']
  have hr : rne (v * 2 ^ oneExp f32) (256 * 2 ^ oneExp f32) = rne v 256 := by
    unfold rne
    have hp := pow_pos2 (oneExp f32)
    rw [Nat.mul_div_mul_right _ _ hp, Nat.mul_mod_mul_right]
    generalize 2 ^ oneExp f32 = D at *
    have i1 : (2 * (v % 256 * D) < 256 * D) ↔ 2 * (v % 256) < 256 := by
      rw [← Nat.mul_assoc]; exact Nat.mul_lt_mul_right hp
    have i2 : (256 * D < 2 * (v % 256 * D)) ↔ 256 < 2 * (v % 256) := by
      rw [← Nat.mul_assoc]; exact Nat.mul_lt_mul_right hp
    simp only [i1, i2]
  rw [hr, Nat.mul_assoc]

theorem roundMag_one (F : Fmt) {M : Nat} (hM : M ≤ infMag F) : roundMag F (magVal F M) 1 = M := by
  have := roundMag_exact F (M := M) (den := 1) (by decide) hM
  rwa [Nat.mul_one] at this

theorem u2f_eq (v : BitVec 32) : u2fLane v = roundInt f32 32 ((v.toNat : Int) * 2 ^ oneExp f32) false := by
  unfold u2fLane
  have hv := v.isLt
  by_cases hneg : v.toInt < 0
  · rw [if_pos hneg]
    rw [BitVec.toInt_eq_toNat_cond] at hneg
    have hge : 2147483648 ≤ v.toNat := by
      split at hneg <;> omega
    have hlo : (v &&& 0x000001ff#32).toNat = v.toNat % 512 := by
      rw [BitVec.toNat_and]
      exact Nat.and_two_pow_sub_one_eq_mod v.toNat 9
    have hhi : (v &&& 0x7ffffe00#32).toNat = v.toNat % 2147483648 / 512 * 512 := by
      have e : v &&& 0x7ffffe00#32 = ((v <<< 1) >>> 10) <<< 9 := by
        apply BitVec.eq_of_getLsbD_eq
        intro k hk
        have : ∀ k : Fin 32, (0x7ffffe00#32).getLsbD k = (decide (9 ≤ k.1) && decide (k.1 < 31)) := by decide
        have hb := this ⟨k, hk⟩
        simp only at hb
        rw [BitVec.getLsbD_and, hb, BitVec.getLsbD_shiftLeft, BitVec.getLsbD_ushiftRight, BitVec.getLsbD_shiftLeft]
        by_cases h9 : 9 ≤ k
        · by_cases h31 : k < 31
          · have e1 : ¬ k < 9 := by omega
            have e2 : 10 + (k - 9) < 32 := by omega
            have e3 : 10 + (k - 9) - 1 = k := by omega
            simp [h9, h31, e1, e2, e3, hk]
          · have e2 : ¬ 10 + (k - 9) < 32 := by omega
            simp [h31, e2]
        · have e1 : k < 9 := by omega
          simp [h9, e1]
      rw [e, BitVec.toNat_shiftLeft, BitVec.toNat_ushiftRight, BitVec.toNat_shiftLeft, Nat.shiftLeft_eq,
        Nat.shiftLeft_eq, Nat.shiftRight_eq_div_pow]
      omega
    have small : ∀ a : BitVec 32, a.toNat < 2147483648 → a.toInt = a.toNat := fun a ha => by
      rw [BitVec.toInt_eq_toNat_cond, if_pos (by omega)]
    have ilo := small _ (by rw [hlo]; omega)
    have ihi := small _ (by rw [hhi]; omega)
    have clo := cvtI2F_exact f32 (w := 32) (by decide) (a := v &&& 0x000001ff#32) (r := v.toNat % 512) (j := 0)
      (by have : (2 : Nat) ^ (f32.m + 1) = 16777216 := by decide
          rw [this]; omega) (by decide) (by rw [ilo, hlo, Int.natAbs_natCast, Nat.pow_zero, Nat.mul_one])
    have chi := cvtI2F_exact f32 (w := 32) (by decide) (a := v &&& 0x7ffffe00#32)
      (r := v.toNat % 2147483648 / 512) (j := 9)
      (by have : (2 : Nat) ^ (f32.m + 1) = 16777216 := by decide
          rw [this]; omega) (by decide) (by rw [ihi, hhi]; rfl)
    rw [ilo, hlo] at clo
    rw [ihi, hhi] at chi
    have hv31 : fval f32 two31f = 2147483648 * 2 ^ oneExp f32 := by decide +kernel
    -- the inner sum
    have hs : fval f32 two31f + fval f32 (cvtI2F f32 32 (v &&& 0x000001ff#32)) =
        ((2147483648 + v.toNat % 512 : Nat) : Int) * 2 ^ oneExp f32 := by
      rw [hv31, clo.1, ← Int.add_mul]; rfl
    obtain ⟨m1, m2⟩ := roundMag_big (v := 2147483648 + v.toNat % 512) (by omega) (by omega)
    have hin : fAdd f32 two31f (cvtI2F f32 32 (v &&& 0x000001ff#32)) =
        mkFloat f32 32 false (roundMag f32 ((2147483648 + v.toNat % 512) * 2 ^ oneExp f32) 1) := by
      rw [fAdd_fin f32 isTwo31f.fin clo.2.1, hs]
      unfold roundInt
      rw [natAbs_mul_pow, Int.natAbs_natCast]
      have hp : (0 : Int) < ((2147483648 + v.toNat % 512 : Nat) : Int) * 2 ^ oneExp f32 :=
        Int.mul_pos (by omega) (by decide +kernel)
      rw [if_neg (by omega), decide_eq_false (by omega)]
    have hinv : fval f32 (fAdd f32 two31f (cvtI2F f32 32 (v &&& 0x000001ff#32))) =
        ((rne (2147483648 + v.toNat % 512) 256 * 256 : Nat) : Int) * 2 ^ oneExp f32 := by
      rw [hin, fval_mk f32 (by decide) _ (Nat.lt_trans m2 (infMag_lt _)), m1]
      simp
    have hinf : isFinite f32 (fAdd f32 two31f (cvtI2F f32 32 (v &&& 0x000001ff#32))) = true := by
      rw [hin]; exact isFinite_mk f32 (by decide) _ m2
    -- the outer sum
    obtain ⟨n1, n2⟩ := roundMag_big hge hv
    have hr : rne v.toNat 256 * 256 = v.toNat % 2147483648 / 512 * 512 + rne (2147483648 + v.toNat % 512) 256 * 256 := by
      have a := rne_add (v.toNat % 512) (v.toNat / 512) (d := 256) (by decide)
      have b := rne_add (v.toNat % 512) (2147483648 / 512) (d := 256) (by decide)
      rw [show v.toNat % 512 + 2 * (v.toNat / 512) * 256 = v.toNat by omega] at a
      rw [show v.toNat % 512 + 2 * (2147483648 / 512) * 256 = 2147483648 + v.toNat % 512 by omega] at b
      rw [a, b]
      omega
    have ho : fval f32 (cvtI2F f32 32 (v &&& 0x7ffffe00#32)) +
        fval f32 (fAdd f32 two31f (cvtI2F f32 32 (v &&& 0x000001ff#32))) =
        ((rne v.toNat 256 * 256 : Nat) : Int) * 2 ^ oneExp f32 := by
      rw [chi.1, hinv, ← Int.add_mul, hr]; simp
    have hrv : 2147483648 ≤ rne v.toNat 256 * 256 := by
      have := rne_ge v.toNat (den := 256) (q := 8388608) (by decide) (by omega)
      omega
    rw [fAdd_fin f32 chi.2.1 hinf, ho]
    unfold roundInt
    have p1 : (0 : Int) < ((rne v.toNat 256 * 256 : Nat) : Int) * 2 ^ oneExp f32 :=
      Int.mul_pos (by omega) (by decide +kernel)
    have p2 : (0 : Int) < (v.toNat : Int) * 2 ^ oneExp f32 := Int.mul_pos (by omega) (by decide +kernel)
    rw [if_neg (by omega), if_neg (by omega), decide_eq_false (by omega), decide_eq_false (by omega), natAbs_mul_pow,
      natAbs_mul_pow, Int.natAbs_natCast, Int.natAbs_natCast]
    refine congrArg (mkFloat f32 32 false) ?_
    rw [← n1]
    exact roundMag_one f32 (Nat.le_of_lt n2)
  · rw [if_neg hneg]
    rw [BitVec.toInt_eq_toNat_cond] at hneg
    have hh : 2 * v.toNat < 2 ^ 32 := by split at hneg <;> omega
    have e : v.toInt = v.toNat := by rw [BitVec.toInt_eq_toNat_cond, if_pos hh]
    unfold cvtI2F
    rw [e]

theorem u2f_spec (v : BitVec 32) : RoundedInt f32 v.toNat (u2fLane v) := by
  rw [u2f_eq]
  exact roundInt_nearest .single _ _

end Vc.Lemma
