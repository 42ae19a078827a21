import Verif.Lemma.FloatRound2

/-!
`floor`, `ceil`, `round` without SSE4.1 and in the scalar implementation.
-/

namespace Vc.Lemma

open Vc.Model Vc.Spec

theorem isNaN_quiet {F : Fmt} {w : Nat} {x : BitVec w} (hx : isNaN F x = true) :
    isNaN F (quiet F x) = true := by
  unfold isNaN at hx ⊢
  have hx := of_decide_eq_true hx
  apply decide_eq_true
  apply Nat.lt_of_lt_of_le hx
  unfold fmag quiet
  rw [BitVec.toNat_or, Nat.or_mod_two_pow]
  exact Nat.left_le_or

theorem isNaN_fAdd_left {F : Fmt} {w : Nat} {x : BitVec w} (hx : isNaN F x = true) (y : BitVec w) :
    isNaN F (fAdd F x y) = true := by
  unfold fAdd; rw [if_pos hx]; exact isNaN_quiet hx

theorem isNaN_fSub_left {F : Fmt} {w : Nat} {x : BitVec w} (hx : isNaN F x = true) (y : BitVec w) :
    isNaN F (fSub F x y) = true := by
  unfold fSub; rw [if_pos hx]; exact isNaN_quiet hx

theorem fEq_fin {F : Fmt} {w : Nat} {x y : BitVec w} (hx : isFinite F x = true) (hy : isFinite F y = true) :
    fEq F x y = decide (fval F x = fval F y) := by
  unfold fEq; rw [(isFinite_not hx).1, (isFinite_not hy).1]; simp

theorem fLt_fin {F : Fmt} {w : Nat} {x y : BitVec w} (hx : isFinite F x = true) (hy : isFinite F y = true) :
    fLt F x y = decide (fval F x < fval F y) := by
  unfold fLt; rw [(isFinite_not hx).1, (isFinite_not hy).1]; simp

theorem isFinite_zero (F : Fmt) (he : 0 < F.e) (w : Nat) : isFinite F (0#w) = true := by
  unfold isFinite fmag infMag
  apply decide_eq_true
  rw [BitVec.toNat_zero, Nat.zero_mod]
  have h1 : 2 ^ 1 ≤ 2 ^ F.e := Nat.pow_le_pow_right (by decide) he
  exact Nat.mul_pos (by omega) (pow_pos2 _)

theorem fval_zero (F : Fmt) (w : Nat) : fval F (0#w) = 0 := by
  apply fval_zero_of_mag; unfold fmag; simp

/-- The correction of `floor`. -/
def floorLane (F : Fmt) {w : Nat} (one x y : BitVec w) : BitVec w :=
  if !fEq F y x && fLt F x 0#w then fSub F y one else y

/-- The correction of `ceil`. -/
def ceilLane (F : Fmt) {w : Nat} (one x y : BitVec w) : BitVec w :=
  if !(fEq F y x || fLt F x 0#w) then fAdd F y one else y

theorem natAbs_mul_pow (n : Int) (k : Nat) : (n * 2 ^ k).natAbs = n.natAbs * 2 ^ k := by
  rw [Int.natAbs_mul, Int.natAbs_pow]; rfl

theorem mul_pow_inj {a b : Int} {k : Nat} (h : a * 2 ^ k = b * 2 ^ k) : a = b :=
  Int.eq_of_mul_eq_mul_right (Int.ne_of_gt (Int.pow_pos (by decide))) h

theorem floorLane_spec {F : Fmt} {w : Nat} (h : FmtW F w) {one x y : BitVec w} (hx : isFinite F x = true)
    (ho : isFinite F one = true) (hov : fval F one = 2 ^ oneExp F) (hy : isFinite F y = true)
    (hyv : fval F y = signed (fneg F x) (magVal F (fmag F x) / 2 ^ oneExp F) * 2 ^ oneExp F) :
    isFinite F (floorLane F one x y) = true ∧
      ∃ n, fval F (floorLane F one x y) = n * 2 ^ oneExp F ∧ IsFloor (fval F x) (2 ^ oneExp F) n := by
  have hd := pow_pos2 (oneExp F)
  have hfl := floorDiv_spec (magVal F (fmag F x)) hd
  have he : 0 < F.e := by cases h <;> decide
  have hp : ((2 : Int) ^ oneExp F) = ((2 ^ oneExp F : Nat) : Int) := (Int.natCast_pow 2 _).symm
  unfold floorLane
  rw [fEq_fin hy hx, fLt_fin hx (isFinite_zero F he w), fval_zero, hyv, fval_signed F x]
  generalize hV : magVal F (fmag F x) = V at *
  generalize hD : 2 ^ oneExp F = D at *
  by_cases heq : V / D * D = V
  · have : signed (fneg F x) (V / D) * 2 ^ oneExp F = signed (fneg F x) V := by
      rw [hp, ← signed_mul, heq]
    rw [decide_eq_true this, Bool.not_true, Bool.false_and, if_neg (by decide)]
    refine ⟨hy, _, hyv, ?_⟩
    unfold IsFloor
    rw [Int.add_mul, Int.one_mul, this, hp]
    omega
  · have hne : ¬ signed (fneg F x) (V / D) * 2 ^ oneExp F = signed (fneg F x) V := by
      rw [hp, ← signed_mul]
      unfold signed
      cases fneg F x <;> simp only [Bool.false_eq_true, if_false, if_true] <;> omega
    rw [decide_eq_false hne, Bool.not_false, Bool.true_and]
    have hsm : V / D < 2 ^ F.m := by
      rcases int_or_small h (fmag F x) with ⟨_, hs⟩ | ⟨_, q, hq⟩
      · apply Nat.div_lt_of_lt_mul
        rw [Nat.mul_comm, ← hD, ← hV]; exact hs
      · rw [hV, hD] at hq
        rw [hq, Nat.mul_div_cancel _ hd] at heq
        exact absurd rfl heq
    cases hn : fneg F x with
    | false =>
      rw [if_neg (by simp [signed])]
      refine ⟨hy, V / D, ?_, ?_⟩
      · rw [hyv, hn]; rfl
      · unfold IsFloor signed
        simp only [Bool.false_eq_true, if_false]
        rw [Int.add_mul, Int.one_mul, hp]
        have e : ((V / D : Nat) : Int) * (D : Int) = ((V / D * D : Nat) : Int) := (Int.natCast_mul _ _).symm
        rw [show ((V : Int) / (D : Int)) = ((V / D : Nat) : Int) from rfl, e]
        omega
    | true =>
      rw [if_pos (by
        unfold signed; simp only [if_true]; apply decide_eq_true
        have : 0 < V := by
          rcases Nat.eq_zero_or_pos V with h0 | h0
          · rw [h0, Nat.zero_div, Nat.zero_mul] at heq; exact absurd rfl heq
          · exact h0
        omega)]
      rw [hn] at hyv
      have hval : fval F y - fval F one = (-((V / D + 1 : Nat) : Int)) * 2 ^ oneExp F := by
        rw [hyv, hov]; unfold signed; simp only [if_true]
        rw [Int.natCast_add, Int.neg_add, Int.add_mul, Int.neg_mul ((1 : Nat) : Int)]
        simp only [Int.natCast_one, Int.one_mul]; rfl
      have := fSub_exact F h.lt hy ho (r := V / D + 1) (j := oneExp F)
        (Nat.le_trans hsm (Nat.pow_le_pow_right (by decide) (by omega))) (by cases h <;> decide)
        (by rw [hval, natAbs_mul_pow, Int.natAbs_neg, Int.natAbs_natCast])
      refine ⟨this.2, _, this.1.trans hval, ?_⟩
      unfold IsFloor signed
      simp only [if_true]
      rw [Int.natCast_add, Int.neg_add, Int.natCast_one, Int.add_assoc, show (-1 + 1 : Int) = 0 from rfl, Int.add_zero,
        Int.add_mul, hp, Int.neg_mul, Int.neg_mul, Int.one_mul]
      have e : ((V / D : Nat) : Int) * (D : Int) = ((V / D * D : Nat) : Int) := (Int.natCast_mul _ _).symm
      rw [e]
      omega

theorem ceilLane_spec {F : Fmt} {w : Nat} (h : FmtW F w) {one x y : BitVec w} (hx : isFinite F x = true)
    (ho : isFinite F one = true) (hov : fval F one = 2 ^ oneExp F) (hy : isFinite F y = true)
    (hyv : fval F y = signed (fneg F x) (magVal F (fmag F x) / 2 ^ oneExp F) * 2 ^ oneExp F) :
    isFinite F (ceilLane F one x y) = true ∧
      ∃ n, fval F (ceilLane F one x y) = n * 2 ^ oneExp F ∧ IsCeil (fval F x) (2 ^ oneExp F) n := by
  have hd := pow_pos2 (oneExp F)
  have hfl := floorDiv_spec (magVal F (fmag F x)) hd
  have he : 0 < F.e := by cases h <;> decide
  have hp : ((2 : Int) ^ oneExp F) = ((2 ^ oneExp F : Nat) : Int) := (Int.natCast_pow 2 _).symm
  unfold ceilLane
  rw [fEq_fin hy hx, fLt_fin hx (isFinite_zero F he w), fval_zero, hyv, fval_signed F x]
  generalize hV : magVal F (fmag F x) = V at *
  generalize hD : 2 ^ oneExp F = D at *
  by_cases heq : V / D * D = V
  · have : signed (fneg F x) (V / D) * 2 ^ oneExp F = signed (fneg F x) V := by
      rw [hp, ← signed_mul, heq]
    rw [decide_eq_true this, Bool.true_or, Bool.not_true, if_neg (by decide)]
    refine ⟨hy, _, hyv, ?_⟩
    unfold IsCeil
    rw [Int.sub_mul, Int.one_mul, this, hp]
    omega
  · have hne : ¬ signed (fneg F x) (V / D) * 2 ^ oneExp F = signed (fneg F x) V := by
      rw [hp, ← signed_mul]
      unfold signed
      cases fneg F x <;> simp only [Bool.false_eq_true, if_false, if_true] <;> omega
    rw [decide_eq_false hne, Bool.false_or]
    have hsm : V / D < 2 ^ F.m := by
      rcases int_or_small h (fmag F x) with ⟨_, hs⟩ | ⟨_, q, hq⟩
      · apply Nat.div_lt_of_lt_mul
        rw [Nat.mul_comm, ← hD, ← hV]; exact hs
      · rw [hV, hD] at hq
        rw [hq, Nat.mul_div_cancel _ hd] at heq
        exact absurd rfl heq
    cases hn : fneg F x with
    | true =>
      have hpos : 0 < V := by
        rcases Nat.eq_zero_or_pos V with h0 | h0
        · rw [h0, Nat.zero_div, Nat.zero_mul] at heq; exact absurd rfl heq
        · exact h0
      rw [if_neg (by
        unfold signed; simp only [if_true]; rw [decide_eq_true (by omega)]; decide)]
      refine ⟨hy, signed true (V / D), ?_, ?_⟩
      · rw [hyv, hn]
      · unfold IsCeil signed
        simp only [if_true]
        rw [Int.sub_mul, Int.one_mul, hp, Int.neg_mul]
        have e : ((V / D : Nat) : Int) * (D : Int) = ((V / D * D : Nat) : Int) := (Int.natCast_mul _ _).symm
        rw [e]
        omega
    | false =>
      rw [if_pos (by simp [signed])]
      rw [hn] at hyv
      have hval : fval F y + fval F one = ((V / D + 1 : Nat) : Int) * 2 ^ oneExp F := by
        rw [hyv, hov]; unfold signed; simp only [Bool.false_eq_true, if_false]
        rw [Int.natCast_add, Int.add_mul]
        simp only [Int.natCast_one, Int.one_mul]
      have := fAdd_exact F h.lt hy ho (r := V / D + 1) (j := oneExp F)
        (Nat.le_trans hsm (Nat.pow_le_pow_right (by decide) (by omega))) (by cases h <;> decide)
        (by rw [hval, natAbs_mul_pow, Int.natAbs_natCast])
      refine ⟨this.2, _, this.1.trans hval, ?_⟩
      unfold IsCeil signed
      simp only [Bool.false_eq_true, if_false]
      rw [Int.natCast_add, Int.natCast_one, Int.add_sub_cancel, Int.add_mul, hp, Int.one_mul]
      have e : ((V / D : Nat) : Int) * (D : Int) = ((V / D * D : Nat) : Int) := (Int.natCast_mul _ _).symm
      rw [e]
      omega

/-- The correction lanes in the registers. -/
theorem lane_floorEmul (I : Isa) {F : Fmt} {w : Nat} (h : FmtW F w) (one : BitVec w) (tr : M128 → M128) (x : M128) {i : Nat}
    (hi : w * (i + 1) ≤ 128) :
    lane w (floorEmul I F w one tr x) i = floorLane F one (lane w x i) (lane w (tr x) i) := by
  unfold floorEmul maskedOp floorLane vFEq vFLt
  simp only
  have hm : lane w (vnot (map2 w (fun a b => laneMask (fEq F a b)) (tr x) x) &&&
      map2 w (fun a b => laneMask (fLt F a b)) x 0#128) i =
      laneMask (!fEq F (lane w (tr x) i) (lane w x i) && fLt F (lane w x i) 0#w) := by
    rw [lane_and, lane_vnot hi, lane_map2 _ _ _ hi, lane_map2 _ _ _ hi, not_laneMask, laneMask_and, lane_zero]
  have hw : w = 8 * (w / 8) := by cases h <;> rfl
  have hw0 : 0 < w := by cases h <;> decide
  rw [lane_blendv I (v := w) (c := 1) (by omega) hw0 hi _ _ _ hm, lane_map2 _ _ _ hi, lane_set1 _ hi]

theorem lane_ceilEmul (I : Isa) {F : Fmt} {w : Nat} (h : FmtW F w) (one : BitVec w) (tr : M128 → M128) (x : M128) {i : Nat}
    (hi : w * (i + 1) ≤ 128) :
    lane w (ceilEmul I F w one tr x) i = ceilLane F one (lane w x i) (lane w (tr x) i) := by
  unfold ceilEmul maskedOp ceilLane vFEq vFLt
  simp only
  have hm : lane w (vnot (map2 w (fun a b => laneMask (fEq F a b)) (tr x) x |||
      map2 w (fun a b => laneMask (fLt F a b)) x 0#128)) i =
      laneMask (!(fEq F (lane w (tr x) i) (lane w x i) || fLt F (lane w x i) 0#w)) := by
    rw [lane_vnot hi, lane_or, lane_map2 _ _ _ hi, lane_map2 _ _ _ hi, laneMask_or, not_laneMask, lane_zero]
  have hw0 : 0 < w := by cases h <;> decide
  rw [lane_blendv I (v := w) (c := 1) (by omega) hw0 hi _ _ _ hm, lane_map2 _ _ _ hi, lane_set1 _ hi]

/-- A finite number as mantissa and exponent. -/
theorem magVal_split (F : Fmt) (k : Nat) : ∃ r j, magVal F k = r * 2 ^ j ∧ r < 2 ^ (F.m + 1) ∧ (j = 0 ∨ 2 ^ F.m ≤ r) := by
  have hp := pow_pos2 F.m
  have hd := Nat.mod_lt k hp
  unfold magVal
  by_cases h : k / 2 ^ F.m = 0
  · rw [if_pos h]
    refine ⟨k, 0, by simp, ?_, .inl rfl⟩
    rw [two_pow_succ]
    have := Nat.div_add_mod k (2 ^ F.m)
    rw [h] at this
    omega
  · rw [if_neg h]
    refine ⟨_, _, rfl, ?_, .inr (Nat.le_add_right _ _)⟩
    rw [two_pow_succ]; omega

/-- Conversion to int with rounding, in range. -/
theorem cvt_small {F : Fmt} {w : Nat} {x : BitVec w} (hx : isFinite F x = true)
    (h : rne (magVal F (fmag F x)) (2 ^ oneExp F) < 2147483648) :
    (cvtF2I F x).toInt = signed (fneg F x) (rne (magVal F (fmag F x)) (2 ^ oneExp F)) := by
  unfold cvtF2I
  rw [if_pos hx, fval_signed, natAbs_signed]
  have hz : magVal F (fmag F x) = 0 → rne (magVal F (fmag F x)) (2 ^ oneExp F) = 0 := by
    intro h0; rw [h0]; have := rne_exact 0 (pow_pos2 (oneExp F)); rwa [Nat.zero_mul] at this
  generalize magVal F (fmag F x) = V at *
  generalize rne V (2 ^ oneExp F) = q at *
  have e : (if signed (fneg F x) V < 0 then (-1 : Int) else 1) * (q : Int) = signed (fneg F x) q := by
    unfold signed
    cases fneg F x
    · simp only [Bool.false_eq_true, if_false]; rw [if_neg (by omega)]; omega
    · simp only [if_true]
      by_cases h0 : V = 0
      · rw [hz h0, h0]; simp
      · rw [if_pos (by omega)]; omega
  rw [e]
  apply toInt_intOr <;> unfold signed <;> cases fneg F x <;> simp <;> omega

/-- An integer that is a rounded number converts back exactly. -/
theorem rne_int (F : Fmt) (k : Nat) (hq : rne (magVal F k) (2 ^ oneExp F) < 2147483648) :
    ∃ r j, rne (magVal F k) (2 ^ oneExp F) = r * 2 ^ j ∧ r ≤ 2 ^ (F.m + 1) ∧ j ≤ 31 := by
  have hd := pow_pos2 (oneExp F)
  by_cases hs : magVal F k ≤ 2 ^ (F.m + 1) * 2 ^ oneExp F
  · exact ⟨_, 0, by rw [Nat.pow_zero, Nat.mul_one], rne_le _ hd hs, by decide⟩
  · obtain ⟨r, j, e, hr, hj⟩ := magVal_split F k
    have hjo : oneExp F ≤ j := by
      rcases Nat.lt_or_ge j (oneExp F) with hl | hl
      · have h1 : 2 ^ j ≤ 2 ^ oneExp F := Nat.pow_le_pow_right (by decide) (Nat.le_of_lt hl)
        have := Nat.mul_le_mul (Nat.le_of_lt hr) h1
        rw [e] at hs; exact absurd this hs
      · exact hl
    have e2 : magVal F k = r * 2 ^ (j - oneExp F) * 2 ^ oneExp F := by
      rw [e, Nat.mul_assoc, ← Nat.pow_add, Nat.sub_add_cancel hjo]
    rw [e2, rne_exact _ hd] at hq ⊢
    refine ⟨r, j - oneExp F, rfl, Nat.le_of_lt hr, ?_⟩
    have hr1 : 1 ≤ r := by
      rcases Nat.eq_zero_or_pos r with h0 | h0
      · rw [e, h0, Nat.zero_mul] at hs; exact absurd (Nat.zero_le _) hs
      · exact h0
    rcases Nat.lt_or_ge 31 (j - oneExp F) with hl | hl
    · have h1 : 2 ^ 32 ≤ 2 ^ (j - oneExp F) := Nat.pow_le_pow_right (by decide) hl
      have := Nat.mul_le_mul hr1 h1
      omega
    · exact hl

/-- Conversion to int and back. -/
theorem round_int_spec {F : Fmt} {w : Nat} (h : FmtW F w) {x : BitVec w} (hx : isFinite F x = true)
    (hq : rne (magVal F (fmag F x)) (2 ^ oneExp F) < 2147483648) :
    isFinite F (cvtI2F F w (cvtF2I F x)) = true ∧
      fval F (cvtI2F F w (cvtF2I F x)) = signed (fneg F x) (rne (magVal F (fmag F x)) (2 ^ oneExp F)) * 2 ^ oneExp F := by
  obtain ⟨r, j, e, hr, hj⟩ := rne_int F (fmag F x) hq
  have ht := cvt_small hx hq
  have hb : j + oneExp F + 3 < 2 ^ F.e := by
    cases h
    · show j + 149 + 3 < 256; omega
    · show j + 1074 + 3 < 2048; omega
  have := cvtI2F_exact F (w := w) h.lt (a := cvtF2I F x) hr hb (by rw [ht, natAbs_signed, e])
  rw [ht] at this
  exact ⟨this.2.1, this.1⟩

/-- Exact multiplication. -/
theorem fMul_exact (F : Fmt) {w : Nat} (hw : F.e + F.m < w) {a b : BitVec w} (ha : isFinite F a = true)
    (hb : isFinite F b = true) {r j : Nat} (hr : r ≤ 2 ^ (F.m + 1)) (hj : j + 3 < 2 ^ F.e)
    (hn : (fval F a).natAbs * (fval F b).natAbs = r * 2 ^ j * 2 ^ oneExp F) :
    fval F (fMul F a b) * 2 ^ oneExp F = fval F a * fval F b ∧ isFinite F (fMul F a b) = true := by
  obtain ⟨a1, a2⟩ := isFinite_not ha
  obtain ⟨b1, b2⟩ := isFinite_not hb
  obtain ⟨M, e, hM⟩ := representable F j r hr
  have hi := inf_bound F hj hM
  have hm := roundMag_exact F (M := M) (den := 2 ^ oneExp F) (pow_pos2 _) (Nat.le_of_lt hi)
  rw [e, ← hn] at hm
  have hlt := Nat.lt_trans hi (infMag_lt F)
  unfold fMul
  rw [a1, b1, a2, b2, hm]
  simp only [Bool.false_eq_true, if_false, Bool.or_self]
  refine ⟨?_, isFinite_mk F hw _ hi⟩
  rw [fval_mk F hw _ hlt, e]
  rw [fval_signed F a, fval_signed F b, natAbs_signed, natAbs_signed] at hn
  rw [fval_signed F a, fval_signed F b]
  have e3 : ((magVal F (fmag F a) : Int)) * (magVal F (fmag F b)) = ((r * 2 ^ j : Nat) : Int) * 2 ^ oneExp F := by
    rw [← Int.natCast_mul, hn, Int.natCast_mul, Int.natCast_pow 2 (oneExp F)]; rfl
  unfold signed
  cases fneg F a <;> cases fneg F b <;>
    simp only [Bool.false_eq_true, if_false, if_true, bne_self_eq_false, Bool.bne_true, 
      Bool.not_false, Bool.bne_false, Int.neg_mul, Int.mul_neg, Int.neg_neg] <;> rw [e3]

theorem floor_uniq {D a b t : Int} (hD : 0 < D) (h1 : D * a ≤ t) (h2 : t < D * a + D) (h3 : D * b ≤ t)
    (h4 : t < D * b + D) : a = b := by
  have e1 : t / D = a := by
    apply Int.le_antisymm
    · exact Int.lt_add_one_iff.mp (Int.ediv_lt_of_lt_mul hD (by rw [Int.add_mul, Int.one_mul, Int.mul_comm a]; exact h2))
    · exact Int.le_ediv_of_mul_le hD (by rw [Int.mul_comm]; exact h1)
  have e2 : t / D = b := by
    apply Int.le_antisymm
    · exact Int.lt_add_one_iff.mp (Int.ediv_lt_of_lt_mul hD (by rw [Int.add_mul, Int.one_mul, Int.mul_comm b]; exact h4))
    · exact Int.le_ediv_of_mul_le hD (by rw [Int.mul_comm]; exact h3)
  exact e1.symm.trans e2

/-- `floor` by the instruction. -/
theorem fRound_down {F : Fmt} {w : Nat} (h : FmtW F w) {x : BitVec w} (hx : isFinite F x = true) :
    isFinite F (fRound F .down x) = true ∧
      ∃ n, fval F (fRound F .down x) = n * 2 ^ oneExp F ∧ IsFloor (fval F x) (2 ^ oneExp F) n := by
  obtain ⟨f1, _, f3⟩ := fRound_finite h .down hx
  refine ⟨f1, _, f3, ?_⟩
  rw [fval_signed]
  have := isFloor_roundQ (fneg F x) (magVal F (fmag F x)) (pow_pos2 (oneExp F))
  rw [Int.natCast_pow] at this
  exact this

end Vc.Lemma
