import Verif.Lemma.ExpF

/-!
The numbers computed by `exp` of double: the argument reduction and the rational function.
-/

namespace Vc.Lemma
open Vc.Model Vc.Spec

namespace Apx
variable {F : Fmt} {w : Nat} {s t : BitVec w} {p q b c d P Q R : ℝ}

theorem mulB (hs : Apx F s p b P) (ht : Apx F t q c Q) (h : FmtW F w) (k : Int) (hk : KRange F k)
    (hR : P * Q ≤ R) (h1 : (P + b) * (Q + c) ≤ 2 ^ k) (h2 : b * Q + P * c + b * c + 2 ^ (k - F.m - 2) ≤ d) :
    Apx F (fMul F s t) (p * q) d R := by
  refine hs.mul ht h k hk ?_ h1 h2
  rw [abs_mul]
  exact le_trans (mul_le_mul hs.bnd ht.bnd (abs_nonneg _) (le_trans (abs_nonneg _) hs.bnd)) hR

theorem addB (hs : Apx F s p b P) (ht : Apx F t q c Q) (h : FmtW F w) (k : Int) (hk : KRange F k)
    (hR : P + Q ≤ R) (h1 : R + b + c ≤ 2 ^ k) (h2 : b + c + 2 ^ (k - F.m - 2) ≤ d) :
    Apx F (fAdd F s t) (p + q) d R :=
  hs.add ht h k hk (le_trans (abs_add_le _ _) (le_trans (add_le_add hs.bnd ht.bnd) hR)) h1 h2

theorem subB (hs : Apx F s p b P) (ht : Apx F t q c Q) (h : FmtW F w) (k : Int) (hk : KRange F k)
    (hR : P + Q ≤ R) (h1 : R + b + c ≤ 2 ^ k) (h2 : b + c + 2 ^ (k - F.m - 2) ≤ d) :
    Apx F (fSub F s t) (p - q) d R :=
  hs.sub ht h k hk (le_trans (abs_sub _ _) (le_trans (add_le_add hs.bnd ht.bnd) hR)) h1 h2

end Apx

/-- The polynomial with the given coefficients (the constant one first). -/
noncomputable def polyL : List ℝ → ℝ → ℝ
  | [], _ => 0
  | c :: cs, r => c + r * polyL cs r

/-- The sum of the absolute values of the terms. -/
noncomputable def polyB : List ℝ → ℝ → ℝ
  | [], _ => 0
  | c :: cs, r => |c| + r * polyB cs r

theorem polyL_bound {r ρ : ℝ} (h : |r| ≤ ρ) (cs : List ℝ) : |polyL cs r| ≤ polyB cs ρ := by
  induction cs with
  | nil => simp [polyL, polyB]
  | cons c cs ih =>
    unfold polyL polyB
    refine le_trans (abs_add_le _ _) (add_le_add (le_refl _) ?_)
    rw [abs_mul]
    exact mul_le_mul h ih (abs_nonneg _) (le_trans (abs_nonneg _) h)

theorem expD_p0 : isFinite f64 0x3f2089cdd5e44be8#64 = true ∧ rval f64 0x3f2089cdd5e44be8#64 = 581889597147517 / 4611686018427387904 := by
  refine ⟨by decide, rval_lit false 1010 151517149809640 (-65) (by decide) (by decide) (by decide) (by decide) (by decide) ?_⟩
  norm_num [f64]

theorem expD_p1 : isFinite f64 0x3f9f06d10cca2c7e#64 = true ∧ rval f64 0x3f9f06d10cca2c7e#64 = 4366609605269055 / 144115188075855872 := by
  refine ⟨by decide, rval_lit false 1017 4229619583167614 (-58) (by decide) (by decide) (by decide) (by decide) (by decide) ?_⟩
  norm_num [f64]

theorem expD_one : isFinite f64 0x3ff0000000000000#64 = true ∧ rval f64 0x3ff0000000000000#64 = 1 := by
  refine ⟨by decide, rval_lit false 1023 0 (-52) (by decide) (by decide) (by decide) (by decide) (by decide) ?_⟩
  norm_num [f64]

theorem expD_q0 : isFinite f64 0x3ec92eb6bc365fa0#64 = true ∧ rval f64 0x3ec92eb6bc365fa0#64 = 221507399824125 / 73786976294838206464 := by
  refine ⟨by decide, rval_lit false 1004 2584637167001504 (-71) (by decide) (by decide) (by decide) (by decide) (by decide) ?_⟩
  norm_num [f64]

theorem expD_q1 : isFinite f64 0x3f64ae39b508b6c0#64 = true ∧ rval f64 0x3f64ae39b508b6c0#64 = 90954100122331 / 36028797018963968 := by
  refine ⟨by decide, rval_lit false 1014 1317462780458688 (-61) (by decide) (by decide) (by decide) (by decide) (by decide) ?_⟩
  norm_num [f64]

theorem expD_q2 : isFinite f64 0x3fcd17099887e074#64 = true ∧ rval f64 0x3fcd17099887e074#64 = 2047026076448797 / 9007199254740992 := by
  refine ⟨by decide, rval_lit false 1020 3684504678424692 (-55) (by decide) (by decide) (by decide) (by decide) (by decide) ?_⟩
  norm_num [f64]

theorem expD_two : isFinite f64 0x4000000000000000#64 = true ∧ rval f64 0x4000000000000000#64 = 2 := by
  refine ⟨by decide, rval_lit false 1024 0 (-51) (by decide) (by decide) (by decide) (by decide) (by decide) ?_⟩
  norm_num [f64]

theorem expD_log2e : isFinite f64 0x3ff71547652b82fe#64 = true ∧ rval f64 0x3ff71547652b82fe#64 = 3248660424278399 / 2251799813685248 := by
  refine ⟨by decide, rval_lit false 1023 1993721221186302 (-52) (by decide) (by decide) (by decide) (by decide) (by decide) ?_⟩
  norm_num [f64]

theorem expD_half : isFinite f64 0x3fe0000000000000#64 = true ∧ rval f64 0x3fe0000000000000#64 = 1 / 2 := by
  refine ⟨by decide, rval_lit false 1022 0 (-53) (by decide) (by decide) (by decide) (by decide) (by decide) ?_⟩
  norm_num [f64]

theorem expD_large : isFinite f64 0x3fe6300000000000#64 = true ∧ rval f64 0x3fe6300000000000#64 = 355 / 512 := by
  refine ⟨by decide, rval_lit false 1022 1741626418397184 (-53) (by decide) (by decide) (by decide) (by decide) (by decide) ?_⟩
  norm_num [f64]

theorem expD_small : isFinite f64 0xbf2bd0105c610ca8#64 = true ∧ rval f64 0xbf2bd0105c610ca8#64 = -(978574132388245 / 4611686018427387904) := by
  refine ⟨by decide, rval_lit true 1010 3324993431735464 (-65) (by decide) (by decide) (by decide) (by decide) (by decide) ?_⟩
  norm_num [f64]

theorem expD_maxlog : isFinite f64 0x4086232bdd7abcd2#64 = true ∧ rval f64 0x4086232bdd7abcd2#64 = 3115560397004393 / 4398046511104 := by
  refine ⟨by decide, rval_lit false 1032 1727521166638290 (-43) (by decide) (by decide) (by decide) (by decide) (by decide) ?_⟩
  norm_num [f64]

theorem expD_minlog : isFinite f64 0xc086232bdd7abcd2#64 = true ∧ rval f64 0xc086232bdd7abcd2#64 = -(3115560397004393 / 4398046511104) := by
  refine ⟨by decide, rval_lit true 1032 1727521166638290 (-43) (by decide) (by decide) (by decide) (by decide) (by decide) ?_⟩
  norm_num [f64]

theorem expD_maxlog2 : isFinite f64 0x4086232bdd7abcd3#64 = true ∧ rval f64 0x4086232bdd7abcd3#64 = 6231120794008787 / 8796093022208 := by
  refine ⟨by decide, rval_lit false 1032 1727521166638291 (-43) (by decide) (by decide) (by decide) (by decide) (by decide) ?_⟩
  norm_num [f64]

theorem expD_minlog2 : isFinite f64 0xc086232bdd7abcd3#64 = true ∧ rval f64 0xc086232bdd7abcd3#64 = -(6231120794008787 / 8796093022208) := by
  refine ⟨by decide, rval_lit true 1032 1727521166638291 (-43) (by decide) (by decide) (by decide) (by decide) (by decide) ?_⟩
  norm_num [f64]

/-- The rational function of one lane. -/
def expRatL (x : BitVec 64) : BitVec 64 :=
  let x2 := fMul f64 x x
  let p := fAdd f64 (fMul f64 (fAdd f64 (fMul f64 0x3f2089cdd5e44be8#64 x2) 0x3f9f06d10cca2c7e#64) x2) 0x3ff0000000000000#64
  let px := fMul f64 x p
  let q := fAdd f64 (fMul f64 0x3ec92eb6bc365fa0#64 x2) 0x3f64ae39b508b6c0#64
  let q := fAdd f64 (fMul f64 q x2) 0x3fcd17099887e074#64
  let q := fAdd f64 (fMul f64 q x2) 0x4000000000000000#64
  fAdd f64 0x3ff0000000000000#64 (fMul f64 0x4000000000000000#64 (fDiv f64 px (fSub f64 q px)))

/-- The polynomials of real numbers. -/
noncomputable def expPR (s : ℝ) : ℝ := (581889597147517 / 4611686018427387904 * s + 4366609605269055 / 144115188075855872) * s + 1
noncomputable def expQR (s : ℝ) : ℝ :=
  ((221507399824125 / 73786976294838206464 * s + 90954100122331 / 36028797018963968) * s + 2047026076448797 / 9007199254740992) * s + 2
noncomputable def expRatR (r : ℝ) : ℝ := 1 + 2 * (r * expPR (r * r) / (expQR (r * r) - r * expPR (r * r)))

theorem expPQ_bound {r : ℝ} (h : |r| ≤ 0.34658) :
    |r * expPR (r * r)| ≤ 0.34786 ∧ 2 ≤ expQR (r * r) ∧ expQR (r * r) ≤ 2.0274 := by
  have hs : r * r ≤ 0.12012 := by
    have := abs_le.mp h
    norm_num at *
    nlinarith
  have h0 : 0 ≤ r * r := mul_self_nonneg r
  generalize r * r = s at *
  refine ⟨?_, ?_, ?_⟩
  · have : |expPR s| ≤ 1.00366 := by
      have e : expPR s = polyL [1, 4366609605269055 / 144115188075855872, 581889597147517 / 4611686018427387904] s := by
        unfold expPR; simp only [polyL]; ring
      rw [e]
      refine le_trans (polyL_bound (abs_le.mpr ⟨by norm_num at *; linarith, hs⟩) _) ?_
      norm_num [polyB, abs_of_pos]
    rw [abs_mul]
    exact le_trans (mul_le_mul h this (abs_nonneg _) (by norm_num)) (by norm_num)
  · unfold expQR
    have : (0 : ℝ) ≤ ((221507399824125 / 73786976294838206464 * s + 90954100122331 / 36028797018963968) * s + 2047026076448797 / 9007199254740992) * s := by positivity
    linarith
  · have e : expQR s = polyL [2, 2047026076448797 / 9007199254740992, 90954100122331 / 36028797018963968, 221507399824125 / 73786976294838206464] s := by
      unfold expQR; simp only [polyL]; ring
    rw [e]
    refine le_trans (le_abs_self _) (le_trans (polyL_bound (abs_le.mpr ⟨by norm_num at *; linarith, hs⟩) _) ?_)
    norm_num [polyB, abs_of_pos]

theorem expDen_bound {r : ℝ} (h : |r| ≤ 0.34658) :
    |expQR (r * r) - r * expPR (r * r)| ≤ 2.3753 ∧ 1.65214 ≤ |expQR (r * r) - r * expPR (r * r)| ∧
    |r * expPR (r * r) / (expQR (r * r) - r * expPR (r * r))| ≤ 0.21056 := by
  obtain ⟨b1, b2, b3⟩ := expPQ_bound h
  generalize expQR (r * r) = Q at *
  generalize r * expPR (r * r) = p at *
  obtain ⟨b4, b5⟩ := abs_le.mp b1
  have hpos : 0 < Q - p := by norm_num at b5; linarith
  rw [abs_div, abs_of_pos hpos, div_le_iff₀ hpos]
  norm_num at b1 b2 b3 b4 b5 ⊢
  refine ⟨?_, ?_, ?_⟩ <;> linarith

theorem expRatL_apx {x : BitVec 64} (hx : isFinite f64 x = true) (hr : |rval f64 x| ≤ 0.34658) :
    isFinite f64 (expRatL x) = true ∧ |rval f64 (expRatL x) - expRatR (rval f64 x)| ≤ 0.00000000000000039 := by
  have hw := FmtW.double
  obtain ⟨b1, b2, b3⟩ := expPQ_bound hr
  have ax : Apx f64 x (rval f64 x) 0 0.34658 := Apx.exact hx hr
  have p0 : Apx f64 _ _ 0 0.000127 := Apx.const expD_p0 (by norm_num)
  have p1 : Apx f64 _ _ 0 0.0303 := Apx.const expD_p1 (by norm_num)
  have one : Apx f64 _ _ 0 1 := Apx.const expD_one (by norm_num)
  have q0 : Apx f64 _ _ 0 0.0000031 := Apx.const expD_q0 (by norm_num)
  have q1 : Apx f64 _ _ 0 0.002525 := Apx.const expD_q1 (by norm_num)
  have q2 : Apx f64 _ _ 0 0.22727 := Apx.const expD_q2 (by norm_num)
  have two : Apx f64 _ _ 0 2 := Apx.const expD_two (by norm_num)
  have s := ax.mulB ax hw (-3) (by decide) (R := 0.12012) (by norm_num) (by norm_num) (d := 7e-18) (by norm_num [f64])
  have t1 := p0.mulB s hw (-16) (by decide) (R := 0.0000153) (by norm_num) (by norm_num) (d := 2e-21) (by norm_num [f64])
  have t2 := t1.addB p1 hw (-5) (by decide) (R := 0.030316) (by norm_num) (by norm_num) (d := 1.74e-18) (by norm_num [f64])
  have t3 := t2.mulB s hw (-8) (by decide) (R := 0.003642) (by norm_num) (by norm_num) (d := 0.7e-18) (by norm_num [f64])
  have t4 := t3.addB one hw 1 (by decide) (R := 1.003642) (by norm_num) (by norm_num) (d := 1.118e-16) (by norm_num [f64])
  have px := ax.mul t4 hw (-1) (by decide) (R := 0.34786) b1 (by norm_num) (d := 6.66e-17) (by norm_num [f64])
  have u1 := q0.mulB s hw (-20) (by decide) (R := 0.000000373) (by norm_num) (by norm_num) (d := 1e-22) (by norm_num [f64])
  have u2 := u1.addB q1 hw (-8) (by decide) (R := 0.002526) (by norm_num) (by norm_num) (d := 2.2e-19) (by norm_num [f64])
  have u3 := u2.mulB s hw (-11) (by decide) (R := 0.0003035) (by norm_num) (by norm_num) (d := 0.8e-19) (by norm_num [f64])
  have u4 := u3.addB q2 hw (-2) (by decide) (R := 0.22758) (by norm_num) (by norm_num) (d := 1.4e-17) (by norm_num [f64])
  have u5 := u4.mulB s hw (-5) (by decide) (R := 0.02734) (by norm_num) (by norm_num) (d := 5.1e-18) (by norm_num [f64])
  have q := u5.addB two hw 2 (by decide) (R := 2.02734) (by norm_num) (by norm_num) (d := 2.272e-16) (by norm_num [f64])
  obtain ⟨hd1, hd2, hdiv⟩ := expDen_bound hr
  have e1 := q.sub px hw 2 (by decide) hd1 (by norm_num) (d := 5.16e-16) (by norm_num [f64])
  have e2 := px.div e1 hw (-2) (by decide) (L := 1.65214) hd2 (by norm_num) hdiv (by norm_num) (d := 1.2e-16) (by norm_num [f64])
  have e3 := two.mulB e2 hw (-1) (by decide) (R := 0.42112) (by norm_num) (by norm_num) (d := 2.69e-16) (by norm_num [f64])
  have e4 := one.addB e3 hw 1 (by decide) (R := 1.42112) (by norm_num) (by norm_num) (d := 3.81e-16) (by norm_num [f64])
  exact ⟨e4.fin, le_trans e4.err (by norm_num)⟩

theorem expRatR_near {r : ℝ} (h : |r| ≤ 0.34658) : |expRatR r - Real.exp r| ≤ 1.7e-17 := by
  obtain ⟨b1, b2, b3⟩ := expPQ_bound h
  have hb := Real.exp_bound (x := r) (n := 15) (by linarith) (by norm_num)
  have hp : |r| ^ 15 ≤ 0.34658 ^ 15 := pow_le_pow_left₀ (abs_nonneg _) h 15
  have hb2 : |r| ^ 15 * (((15 : Nat).succ : ℝ) / (((15 : Nat).factorial : ℝ) * ((15 : Nat) : ℝ))) ≤ 1.1e-19 := by
    refine le_trans (mul_le_mul_of_nonneg_right hp (by positivity)) ?_
    norm_num [Nat.factorial]
  have hb3 := le_trans hb hb2
  have hd : expQR (r * r) + r * expPR (r * r) - (∑ m ∈ Finset.range 15, r ^ m / (m.factorial : ℝ)) *
      (expQR (r * r) - r * expPR (r * r)) = polyL [0, 0, 0, 5 / 216172782113783808, 5 / 432345564227567616, -(33253 / 34587645138205409280), -(99959 / 207525870829232455680), 304172777 / 23242897532874035036160, 61207885 / 9297159013149614014464, -(36113264633 / 418372155591732630650880), -(365728838609 / 8367443111834652613017600), 24859337207833 / 92041874230181178743193600, 10942082669719 / 78893035054441010351308800, -(444389926835039 / 1435853237990826388393820160), -(66885821522609587 / 402038906637431388750269644800), 66302102182691461 / 44670989626381265416696627200, -(2242382264171333 / 3308962194546760401236787200), 104819813108495279 / 804077813274862777500539289600, -(356463237249929 / 23824527800736674888904867840), 3104564978411261 / 3216311253099451110002157158400, -(2953431997655 / 85768300082652029600057524224)] r := by
    unfold expQR expPR
    simp only [Finset.sum_range_succ, Finset.sum_range_zero, Nat.factorial, polyL]
    push_cast
    ring
  have hd2 : |expQR (r * r) + r * expPR (r * r) - (∑ m ∈ Finset.range 15, r ^ m / (m.factorial : ℝ)) *
      (expQR (r * r) - r * expPR (r * r))| ≤ 2.67e-17 := by
    rw [hd]
    refine le_trans (polyL_bound h _) ?_
    norm_num [polyB, abs_of_pos, abs_of_neg]
  clear hd
  unfold expRatR
  generalize (∑ m ∈ Finset.range 15, r ^ m / (m.factorial : ℝ)) = T at *
  generalize expQR (r * r) = Q at *
  generalize r * expPR (r * r) = p at *
  generalize Real.exp r = E at *
  have hp1 := abs_le.mp b1
  have hpos : 1.65214 ≤ Q - p := by norm_num at *; linarith
  have hpos' : 0 < Q - p := by norm_num at hpos; linarith
  have hle : Q - p ≤ 2.3753 := by norm_num at *; linarith
  have e : 1 + 2 * (p / (Q - p)) - E = ((Q + p - T * (Q - p)) - (E - T) * (Q - p)) / (Q - p) := by
    field_simp
    ring
  rw [e, abs_div, abs_of_pos hpos', div_le_iff₀ hpos']
  have ht : |(E - T) * (Q - p)| ≤ 2.7e-19 := by
    rw [abs_mul, abs_of_pos hpos']
    exact le_trans (mul_le_mul hb3 hle (le_of_lt hpos') (by norm_num)) (by norm_num)
  refine le_trans (abs_sub _ _) (le_trans (add_le_add hd2 ht) ?_)
  norm_num at hpos ⊢
  linarith

/-- The reduced argument of one lane. -/
def expRedDL (x z : BitVec 64) : BitVec 64 :=
  fSub f64 (fSub f64 x (fMul f64 z 0x3fe6300000000000#64)) (fMul f64 z 0xbf2bd0105c610ca8#64)

/-- The argument of `floor` of one lane. -/
def expArgDL (x : BitVec 64) : BitVec 64 := fAdd f64 (fMul f64 0x3ff71547652b82fe#64 x) 0x3fe0000000000000#64

theorem expArgDL_apx {x : BitVec 64} (hx : isFinite f64 x = true) (hr : |rval f64 x| ≤ 709) :
    isFinite f64 (expArgDL x) = true ∧
    |rval f64 (expArgDL x) - (3248660424278399 / 2251799813685248 * rval f64 x + 1 / 2)| ≤ 1.2e-13 := by
  have hw := FmtW.double
  have ax : Apx f64 x (rval f64 x) 0 709 := Apx.exact hx hr
  have a0 : Apx f64 _ _ 0 1.4427 := Apx.const expD_log2e (by norm_num)
  have a1 : Apx f64 _ _ 0 0.5 := Apx.const expD_half (by norm_num)
  have h0 := a0.horner ax a1 hw 10 10 (by decide) (by decide) (d := 1.2e-13) (R := 1023.4)
    (by norm_num) (by norm_num) (by norm_num [f64]) (by norm_num [f64])
  exact ⟨h0.fin, h0.err⟩

/-- The integer `z`. -/
theorem expIntD {X y : ℝ} {n : Int} (hX : |X| ≤ 708.4) (hy : |y - (3248660424278399 / 2251799813685248 * X + 1 / 2)| ≤ 1.2e-13)
    (h1 : (n : ℝ) ≤ y) (h2 : y < n + 1) : |n| ≤ 1022 ∧ |X - n * Real.log 2| ≤ 0.346574 := by
  have hl1 := log2_gt
  have hl2 := log2_lt
  rw [abs_le] at hX hy
  obtain ⟨x1, x2⟩ := hX
  obtain ⟨y1, y2⟩ := hy
  constructor
  · have a1 : (n : ℝ) < 1023 := by norm_num at *; linarith
    have a2 : (-1023 : ℝ) < n := by norm_num at *; linarith
    have a1' : n < 1023 := by exact_mod_cast a1
    have a2' : -1023 < n := by exact_mod_cast a2
    rw [abs_le]; omega
  · have e : X - n * Real.log 2 = X * (1 - 3248660424278399 / 2251799813685248 * Real.log 2) + Real.log 2 * (3248660424278399 / 2251799813685248 * X - n) := by ring
    have b1 : |X * (1 - 3248660424278399 / 2251799813685248 * Real.log 2)| ≤ 708.4 * 1e-15 := by
      rw [abs_mul]
      refine mul_le_mul (abs_le.mpr ⟨x1, x2⟩) ?_ (abs_nonneg _) (by norm_num)
      rw [abs_le]; constructor <;> norm_num at * <;> linarith
    have b2 : |Real.log 2 * (3248660424278399 / 2251799813685248 * X - n)| ≤ 0.69314719 * 0.5000001 := by
      rw [abs_mul]
      refine mul_le_mul ?_ ?_ (abs_nonneg _) (by norm_num)
      · rw [abs_of_pos (by linarith)]; norm_num at *; linarith
      · rw [abs_le]; constructor <;> norm_num at * <;> linarith
    rw [e]
    refine le_trans (abs_add_le _ _) (le_trans (add_le_add b1 b2) (by norm_num))

theorem expRedDL_apx {x z : BitVec 64} {n : Int} (hx : isFinite f64 x = true) (hX : |rval f64 x| ≤ 708.4)
    (hz : isFinite f64 z = true) (hzn : rval f64 z = n) (hn : |n| ≤ 1022)
    (hr : |rval f64 x - n * Real.log 2| ≤ 0.346574) :
    isFinite f64 (expRedDL x z) = true ∧
    |rval f64 (expRedDL x z) - (rval f64 x - n * Real.log 2)| ≤ 1.11e-16 := by
  have hw := FmtW.double
  have hl1 := log2_gt
  have hl2 := log2_lt
  have hnr : |(n : ℝ)| ≤ 1022 := by exact_mod_cast hn
  have ax : Apx f64 x (rval f64 x) 0 708.4 := Apx.exact hx hX
  have az : Apx f64 z (n : ℝ) 0 1022 := by rw [← hzn] at hnr ⊢; exact Apx.exact hz hnr
  have hm := fMul_repr (v := n * (355 / 512)) hw hz expD_large.1
    ⟨n * 355, -9, by push_cast; norm_num; ring, by
      rw [abs_mul]
      have : |n| * |(355 : Int)| ≤ 1022 * 355 := mul_le_mul hn (le_refl _) (by decide) (by decide)
      exact le_trans this (by decide), by decide, by decide⟩ (by rw [hzn, expD_large.2])
  have a1 : Apx f64 (fMul f64 z 0x3fe6300000000000#64) (n * (355 / 512)) 0 709 := by
    refine ⟨hm.1, by rw [hm.2]; simp, ?_⟩
    rw [abs_mul]
    exact le_trans (mul_le_mul_of_nonneg_right hnr (abs_nonneg _)) (by norm_num [abs_of_pos])
  have hδ1 : |Real.log 2 - 355 / 512| ≤ 0.000213 := by rw [abs_le]; constructor <;> norm_num at hl1 hl2 ⊢ <;> linarith
  have e1 : rval f64 x - n * (355 / 512) = (rval f64 x - n * Real.log 2) + n * (Real.log 2 - 355 / 512) := by ring
  have b1 : |rval f64 x - n * (355 / 512)| ≤ 0.5643 := by
    rw [e1]
    refine le_trans (abs_add_le _ _) (le_trans (add_le_add hr ?_) (show (0.346574 : ℝ) + 1022 * 0.000213 ≤ _ by norm_num))
    rw [abs_mul]
    exact mul_le_mul hnr hδ1 (abs_nonneg _) (by norm_num)
  have h1 := ax.sub a1 hw 0 (by decide) b1 (by norm_num) (d := 5.5512e-17) (by norm_num [f64])
  have a2 : Apx f64 _ _ 0 0.0002122 := Apx.const expD_small (by norm_num [abs_of_neg])
  have h2 := az.mulB a2 hw (-2) (by decide) (R := 0.217) (by norm_num) (by norm_num) (d := 1.3878e-17) (by norm_num [f64])
  have e2 : rval f64 x - n * (355 / 512) - n * -(978574132388245 / 4611686018427387904) =
      (rval f64 x - n * Real.log 2) + n * (Real.log 2 - 355 / 512 - -(978574132388245 / 4611686018427387904)) := by ring
  have hδ2 : |Real.log 2 - 355 / 512 - -(978574132388245 / 4611686018427387904)| ≤ 1.2e-20 := by
    rw [abs_le]; constructor <;> norm_num at hl1 hl2 ⊢ <;> linarith
  have b2 : |(n : ℝ) * (Real.log 2 - 355 / 512 - -(978574132388245 / 4611686018427387904))| ≤ 1.23e-17 := by
    rw [abs_mul]
    exact le_trans (mul_le_mul hnr hδ2 (abs_nonneg _) (by norm_num)) (by norm_num)
  have h3 := h1.sub h2 hw (-1) (by decide) (R := 0.35) (by
    rw [e2]; exact le_trans (abs_add_le _ _) (le_trans (add_le_add hr b2) (by norm_num))) (by norm_num)
    (d := 9.8e-17) (by norm_num [f64])
  refine ⟨h3.fin, ?_⟩
  have h4 := h3.err
  rw [e2] at h4
  have := abs_sub_le (rval f64 (expRedDL x z)) (rval f64 x - n * Real.log 2 + n * (Real.log 2 - 355 / 512 - -(978574132388245 / 4611686018427387904)))
    (rval f64 x - n * Real.log 2)
  rw [add_sub_cancel_left] at this
  refine le_trans this (le_trans (add_le_add h4 b2) (by norm_num))

/-- What `ldexp` scales is close to the exponential of the reduced argument. -/
theorem expD_mantissa {x z : BitVec 64} {n : Int} (hx : isFinite f64 x = true) (hX : |rval f64 x| ≤ 708.4)
    (hz : isFinite f64 z = true) (hzn : rval f64 z = n) (h1 : (n : ℝ) ≤ rval f64 (expArgDL x))
    (h2 : rval f64 (expArgDL x) < n + 1) :
    |n| ≤ 1022 ∧ |rval f64 x - n * Real.log 2| ≤ 0.346574 ∧ isFinite f64 (expRatL (expRedDL x z)) = true ∧
    |rval f64 (expRatL (expRedDL x z)) - Real.exp (rval f64 x - n * Real.log 2)| ≤
      1 / 2 ^ 50 * Real.exp (rval f64 x - n * Real.log 2) := by
  obtain ⟨hn, hr⟩ := expIntD hX (expArgDL_apx hx (by norm_num at *; linarith)).2 h1 h2
  obtain ⟨hf, he⟩ := expRedDL_apx hx hX hz hzn hn hr
  refine ⟨hn, hr, ?_⟩
  generalize rval f64 x - n * Real.log 2 = r at *
  have hρ : |rval f64 (expRedDL x z)| ≤ 0.34658 := by
    have := abs_add_le (rval f64 (expRedDL x z) - r) r
    rw [sub_add_cancel] at this
    exact le_trans this (le_trans (add_le_add he hr) (by norm_num))
  obtain ⟨pf, pe⟩ := expRatL_apx hf hρ
  refine ⟨pf, ?_⟩
  have q1 := expRatR_near hρ
  have q2 := exp_close he (by norm_num)
  have q3 := (exp_range (le_trans hr (by norm_num))).1
  have := abs_sub_le (rval f64 (expRatL (expRedDL x z))) (expRatR (rval f64 (expRedDL x z))) (Real.exp r)
  have h2 := abs_sub_le (expRatR (rval f64 (expRedDL x z))) (Real.exp (rval f64 (expRedDL x z))) (Real.exp r)
  norm_num at q1 q2 q3 pe ⊢
  linarith

end Vc.Lemma
