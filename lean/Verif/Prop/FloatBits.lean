import Verif.Lemma.FloatOps

/-!
C46, C54: sign operations, classification and comparisons of the floating-point vectors.

`Platform F n w K` ranges over the vector types float_v and double_v of SSE and AVX: format `F`, `n`
register bits, `w` bits per entry.  All statements are about an arbitrary lane `i` of the register and
arbitrary bit patterns (infinities, NaNs, denormals, signed zeros included).
-/

namespace Vc.Prop
open Vc.Model Vc.Lemma Vc.Spec

/-! ### C46 -/

/-- `abs` clears the sign and keeps everything else. -/
theorem C46_abs {F : Fmt} {n w : Nat} {K : FConst n} (h : Platform F n w K) (x : BitVec n) {i : Nat}
    (hi : w * (i + 1) ≤ n) :
    fneg F (lane w (vFAbs K x) i) = false ∧ fmag F (lane w (vFAbs K x) i) = fmag F (lane w x i) ∧
      fval F (lane w (vFAbs K x) i) = ((fval F (lane w x i)).natAbs : Int) := by
  unfold vFAbs
  rw [lane_and, h.absMask hi]
  have e := sm_abs h.fmtW.width (lane w x i)
  refine ⟨e.1, e.2, ?_⟩
  rw [natAbs_fval]
  unfold fval
  rw [e.1, e.2]; rfl

/-- `copysign` takes everything but the sign from the first and the sign from the second operand. -/
theorem C46_copysign {F : Fmt} {n w : Nat} {K : FConst n} (h : Platform F n w K) (mag sign : BitVec n) {i : Nat}
    (hi : w * (i + 1) ≤ n) :
    fneg F (lane w (vCopysign K mag sign) i) = fneg F (lane w sign i) ∧
      fmag F (lane w (vCopysign K mag sign) i) = fmag F (lane w mag i) := by
  unfold vCopysign
  rw [lane_or, lane_and, lane_and, h.absMask hi, h.signMask hi]
  exact sm_copysign h.fmtW.width _ _

/-- Unary minus flips the sign, of zeros, infinities and NaNs too. -/
theorem C46_negate {F : Fmt} {n w : Nat} {K : FConst n} (h : Platform F n w K) (x : BitVec n) {i : Nat}
    (hi : w * (i + 1) ≤ n) :
    fneg F (lane w (vFNegate K x) i) = !fneg F (lane w x i) ∧
      fmag F (lane w (vFNegate K x) i) = fmag F (lane w x i) ∧
      fval F (lane w (vFNegate K x) i) = -fval F (lane w x i) := by
  unfold vFNegate
  rw [lane_xor, h.signMask hi]
  have e := sm_neg h.fmtW.width (lane w x i)
  refine ⟨e.1, e.2, ?_⟩
  unfold fval
  rw [e.1, e.2]
  cases fneg F (lane w x i) <;> simp

/-- Negating twice gives the same bits. -/
theorem C46_negate_negate {F : Fmt} {n w : Nat} {K : FConst n} (h : Platform F n w K) (x : BitVec n) :
    vFNegate K (vFNegate K x) = x := by
  have _ := h
  unfold vFNegate
  rw [BitVec.xor_assoc, BitVec.xor_self, BitVec.xor_zero]

/-- `isnegative` of float_v is the sign bit, of zeros and NaNs too. -/
theorem C46_isnegative_float {n : Nat} {K : FConst n} (h : Platform f32 n 32 K) (x : BitVec n) {i : Nat}
    (hi : 32 * (i + 1) ≤ n) :
    lane 32 (vIsNegativePs K x) i = boolLane 32 (fneg f32 (lane 32 x i)) := by
  unfold vIsNegativePs sraiEpi
  rw [lane_map1 _ _ hi, lane_and, h.signMask hi, fneg_msb (by rfl)]
  exact srai_sign _

/-- `isnegative` of double_v. -/
theorem C46_isnegative_double {n : Nat} {K : FConst n} (h : Platform f64 n 64 K) (x : BitVec n) {i : Nat}
    (hi : 64 * (i + 1) ≤ n) :
    lane 64 (vIsNegativePd K x) i = boolLane 64 (fneg f64 (lane 64 x i)) := by
  have key : ∀ j, j < 2 → lane 32 (vIsNegativePd K x) (2 * i + j) = laneMask (fneg f64 (lane 64 x i)) := by
    intro j hj
    have hs : 4 * ((2 * i + j) / 4) + sel4 (1 + 1 * 4 + 3 * 16 + 3 * 64) ((2 * i + j) % 4) = 2 * i + 1 := by
      have h3 : (2 * i + j) % 4 = 2 * (i % 2) + j := by omega
      rw [h3]
      rcases Nat.mod_two_eq_zero_or_one i with e | e <;> rw [e] <;>
        (rcases (show j = 0 ∨ j = 1 by omega) with rfl | rfl) <;> simp [sel4] <;> omega
    unfold vIsNegativePd permuteX1X1X3X3
    rw [lane_ofLanes _ (by omega), hs]
    unfold sraiEpi
    rw [lane_map1 _ _ (by omega), lane_and, ← lane_lane 32 2 K.signMask i (by decide : 1 < 2),
      ← lane_lane 32 2 x i (by decide : 1 < 2), h.signMask hi,
      show lane 32 (BitVec.ofNat (32 * 2) (2 ^ (f64.e + f64.m))) 1 = 0x80000000#32 from by decide, srai_sign]
    congr 1
    rw [fneg_msb (by rfl), BitVec.msb_eq_getLsbD_last, getLsbD_lane, BitVec.msb_eq_getLsbD_last]
    rfl
  apply lane_ext (v := 32) (c := 2) (by decide)
  intro j hj
  rw [lane_lane 32 2 _ i hj, key j hj]
  unfold boolLane laneMask
  cases fneg f64 (lane 64 x i)
  · exact (lane_zero j).symm
  · exact (lane_allOnes (n := 64) (w := 32) (by omega)).symm

/-- `isnan`. -/
theorem C46_isnan {F : Fmt} {n w : Nat} {K : FConst n} (h : Platform F n w K) (x : BitVec n) {i : Nat}
    (hi : w * (i + 1) ≤ n) : lane w (vIsNaN F w x) i = boolLane w (isNaN F (lane w x i)) := by
  have _ := h
  unfold vIsNaN cmpunord
  rw [lane_map2 _ _ _ hi, Bool.or_self]; rfl

/-- `isfinite`. -/
theorem C46_isfinite {F : Fmt} {n w : Nat} {K : FConst n} (h : Platform F n w K) (x : BitVec n) {i : Nat}
    (hi : w * (i + 1) ≤ n) : lane w (vIsFinite F w x) i = boolLane w (isFinite F (lane w x i)) := by
  unfold vIsFinite cmpord
  rw [lane_map2 _ _ _ hi, lane_map2 _ _ _ hi, lane_zero, isNaN_zero_mul h.fmtW, Bool.not_not]; rfl

/-- `isinf`: positive and negative infinity. -/
theorem C46_isinf {F : Fmt} {n w : Nat} {K : FConst n} (h : Platform F n w K) (x : BitVec n) {i : Nat}
    (hi : w * (i + 1) ≤ n) : lane w (vIsInf K w x) i = boolLane w (isInf F (lane w x i)) := by
  unfold vIsInf cmpeqEpi vFAbs
  rw [lane_map2 _ _ _ hi, lane_and, h.absMask hi, h.expMask hi]
  have e : (lane w x i &&& BitVec.ofNat w (2 ^ (F.e + F.m) - 1) = BitVec.ofNat w (infMag F)) =
      (fmag F (lane w x i) = infMag F) := by
    apply propext
    rw [← BitVec.toNat_inj, toNat_abs h.fmtW.width, toNat_ofNat_lt
      (Nat.lt_trans (infMag_lt F) (pow_lt_width h.fmtW.width))]
  simp only [e]; rfl

/-- `isinf` of SSE::double_v, for all instruction sets. -/
theorem C46_isinf_sse_double (I : Isa) (x : M128) {i : Nat} (hi : i < 2) :
    lane 64 (vIsInfPdSse I x) i = boolLane 64 (isInf f64 (lane 64 x i)) := by
  rw [← C46_isinf Platform.sseDouble x (by omega)]
  unfold vIsInfPdSse vIsInf cmpeqEpi
  rw [lane_cmpeqEpi64 I _ _ hi, lane_map2 _ _ _ (by omega)]

/-- The scalar functions. -/
theorem C46_scalar_copysign :
    (∀ m s : BitVec 32, fneg f32 (sCopysign32 m s) = fneg f32 s ∧ fmag f32 (sCopysign32 m s) = fmag f32 m) ∧
    (∀ m s : BitVec 64, fneg f64 (sCopysign64 m s) = fneg f64 s ∧ fmag f64 (sCopysign64 m s) = fmag f64 m) :=
  ⟨fun m s => sm_copysign (F := f32) rfl m s, fun m s => sm_copysign (F := f64) rfl m s⟩

private theorem and_bit_ne {w k : Nat} (hk : k < w) (x : BitVec w) :
    decide (0#w ≠ x &&& BitVec.ofNat w (2 ^ k)) = x.getLsbD k := by
  have hp : 2 ^ k < 2 ^ w := Nat.pow_lt_pow_right (by decide) hk
  have h : ∀ j, (x &&& BitVec.ofNat w (2 ^ k)).getLsbD j = (x.getLsbD k && decide (j = k)) := by
    intro j
    rw [BitVec.getLsbD_and, BitVec.getLsbD_ofNat, Nat.testBit_two_pow]
    by_cases e : j = k
    · subst e; simp [hk]
    · have : ¬ k = j := fun e' => e e'.symm
      simp [e, this]
  cases hx : x.getLsbD k
  · apply decide_eq_false
    intro hne
    apply hne
    apply BitVec.eq_of_getLsbD_eq
    intro j _
    rw [h, hx]; simp
  · apply decide_eq_true
    intro e
    have := congrArg (fun z => z.getLsbD k) e
    simp only [h, hx] at this
    simp at this

theorem C46_scalar_isnegative :
    (∀ x : BitVec 32, sIsNegative32 x = fneg f32 x) ∧ (∀ x : BitVec 64, sIsNegative64 x = fneg f64 x) := by
  constructor
  · intro x
    exact (and_bit_ne (w := 32) (k := 31) (by decide) x).trans (by unfold fneg; rw [BitVec.testBit_toNat]; rfl)
  · intro x
    exact (and_bit_ne (w := 64) (k := 63) (by decide) x).trans (by unfold fneg; rw [BitVec.testBit_toNat]; rfl)

/-- All four vector types have a lane 1; -0.0 is negative, and the lanes of NaN, infinity and one are
classified differently. -/
example : Platform f32 128 32 sseFloat ∧ Platform f64 128 64 sseDouble ∧ Platform f32 256 32 avxFloat ∧
    Platform f64 256 64 avxDouble ∧ fneg f32 0x80000000#32 = true ∧ fval f32 0x80000000#32 = 0 ∧
    isNaN f32 0xffc00000#32 = true ∧ fneg f32 0xffc00000#32 = true ∧ isInf f32 0xff800000#32 = true ∧
    isFinite f32 0x3f800000#32 = true ∧ magVal f32 0x3f800000 = 2 ^ 149 := by
  refine ⟨.sseFloat, .sseDouble, .avxFloat, .avxDouble, ?_, ?_, ?_, ?_, ?_, ?_, ?_⟩ <;> decide

/-! ### C54 -/

theorem fLt_numLt {F : Fmt} {w : Nat} (a b : BitVec w) : fLt F a b = numLt F a b := by
  unfold fLt numLt fnum
  cases isNaN F a <;> cases isNaN F b <;> simp

theorem fLe_numLe {F : Fmt} {w : Nat} (a b : BitVec w) : fLe F a b = numLe F a b := by
  unfold fLe numLe fnum
  cases isNaN F a <;> cases isNaN F b <;> simp

theorem fEq_numEq {F : Fmt} {w : Nat} (a b : BitVec w) : fEq F a b = numEq F a b := by
  unfold fEq numEq fnum
  cases isNaN F a <;> cases isNaN F b <;> simp

/-- `==` and `!=`, NaN included. -/
theorem C54_eq_ne {F : Fmt} {n w : Nat} {K : FConst n} (h : Platform F n w K) (a b : BitVec n) {i : Nat}
    (hi : w * (i + 1) ≤ n) :
    lane w (vFEq F w a b) i = boolLane w (numEq F (lane w a i) (lane w b i)) ∧
    lane w (vFNe F w a b) i = boolLane w (!numEq F (lane w a i) (lane w b i)) := by
  have _ := h
  unfold vFEq vFNe
  rw [lane_map2 _ _ _ hi, lane_map2 _ _ _ hi, fEq_numEq]; exact ⟨rfl, rfl⟩

/-- `<` and `<=`, NaN included. -/
theorem C54_lt_le {F : Fmt} {n w : Nat} {K : FConst n} (h : Platform F n w K) (a b : BitVec n) {i : Nat}
    (hi : w * (i + 1) ≤ n) :
    lane w (vFLt F w a b) i = boolLane w (numLt F (lane w a i) (lane w b i)) ∧
    lane w (vFLe F w a b) i = boolLane w (numLe F (lane w a i) (lane w b i)) := by
  have _ := h
  unfold vFLt vFLe
  rw [lane_map2 _ _ _ hi, lane_map2 _ _ _ hi, fLt_numLt, fLe_numLe]; exact ⟨rfl, rfl⟩

/-- `>` and `>=` if the entries are not NaN (all builds), and always in builds using the comparison
operators of the compiler; `>` also with SSE.  Missing: the builds and operators of
`C54_ge_gt_violated`. -/
theorem C54_gt_ge_partial (B : CmpBuild) {F : Fmt} {n w : Nat} {K : FConst n} (h : Platform F n w K) (a b : BitVec n)
    {i : Nat} (hi : w * (i + 1) ≤ n) :
    ((isNaN F (lane w a i) = false ∧ isNaN F (lane w b i) = false) ∨ B = .avxGcc →
      lane w (vFGt B F w a b) i = boolLane w (numLt F (lane w b i) (lane w a i)) ∧
      lane w (vFGe B F w a b) i = boolLane w (numLe F (lane w b i) (lane w a i))) ∧
    (B = .sse → lane w (vFGt B F w a b) i = boolLane w (numLt F (lane w b i) (lane w a i))) := by
  have _ := h
  have e1 : isNaN F (lane w a i) = false ∧ isNaN F (lane w b i) = false →
      (!fLt F (lane w a i) (lane w b i)) = numLe F (lane w b i) (lane w a i) ∧
      (!fLe F (lane w a i) (lane w b i)) = numLt F (lane w b i) (lane w a i) := by
    rintro ⟨ha, hb⟩
    unfold fLt fLe numLe numLt fnum
    rw [ha, hb]
    simp only [Bool.false_eq_true, if_false, Bool.not_false, Bool.and_self, Bool.true_and]
    constructor
    · rw [← decide_not]; congr 1; apply propext; omega
    · rw [← decide_not]; congr 1; apply propext; omega
  constructor
  · intro hn
    unfold vFGt vFGe
    cases B
    · rcases hn with hn | hn
      · simp only [lane_map2 _ _ _ hi, e1 hn]
        rw [fLt_numLt]; exact ⟨rfl, rfl⟩
      · cases hn
    · simp only [lane_map2 _ _ _ hi, fLt_numLt, fLe_numLe]; exact ⟨rfl, rfl⟩
    · rcases hn with hn | hn
      · simp only [lane_map2 _ _ _ hi, e1 hn]; exact ⟨rfl, rfl⟩
      · cases hn
  · intro hB
    subst hB
    unfold vFGt
    simp only [lane_map2 _ _ _ hi, fLt_numLt]; rfl

/-- With SSE, and with the AVX intrinsics, `>=` holds when an entry is NaN; with the AVX intrinsics `>`
does too.  (For `float`, `1.0f >= NaN` and `1.0f > NaN` are false.) -/
theorem C54_ge_gt_violated :
    let one : BitVec 32 := 0x3f800000#32
    let nan : BitVec 32 := 0x7fc00000#32
    numLe f32 nan one = false ∧ numLt f32 nan one = false ∧
    (∀ B, B = .sse ∨ B = .avx → lane 32 (vFGe B f32 32 (set1 32 one : M128) (set1 32 nan)) 0 = boolLane 32 true) ∧
    lane 32 (vFGt .avx f32 32 (set1 32 one : M256) (set1 32 nan)) 0 = boolLane 32 true ∧
    lane 32 (vFLe f32 32 (set1 32 nan : M128) (set1 32 one)) 0 = boolLane 32 false := by
  refine ⟨by decide, by decide, ?_, ?_, ?_⟩
  · rintro B (rfl | rfl) <;>
    · unfold vFGe
      simp only
      rw [lane_map2 _ _ _ (by decide), lane_set1 _ (by decide), lane_set1 _ (by decide)]
      decide
  · unfold vFGt
    simp only
    rw [lane_map2 _ _ _ (by decide), lane_set1 _ (by decide), lane_set1 _ (by decide)]
    decide
  · unfold vFLe
    rw [lane_map2 _ _ _ (by decide), lane_set1 _ (by decide), lane_set1 _ (by decide)]
    decide

/-- `min` and `max` return the lesser and the greater number, if none is NaN; otherwise the second
operand.  Of two zeros with different sign, the second operand is returned. -/
theorem C54_min_max {F : Fmt} {n w : Nat} {K : FConst n} (h : Platform F n w K) (a b : BitVec n) {i : Nat}
    (hi : w * (i + 1) ≤ n) :
    let x := lane w a i
    let y := lane w b i
    let lo := lane w (vFMin F w a b) i
    let hi := lane w (vFMax F w a b) i
    (isNaN F x = false → isNaN F y = false →
      fnum F lo = some (min (fval F x) (fval F y)) ∧ fnum F hi = some (max (fval F x) (fval F y)) ∧
      (lo = x ∨ lo = y) ∧ (hi = x ∨ hi = y)) ∧
    (isNaN F x = true ∨ isNaN F y = true → lo = y ∧ hi = y) := by
  have _ := h
  simp only
  unfold vFMin vFMax
  rw [lane_map2 _ _ _ hi, lane_map2 _ _ _ hi]
  generalize lane w a i = x
  generalize lane w b i = y
  unfold fMin fMax fLt fnum
  constructor
  · intro h1 h2
    rw [h1, h2]
    simp only [Bool.not_false, Bool.and_self, Bool.true_and, decide_eq_true_eq]
    by_cases h3 : fval F x < fval F y
    · have h4 : ¬ fval F y < fval F x := by omega
      rw [if_pos h3, if_neg h4, h1, h2]
      simp; omega
    · rw [if_neg h3]
      by_cases h4 : fval F y < fval F x
      · rw [if_pos h4, h1, h2]; simp; omega
      · rw [if_neg h4, h2]; simp; omega
  · rintro (h | h) <;> simp [h]

example : numLt f32 0xff800000#32 0x00000001#32 = true ∧ numEq f32 0x80000000#32 0#32 = true ∧
    numEq f32 0x7fc00000#32 0x7fc00000#32 = false ∧ numLe f64 0x8000000000000005#64 0x0000000000000003#64 = true ∧
    isNaN f32 0x3f800000#32 = false := by
  refine ⟨?_, ?_, ?_, ?_, ?_⟩ <;> decide

end Vc.Prop
