import Verif.Lemma.Random

/-!
C45: `Random()`.

The generator state is arbitrary in all statements, so they hold for every history of calls; `C45_run`
says so explicitly for arbitrary mixed sequences of calls.
-/

namespace Vc.Prop
open Vc.Model Vc.Lemma Vc.Spec

private theorem srl_lt {w : Nat} (x : BitVec w) {c k : Nat} (h : w = k + c) : (x >>> c).toNat < 2 ^ k := by
  rw [BitVec.toNat_ushiftRight, Nat.shiftRight_eq_div_pow]
  apply Nat.div_lt_of_lt_mul
  rw [Nat.mul_comm, ← Nat.pow_add, ← h]; exact x.isLt

/-- The vectors: or, subtract. -/
private theorem vec_inUnit {F : Fmt} {n w : Nat} {K : FConst n} (h : Platform F n w K) (x : BitVec n) {c : Nat}
    (hc : w = F.e + F.m - 1 + c) {i : Nat} (hi : w * (i + 1) ≤ n) :
    InUnit F (lane w (map2 w (fSub F) (srliEpi w x c ||| K.one) K.one) i) := by
  rw [lane_map2 _ _ _ hi, lane_or, h.one hi]
  unfold srliEpi
  rw [lane_map1 _ _ hi]
  exact sub_one_inUnit h.fmtW (srl_lt _ hc)

private theorem vec64_inUnit {n : Nat} {K : FConst n} (h : Platform f64 n 64 K) (x : BitVec n) {i : Nat}
    (hi : 64 * (i + 1) ≤ n) :
    InUnit f64 (lane 64 (map2 64 (fSub f64) (srliEpi 64 x 12 ||| K.one) K.one) i) := by
  rw [lane_map2 _ _ _ hi, lane_or, h.one hi]
  unfold srliEpi
  rw [lane_map1 _ _ hi]
  exact sub_one_inUnit h.fmtW (Nat.lt_of_lt_of_le (srl_lt (w := 64) (c := 12) (k := 52) _ rfl)
    (Nat.pow_le_pow_right (by decide) (by decide)))

/-- `float_v::Random()` of SSE, AVX and AVX2 returns only numbers in [0, 1). -/
theorem C45_float (I : Isa) (s : RState) :
    (∀ i, i < 4 → InUnit f32 (lane 32 (randomFloatSse I s).2 i)) ∧
    (∀ i, i < 8 → InUnit f32 (lane 32 (randomFloatAvx randomStepAvx2 s).2 i)) ∧
    (∀ i, i < 8 → InUnit f32 (lane 32 (randomFloatAvx (randomStepAvx I) s).2 i)) :=
  ⟨fun _ _ => vec_inUnit .sseFloat _ rfl (by omega), fun _ _ => vec_inUnit .avxFloat _ rfl (by omega),
    fun _ _ => vec_inUnit .avxFloat _ rfl (by omega)⟩

/-- `double_v::Random()` of SSE and AVX returns only numbers in [0, 1). -/
theorem C45_double (s : RState) :
    (∀ i, i < 2 → InUnit f64 (lane 64 (randomDoubleSse s).2 i)) ∧
    (∀ i, i < 4 → InUnit f64 (lane 64 (randomDoubleAvx s).2 i)) :=
  ⟨fun _ _ => vec64_inUnit .sseDouble _ (by omega), fun _ _ => vec64_inUnit .avxDouble _ (by omega)⟩

private theorem and_lt {w : Nat} (x m : BitVec w) {k : Nat} (h : m.toNat < k) : (x &&& m).toNat < k := by
  rw [BitVec.toNat_and]; exact Nat.lt_of_le_of_lt Nat.and_le_right h

/-- The scalar versions. -/
theorem C45_scalar (s : RState) :
    InUnit f32 (randomFloatScalar s).2 ∧ InUnit f64 (randomDoubleScalar s).2 :=
  ⟨sub_one_inUnit .single (and_lt _ _ (by decide)), sub_one_inUnit .double (and_lt _ _ (by decide))⟩

/-- The number returned is exactly the mantissa field of the state bits, `k / 2 ^ 23` and `k / 2 ^ 52`:
different mantissa bits give different numbers. -/
theorem C45_value (I : Isa) (s : RState) :
    (∀ i, i < 4 → fval f32 (lane 32 (randomFloatSse I s).2 i) * 2 ^ 23 =
      ((s i).toNat / 4 % 2 ^ 23 : Nat) * 2 ^ oneExp f32) ∧
    (∀ i, i < 2 → fval f64 (lane 64 (randomDoubleSse s).2 i) * 2 ^ 52 =
      ((rload64 s (8 + 2 * i)).toNat / 2 ^ 12 % 2 ^ 52 : Nat) * 2 ^ oneExp f64) := by
  constructor
  · intro i hi
    unfold randomFloatSse
    simp only
    rw [lane_map2 _ _ _ (by omega), lane_or, Platform.sseFloat.one (by omega)]
    unfold srliEpi
    rw [lane_map1 _ _ (by omega), (sub_one_value .single (srl_lt (c := 2) _ rfl)).2]
    unfold randomStepSse
    simp only
    rw [lane_rload s 0 (by omega), Nat.zero_add, BitVec.toNat_ushiftRight, Nat.shiftRight_eq_div_pow,
      show (2 : Nat) ^ 2 = 4 from rfl, show f32.m = 23 from rfl]
    generalize (s i).toNat / 4 % 2 ^ 23 = r
    rw [show oneExp f32 = (bias f32 - 1) + 23 from by decide, Int.pow_add, Int.natCast_mul, Int.natCast_pow,
      Int.mul_assoc]
    rfl
  · intro i hi
    unfold randomDoubleSse
    simp only
    rw [lane_map2 _ _ _ (by omega), lane_or, Platform.sseDouble.one (by omega)]
    unfold srliEpi
    rw [lane_map1 _ _ (by omega), (sub_one_value .double (Nat.lt_of_lt_of_le
      (srl_lt (w := 64) (c := 12) (k := 52) _ rfl) (Nat.pow_le_pow_right (by decide) (by decide)))).2]
    rw [lane_rload64 s 8 (by omega), BitVec.toNat_ushiftRight, Nat.shiftRight_eq_div_pow,
      show f64.m = 52 from rfl]
    generalize (rload64 s (8 + 2 * i)).toNat / 2 ^ 12 % 2 ^ 52 = r
    rw [show oneExp f64 = (bias f64 - 1) + 52 from by decide, Int.pow_add, Int.natCast_mul, Int.natCast_pow,
      Int.mul_assoc]
    rfl

/-! ### State -/

private theorem rstore_out {n : Nat} (s : RState) (off : Nat) (v : BitVec n) {k : Nat}
    (h : k < off ∨ off + n / 32 ≤ k) : rstore s off v k = s k := by
  unfold rstore; rw [if_neg (by omega)]

private theorem rstore_in {n : Nat} (s : RState) (off : Nat) (v : BitVec n) {k : Nat}
    (h : off ≤ k) (h' : k < off + n / 32) : rstore s off v k = lane 32 v (k - off) := by
  unfold rstore; rw [if_pos ⟨h, h'⟩]

private theorem rstore64_out (s : RState) (off : Nat) (v : BitVec 64) {k : Nat} (h : k < off ∨ off + 1 < k) :
    rstore64 s off v k = s k := by
  unfold rstore64; rw [if_neg (by omega), if_neg (by omega)]

/-- The multiplicative generator. -/
def lcg (x : BitVec 32) : BitVec 32 := x * 0xdeece66d#32 + 11#32

/-- The state after an integer or float call: for a vector of `c` entries, the words `c` to `2 * c` are
advanced, the words below too and mixed with them; nothing else is written. -/
def stepSpec (c : Nat) (s : RState) : RState := fun k =>
  if k < c then lcg (s k) ^^^ (s (c + k) >>> 16) else if k < 2 * c then lcg (s k) else s k

theorem C45_state_sse (I : Isa) (s : RState) : (randomStepSse I s).1 = stepSpec 4 s ∧
    (∀ i, i < 4 → lane 32 (randomStepSse I s).2 i = s i) := by
  unfold randomStepSse
  simp only
  refine ⟨?_, fun i hi => by rw [lane_rload s 0 (by omega), Nat.zero_add]⟩
  funext k
  unfold stepSpec
  have hmul : ∀ (off i : Nat), i < 4 →
      lane 32 (addEpi 32 (vMul I 32 (rload s off) (set1 32 0xdeece66d#32)) (set1 32 11#32)) i = lcg (s (off + i)) := by
    intro off i hi
    unfold addEpi
    rw [lane_map2 _ _ _ (by omega), lane_vMul I (.inr rfl) (by omega), lane_set1 _ (by omega),
      lane_set1 _ (by omega), lane_rload s off (by omega)]
    rfl
  by_cases h1 : k < 4
  · rw [if_pos h1, rstore_in _ _ _ (by omega) (by omega), lane_xor, hmul 0 _ (by omega)]
    unfold srliEpi
    rw [lane_map1 _ _ (by omega), lane_rload s 4 (by omega)]
    simp
  · rw [if_neg h1, rstore_out _ _ _ (by right; omega)]
    by_cases h2 : k < 2 * 4
    · rw [if_pos h2, rstore_in _ _ _ (by omega) (by omega), hmul 4 _ (by omega)]
      rw [show 4 + (k - 4) = k from by omega]
    · rw [if_neg h2, rstore_out _ _ _ (by right; omega)]

theorem C45_state_avx2 (s : RState) : (randomStepAvx2 s).1 = stepSpec 8 s ∧
    (∀ i, i < 8 → lane 32 (randomStepAvx2 s).2 i = s i) := by
  unfold randomStepAvx2
  simp only
  refine ⟨?_, fun i hi => by rw [lane_rload s 0 (by omega), Nat.zero_add]⟩
  funext k
  unfold stepSpec
  have hmul : ∀ (off i : Nat), i < 8 →
      lane 32 (addEpi 32 (mulloEpi 32 (rload s off : M256) (set1 32 0xdeece66d#32)) (set1 32 11#32)) i =
        lcg (s (off + i)) := by
    intro off i hi
    unfold addEpi mulloEpi
    rw [lane_map2 _ _ _ (by omega), lane_map2 _ _ _ (by omega), lane_set1 _ (by omega),
      lane_set1 _ (by omega), lane_rload s off (by omega)]
    rfl
  by_cases h1 : k < 8
  · rw [if_pos h1, rstore_in _ _ _ (by omega) (by omega), lane_xor, hmul 0 _ (by omega)]
    unfold srliEpi
    rw [lane_map1 _ _ (by omega), lane_rload s 8 (by omega)]
    simp
  · rw [if_neg h1, rstore_out _ _ _ (by right; omega)]
    by_cases h2 : k < 2 * 8
    · rw [if_pos h2, rstore_in _ _ _ (by omega) (by omega), hmul 8 _ (by omega)]
      rw [show 8 + (k - 8) = k from by omega]
    · rw [if_neg h2, rstore_out _ _ _ (by right; omega)]

/-- The lanes of two concatenated registers. -/
private theorem lane_concat128 (a b : M128) {i : Nat} (hi : i < 8) :
    lane 32 (concat128 a b) i = if i < 4 then lane 32 a i else lane 32 b (i - 4) := by
  unfold concat128
  apply BitVec.eq_of_getLsbD_eq
  intro j hj
  rw [getLsbD_lane, BitVec.getLsbD_append]
  by_cases h : i < 4
  · rw [if_pos h, if_pos (by omega), getLsbD_lane]
  · rw [if_neg h, if_neg (by omega), getLsbD_lane, show 32 * i + j - 128 = 32 * (i - 4) + j from by omega]

/-- Without AVX2, AVX does the same with SSE registers: the same state and the same entries, so that both
builds produce the same sequence. -/
theorem C45_avx_same_as_avx2 (I : Isa) (s : RState) : randomStepAvx I s = randomStepAvx2 s := by
  have hmul : ∀ (off i : Nat), i < 4 →
      lane 32 (addEpi 32 (vMul I 32 (rload s off) (set1 32 0xdeece66d#32)) (set1 32 11#32)) i = lcg (s (off + i)) := by
    intro off i hi
    unfold addEpi
    rw [lane_map2 _ _ _ (by omega), lane_vMul I (.inr rfl) (by omega), lane_set1 _ (by omega),
      lane_set1 _ (by omega), lane_rload s off (by omega)]
    rfl
  have hshr : ∀ (off i : Nat), i < 4 → lane 32 (srliEpi 32 (rload s off : M128) 16) i = s (off + i) >>> 16 := by
    intro off i hi
    unfold srliEpi
    rw [lane_map1 _ _ (by omega), lane_rload s off (by omega)]
  have h := C45_state_avx2 s
  apply Prod.ext
  · rw [h.1]
    unfold randomStepAvx
    simp only
    funext k
    unfold stepSpec
    by_cases h1 : k < 8
    · rw [if_pos h1]
      by_cases h2 : 4 ≤ k
      · rw [rstore_in _ _ _ (by omega) (by omega), lane_xor, hmul 4 _ (by omega), hshr 12 _ (by omega),
          show 4 + (k - 4) = k from by omega, show 12 + (k - 4) = 8 + k from by omega]
      · rw [rstore_out _ _ _ (by left; omega), rstore_in _ _ _ (by omega) (by omega), lane_xor,
          hmul 0 _ (by omega), hshr 8 _ (by omega)]
        simp
    · rw [if_neg h1, rstore_out _ _ _ (by right; omega), rstore_out _ _ _ (by right; omega)]
      by_cases h2 : k < 2 * 8
      · rw [if_pos h2]
        by_cases h3 : 12 ≤ k
        · rw [rstore_in _ _ _ (by omega) (by omega), hmul 12 _ (by omega),
            show 12 + (k - 12) = k from by omega]
        · rw [rstore_out _ _ _ (by left; omega), rstore_in _ _ _ (by omega) (by omega), hmul 8 _ (by omega),
            show 8 + (k - 8) = k from by omega]
      · rw [if_neg h2, rstore_out _ _ _ (by right; omega), rstore_out _ _ _ (by right; omega)]
  · apply reg_ext 32 (by decide) (by decide)
    intro i hi
    have hi : i < 8 := hi
    rw [h.2 i hi]
    unfold randomStepAvx
    simp only
    rw [lane_concat128 _ _ hi]
    by_cases h1 : i < 4
    · rw [if_pos h1, lane_rload s 0 (by omega), Nat.zero_add]
    · rw [if_neg h1, lane_rload s 4 (by omega), show 4 + (i - 4) = i from by omega]

/-! ### Sequences of calls -/

/-- All entries of a floating-point result lie in [0, 1). -/
def OutOk : ROut → Prop
  | .uint _ => True
  | .float v => ∀ x ∈ v, InUnit f32 x
  | .double v => ∀ x ∈ v, InUnit f64 x

/-- Two states that agree on the array. -/
private def Agree (s t : RState) : Prop := ∀ k, k < 16 → s k = t k

private theorem rload_congr {s t : RState} (h : Agree s t) {n off : Nat} (hn : n = 128 ∨ n = 256)
    (ho : off + n / 32 ≤ 16) : (rload s off : BitVec n) = rload t off := by
  unfold rload
  apply BitVec.eq_of_getLsbD_eq
  intro j hj
  rw [getLsbD_ofLanes, getLsbD_ofLanes, h _ (by rcases hn with rfl | rfl <;> omega)]

private theorem rload64_congr {s t : RState} (h : Agree s t) {off : Nat} (ho : off + 2 ≤ 16) :
    rload64 s off = rload64 t off := by
  unfold rload64; rw [h _ (by omega), h _ (by omega)]

private theorem rstore64_congr {s t : RState} (h : Agree s t) (off : Nat) (v : BitVec 64) :
    Agree (rstore64 s off v) (rstore64 t off v) := by
  intro k hk
  unfold rstore64
  rw [h k hk]

private theorem stepSpec_congr {s t : RState} (h : Agree s t) {c : Nat} (hc : 2 * c ≤ 16) :
    Agree (stepSpec c s) (stepSpec c t) := by
  intro k hk
  unfold stepSpec
  rw [h k hk]
  by_cases h1 : k < c
  · rw [if_pos h1, if_pos h1, h (c + k) (by omega)]
  · rw [if_neg h1, if_neg h1]

private theorem stepSpec_out {s : RState} {c k : Nat} (hc : 2 * c ≤ 16) (hk : 16 ≤ k) : stepSpec c s k = s k := by
  unfold stepSpec; rw [if_neg (by omega), if_neg (by omega)]

/-- The scalar step follows the same rule. -/
theorem C45_state_scalar (s : RState) : (randomStepScalar s).1 = stepSpec 1 s ∧ (randomStepScalar s).2 = s 0 := by
  refine ⟨?_, rfl⟩
  unfold randomStepScalar
  simp only
  funext k
  unfold stepSpec lcg
  by_cases h0 : k = 0
  · subst h0; simp
  · by_cases h1 : k = 1
    · subst h1; simp
    · rw [if_neg h0, if_neg h1, if_neg (by omega), if_neg (by omega)]

/-- No call writes behind the array of 16 words, and neither the results nor the next state depend on
what is stored there. -/
theorem C45_bounds (c : RCall) (s t : RState) (h : ∀ k, k < 16 → s k = t k) :
    (∀ k, 16 ≤ k → (rcall s c).1 k = s k) ∧ (∀ k, k < 16 → (rcall s c).1 k = (rcall t c).1 k) ∧
      (rcall s c).2 = (rcall t c).2 := by
  have h : Agree s t := h
  have e128 : ∀ off, off + 4 ≤ 16 → (rload s off : M128) = rload t off := fun off ho =>
    rload_congr h (.inl rfl) ho
  have e256 : ∀ off, off + 8 ≤ 16 → (rload s off : M256) = rload t off := fun off ho =>
    rload_congr h (.inr rfl) ho
  have sc := C45_state_scalar s
  have tc := C45_state_scalar t
  have sa := C45_state_avx2 s
  have ta := C45_state_avx2 t
  have da : (randomStepAvx2 s).2 = (randomStepAvx2 t).2 := e256 0 (by decide)
  have ds : ∀ I, (randomStepSse I s).2 = (randomStepSse I t).2 := fun _ => e128 0 (by decide)
  cases c with
  | scalarUint =>
    refine ⟨fun k hk => ?_, fun k hk => ?_, ?_⟩
    · show (randomStepScalar s).1 k = _
      rw [sc.1, stepSpec_out (by decide) hk]
    · show (randomStepScalar s).1 k = (randomStepScalar t).1 k
      rw [sc.1, tc.1]; exact stepSpec_congr h (by decide) k hk
    · show ROut.uint [(randomStepScalar s).2] = ROut.uint [(randomStepScalar t).2]
      rw [sc.2, tc.2, h 0 (by decide)]
  | scalarFloat =>
    refine ⟨fun k hk => ?_, fun k hk => ?_, ?_⟩
    · show (randomStepScalar s).1 k = _
      rw [sc.1, stepSpec_out (by decide) hk]
    · show (randomStepScalar s).1 k = (randomStepScalar t).1 k
      rw [sc.1, tc.1]; exact stepSpec_congr h (by decide) k hk
    · show ROut.float [(randomFloatScalar s).2] = ROut.float [(randomFloatScalar t).2]
      unfold randomFloatScalar
      simp only
      rw [sc.2, tc.2, h 0 (by decide)]
  | scalarDouble =>
    have e := rload64_congr h (off := 8) (by decide)
    refine ⟨fun k hk => ?_, fun k hk => ?_, ?_⟩
    · exact rstore64_out _ _ _ (by right; omega)
    · show (randomDoubleScalar s).1 k = (randomDoubleScalar t).1 k
      unfold randomDoubleScalar
      simp only
      rw [e]; exact rstore64_congr h _ _ k hk
    · show ROut.double [(randomDoubleScalar s).2] = ROut.double [(randomDoubleScalar t).2]
      unfold randomDoubleScalar
      simp only
      rw [e]
  | sseUint I =>
    refine ⟨fun k hk => ?_, fun k hk => ?_, ?_⟩
    · show (randomStepSse I s).1 k = _
      rw [(C45_state_sse I s).1, stepSpec_out (by decide) hk]
    · show (randomStepSse I s).1 k = (randomStepSse I t).1 k
      rw [(C45_state_sse I s).1, (C45_state_sse I t).1]; exact stepSpec_congr h (by decide) k hk
    · show ROut.uint (lanes 32 4 (randomStepSse I s).2) = ROut.uint (lanes 32 4 (randomStepSse I t).2)
      rw [ds]
  | sseFloat I =>
    refine ⟨fun k hk => ?_, fun k hk => ?_, ?_⟩
    · show (randomStepSse I s).1 k = _
      rw [(C45_state_sse I s).1, stepSpec_out (by decide) hk]
    · show (randomStepSse I s).1 k = (randomStepSse I t).1 k
      rw [(C45_state_sse I s).1, (C45_state_sse I t).1]; exact stepSpec_congr h (by decide) k hk
    · show ROut.float (lanes 32 4 (randomFloatSse I s).2) = ROut.float (lanes 32 4 (randomFloatSse I t).2)
      unfold randomFloatSse
      simp only
      rw [ds]
  | sseDouble =>
    have e8 := rload64_congr h (off := 8) (by decide)
    have e10 := rload64_congr h (off := 10) (by decide)
    refine ⟨fun k hk => ?_, fun k hk => ?_, ?_⟩
    · show (randomDoubleSse s).1 k = s k
      unfold randomDoubleSse
      simp only
      rw [rstore64_out _ _ _ (by right; omega), rstore64_out _ _ _ (by right; omega)]
    · show (randomDoubleSse s).1 k = (randomDoubleSse t).1 k
      unfold randomDoubleSse
      simp only
      rw [e8, e10]; exact rstore64_congr (rstore64_congr h _ _) _ _ k hk
    · show ROut.double (lanes 64 2 (randomDoubleSse s).2) = ROut.double (lanes 64 2 (randomDoubleSse t).2)
      unfold randomDoubleSse
      simp only
      rw [e128 8 (by decide)]
  | avx2Uint =>
    refine ⟨fun k hk => ?_, fun k hk => ?_, ?_⟩
    · show (randomStepAvx2 s).1 k = _
      rw [sa.1, stepSpec_out (by decide) hk]
    · show (randomStepAvx2 s).1 k = (randomStepAvx2 t).1 k
      rw [sa.1, ta.1]; exact stepSpec_congr h (by decide) k hk
    · show ROut.uint (lanes 32 8 (randomStepAvx2 s).2) = ROut.uint (lanes 32 8 (randomStepAvx2 t).2)
      rw [da]
  | avx2Float =>
    refine ⟨fun k hk => ?_, fun k hk => ?_, ?_⟩
    · show (randomStepAvx2 s).1 k = _
      rw [sa.1, stepSpec_out (by decide) hk]
    · show (randomStepAvx2 s).1 k = (randomStepAvx2 t).1 k
      rw [sa.1, ta.1]; exact stepSpec_congr h (by decide) k hk
    · show ROut.float (lanes 32 8 (randomFloatAvx randomStepAvx2 s).2) =
        ROut.float (lanes 32 8 (randomFloatAvx randomStepAvx2 t).2)
      unfold randomFloatAvx
      simp only
      rw [da]
  | avxFloat I =>
    have es := C45_avx_same_as_avx2 I s
    have et := C45_avx_same_as_avx2 I t
    refine ⟨fun k hk => ?_, fun k hk => ?_, ?_⟩
    · show (randomStepAvx I s).1 k = _
      rw [es, sa.1, stepSpec_out (by decide) hk]
    · show (randomStepAvx I s).1 k = (randomStepAvx I t).1 k
      rw [es, et, sa.1, ta.1]; exact stepSpec_congr h (by decide) k hk
    · show ROut.float (lanes 32 8 (randomFloatAvx (randomStepAvx I) s).2) =
        ROut.float (lanes 32 8 (randomFloatAvx (randomStepAvx I) t).2)
      unfold randomFloatAvx
      simp only
      rw [es, et, da]
  | avxDouble =>
    have hu : ∀ (s t : RState) (k : Nat), k + 2 ≤ 16 → Agree s t →
        Agree (rstore64 s k (rload64 s k * 0x5deece66d#64 + 11#64))
          (rstore64 t k (rload64 t k * 0x5deece66d#64 + 11#64)) := by
      intro s t k hk h
      rw [rload64_congr h hk]; exact rstore64_congr h _ _
    refine ⟨fun k hk => ?_, fun k hk => ?_, ?_⟩
    · show (randomDoubleAvx s).1 k = s k
      unfold randomDoubleAvx
      simp only
      rw [rstore64_out _ _ _ (by right; omega), rstore64_out _ _ _ (by right; omega),
        rstore64_out _ _ _ (by right; omega), rstore64_out _ _ _ (by right; omega)]
    · show (randomDoubleAvx s).1 k = (randomDoubleAvx t).1 k
      unfold randomDoubleAvx
      simp only
      exact hu _ _ 6 (by decide) (hu _ _ 4 (by decide) (hu _ _ 2 (by decide) (hu _ _ 0 (by decide) h))) k hk
    · show ROut.double (lanes 64 4 (randomDoubleAvx s).2) = ROut.double (lanes 64 4 (randomDoubleAvx t).2)
      unfold randomDoubleAvx
      simp only
      rw [e256 0 (by decide)]

private theorem mem_lanes {n w c : Nat} {P : BitVec w → Prop} {x : BitVec n} (h : ∀ i, i < c → P (lane w x i)) :
    ∀ y ∈ lanes w c x, P y := by
  intro y hy
  unfold lanes at hy
  obtain ⟨i, hi, rfl⟩ := List.mem_map.mp hy
  exact h i (List.mem_range.mp hi)

theorem C45_call (s : RState) (c : RCall) : OutOk (rcall s c).2 := by
  cases c with
  | scalarUint => trivial
  | scalarFloat => intro x hx; rw [List.mem_singleton.mp hx]; exact (C45_scalar s).1
  | scalarDouble => intro x hx; rw [List.mem_singleton.mp hx]; exact (C45_scalar s).2
  | sseUint I => trivial
  | sseFloat I => exact mem_lanes (C45_float I s).1
  | sseDouble => exact mem_lanes (C45_double s).1
  | avx2Uint => trivial
  | avx2Float => exact mem_lanes (C45_float ⟨true, true, true, true⟩ s).2.1
  | avxFloat I => exact mem_lanes (C45_float I s).2.2
  | avxDouble => exact mem_lanes (C45_double s).2

/-- Every floating-point entry returned in any sequence of calls, of any types in any order and from
any initial state, lies in [0, 1); there are as many results as calls; memory behind the state array is
never written. -/
theorem C45_run (cs : List RCall) : ∀ s : RState,
    (∀ o ∈ (rrun s cs).2, OutOk o) ∧ (rrun s cs).2.length = cs.length ∧ ∀ k, 16 ≤ k → (rrun s cs).1 k = s k := by
  induction cs with
  | nil => intro s; exact ⟨fun o ho => absurd ho List.not_mem_nil, rfl, fun _ _ => rfl⟩
  | cons c cs ih =>
    intro s
    obtain ⟨h1, h2, h3⟩ := ih (rcall s c).1
    refine ⟨?_, by show _ + 1 = _ + 1; rw [h2], fun k hk => (h3 k hk).trans ((C45_bounds c s s (fun _ _ => rfl)).1 k hk)⟩
    intro o ho
    rcases List.mem_cons.mp ho with rfl | ho
    · exact C45_call s c
    · exact h1 o ho

/-- The first float of a scalar program is `0x383a4f / 2 ^ 23` (state word `0x5a383a4f`), in [0, 1); the
state after the call differs from the one before. -/
example : InUnit f32 (fSub f32 ((0x5a383a4f#32 &&& 0x0fffffff#32) ||| 0x3f800000#32) 0x3f800000#32) ∧
    (randomStepScalar (fun k => if k = 0 then 0x5a383a4f#32 else 0xc68bd45e#32)).1 0 ≠ 0x5a383a4f#32 ∧
    ¬ InUnit f32 0x3f800000#32 ∧ ¬ InUnit f32 0x7fc00000#32 := by
  refine ⟨sub_one_inUnit .single (and_lt _ _ (by decide)), by decide, ?_, ?_⟩
  · rintro ⟨-, -, h⟩; exact absurd h (by decide)
  · rintro ⟨h, -, -⟩; exact absurd h (by decide)

end Vc.Prop
