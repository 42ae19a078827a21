import Verif.Lemma.SseReduce
import Verif.Spec.Reduce
import Verif.Prop.SseInt

/-! # C41: reductions of the SSE vectors -/

namespace Vc.Prop

open Vc.Model Vc.Spec Vc.Lemma

/-- The numbers in the lanes of an integer vector. -/
def numbers (sgn : Bool) (w : Nat) (x : M128) : List Int :=
  (List.range (128 / w)).map fun i => val sgn (lane w x i)

/-- The truth values of the lanes of a mask. -/
def truths (w : Nat) (b : Nat → Bool) : List Bool := (List.range (128 / w)).map b

theorem addEpi_op (w : Nat) : LaneOp w (addEpi w) (· + ·) := fun _ _ _ h => lane_map2 _ _ _ h

theorem vMul_op (I : Isa) {w : Nat} (hw : IntWidth w) : LaneOp w (vMul I w) (· * ·) :=
  fun _ _ _ h => lane_vMul I hw h _ _

theorem foldr_add_ofInt (w : Nat) (l : List Int) :
    BitVec.ofInt w (l.foldr (· + ·) 0) = (l.map (BitVec.ofInt w)).foldr (· + ·) 0#w := by
  induction l with
  | nil => rfl
  | cons a l ih => rw [List.foldr_cons, BitVec.ofInt_add, ih]; rfl

theorem foldr_mul_ofInt (w : Nat) (l : List Int) :
    BitVec.ofInt w (l.foldr (· * ·) 1) = (l.map (BitVec.ofInt w)).foldr (· * ·) 1#w := by
  induction l with
  | nil => simp
  | cons a l ih => rw [List.foldr_cons, BitVec.ofInt_mul, ih]; rfl

/-- `sum()` is the sum of the entries modulo `2 ^ w`. -/
theorem C41_sum {w : Nat} (hw : IntWidth w) (sgn : Bool) (x : M128) :
    vHSum w x = BitVec.ofInt w ((numbers sgn w x).foldr (· + ·) 0) := by
  rw [foldr_add_ofInt, numbers, List.map_map]
  have e : (BitVec.ofInt w ∘ fun i => val sgn (lane w x i)) = lane w x := by
    funext i; exact ofInt_val_red sgn _
  rw [e]
  rcases hw with rfl | rfl
  · refine (hReduce_16 (addEpi_op 16) x).trans ?_
    show _ = lane 16 x 0 + (lane 16 x 1 + (lane 16 x 2 + (lane 16 x 3 + (lane 16 x 4 + (lane 16 x 5 +
      (lane 16 x 6 + (lane 16 x 7 + 0#16)))))))
    unfold tree8; simp only [BitVec.add_zero]; ac_rfl
  · refine (hReduce_32 (addEpi_op 32) x).trans ?_
    show _ = lane 32 x 0 + (lane 32 x 1 + (lane 32 x 2 + (lane 32 x 3 + 0#32)))
    unfold tree4; simp only [BitVec.add_zero]; ac_rfl

private theorem numbers_assign (I : Isa) {w : Nat} (hw : IntWidth w) (sgn : Bool) (e : BitVec w) (tmp x m : M128)
    {b : Nat → Bool} (hm : IsMask w m b) (ht : ∀ i, w * (i + 1) ≤ 128 → lane w tmp i = e) {op : Int → Int → Int}
    (hop : ∀ a, op (val sgn e) a = a) :
    (numbers sgn w (vAssign I 8 tmp x m)).foldr op (val sgn e) =
      (active (numbers sgn w x) (truths w b)).foldr op (val sgn e) := by
  rw [active_foldr hop _ _ (by simp [numbers, truths])]
  congr 1
  rw [numbers, truths, numbers, List.zip_map', List.map_map]
  apply List.map_congr_left
  intro i hi
  have hi : w * (i + 1) ≤ 128 := by
    rw [List.mem_range] at hi
    rcases hw with rfl | rfl <;> omega
  have hc : w = 8 * (w / 8) := by rcases hw with rfl | rfl <;> decide
  rw [lane_vAssign I hc (by decide) hi _ _ _ hm, ht i hi]
  simp only [Function.comp]
  cases b i <;> rfl

/-- `sum(m)` is the sum of the active entries modulo `2 ^ w`. -/
theorem C41_sum_masked (I : Isa) {w : Nat} (hw : IntWidth w) (sgn : Bool) (x m : M128) {b : Nat → Bool}
    (hm : IsMask w m b) :
    vHSumMasked I w x m =
      BitVec.ofInt w ((active (numbers sgn w x) (truths w b)).foldr (· + ·) 0) := by
  unfold vHSumMasked
  rw [C41_sum hw sgn]
  have h0 : val sgn (0#w) = 0 := by cases sgn <;> simp [val]
  have := numbers_assign I hw sgn 0#w 0#128 x m hm (fun i _ => lane_zero i) (op := (· + ·))
    (fun a => by rw [h0]; exact Int.zero_add a)
  rw [h0] at this
  rw [this]

private theorem mulInt_some {a b c : BitVec 32} (h : mulInt a b = some c) : c = a * b := by
  unfold mulInt at h
  split at h
  · injection h with h; exact h.symm
  · exact absurd h (by simp)

/-- `product()`, whenever it is defined, is the product of the entries modulo `2 ^ w`. -/
theorem C41_product_partial (I : Isa) {w : Nat} (hw : IntWidth w) (sgn : Bool) (x : M128) (r : BitVec w)
    (hr : vHProduct I sgn w x = some r) :
    r = BitVec.ofInt w ((numbers sgn w x).foldr (· * ·) 1) := by
  rw [foldr_mul_ofInt, numbers, List.map_map]
  have e : (BitVec.ofInt w ∘ fun i => val sgn (lane w x i)) = lane w x := by
    funext i; exact ofInt_val_red sgn _
  rw [e]
  unfold vHProduct at hr
  rcases hw with rfl | rfl
  · rw [if_neg (by simp)] at hr
    injection hr with hr
    rw [← hr]
    refine (hReduce_16 (vMul_op I (.inl rfl)) x).trans ?_
    show _ = lane 16 x 0 * (lane 16 x 1 * (lane 16 x 2 * (lane 16 x 3 * (lane 16 x 4 * (lane 16 x 5 *
      (lane 16 x 6 * (lane 16 x 7 * 1#16)))))))
    unfold tree8; simp only [BitVec.mul_one]; ac_rfl
  · have goal : ((List.range (128 / 32)).map (lane 32 x)).foldr (· * ·) 1#32 =
        lane 32 x 0 * lane 32 x 1 * (lane 32 x 2 * lane 32 x 3) := by
      show lane 32 x 0 * (lane 32 x 1 * (lane 32 x 2 * (lane 32 x 3 * 1#32))) = _
      simp only [BitVec.mul_one]; ac_rfl
    rw [goal]
    split at hr
    · split at hr
      · cases h1 : mulInt (lane 32 x 0) (lane 32 x 1) with
        | none => rw [h1] at hr; exact absurd hr (by simp)
        | some p =>
          cases h2 : mulInt (lane 32 x 2) (lane 32 x 3) with
          | none => rw [h1, h2] at hr; exact absurd hr (by simp)
          | some q =>
            cases h3 : mulInt p q with
            | none => rw [h1, h2] at hr; simp [h3] at hr
            | some s =>
              rw [h1, h2] at hr
              simp only [Option.bind_eq_bind, Option.bind_some, h3, Option.pure_def,
                BitVec.setWidth_eq, Option.some.injEq] at hr
              rw [← hr, mulInt_some h3, mulInt_some h1, mulInt_some h2]
      · injection hr with hr
        rw [← hr, BitVec.setWidth_eq]
    · injection hr with hr
      rw [← hr]
      refine (hReduce_32 (vMul_op I (.inr rfl)) x).trans ?_
      unfold tree4; ac_rfl

/-- `product()` is defined except for int_v without SSE4.1. -/
theorem C41_product_defined_partial (I : Isa) {w : Nat} (sgn : Bool) (x : M128)
    (h : I.sse41 = true ∨ w ≠ 32 ∨ sgn = false) : (vHProduct I sgn w x).isSome = true := by
  unfold vHProduct
  split
  · rename_i hc
    rw [if_neg (by
      rcases h with h | h | h
      · rw [h] at hc; exact absurd hc.2 (by decide)
      · exact absurd hc.1 h
      · rw [h]; decide)]
    rfl
  · rfl

/-- int_v without SSE4.1: `product()` is undefined for some vectors, although the vector operations
wrap and the same program with SSE4.1 returns the product modulo `2 ^ 32`. -/
theorem C41_product_violated : ¬ ∀ (I : Isa) (sgn : Bool) (x : M128), (vHProduct I sgn 32 x).isSome = true := by
  intro h
  have := h sse2 true (set1 32 65536#32)
  unfold vHProduct at this
  have e : mulInt 65536#32 65536#32 = none := by
    unfold mulInt
    have h : (65536#32 : BitVec 32).toInt = 65536 := by decide
    rw [h, if_neg (by omega)]
  rw [if_pos ⟨rfl, rfl⟩, if_pos rfl, lane_set1 _ (by decide), lane_set1 _ (by decide), e] at this
  exact absurd this (by simp)

/-- `product(m)`, whenever it is defined, is the product of the active entries modulo `2 ^ w`. -/
theorem C41_product_masked_partial (I : Isa) {w : Nat} (hw : IntWidth w) (sgn : Bool) (x m : M128)
    {b : Nat → Bool} (hm : IsMask w m b) (r : BitVec w) (hr : vHProductMasked I sgn w x m = some r) :
    r = BitVec.ofInt w ((active (numbers sgn w x) (truths w b)).foldr (· * ·) 1) := by
  rw [C41_product_partial I hw sgn _ r hr]
  have h1 : val sgn (1#w) = 1 := by rcases hw with rfl | rfl <;> cases sgn <;> decide
  have := numbers_assign I hw sgn 1#w (set1 w 1#w) x m hm (fun i hi => lane_set1 _ hi) (op := (· * ·))
    (fun a => by rw [h1]; exact Int.one_mul a)
  rw [h1] at this
  rw [this]

/-- `r` is the least of the numbers `f i` of the active lanes `i < n`. -/
def IsMin (n : Nat) (b : Nat → Bool) (f : Nat → Int) (r : Int) : Prop :=
  (∃ i, i < n ∧ b i = true ∧ r = f i) ∧ ∀ i, i < n → b i = true → r ≤ f i

/-- `r` is the greatest of the numbers `f i` of the active lanes `i < n`. -/
def IsMax (n : Nat) (b : Nat → Bool) (f : Nat → Int) (r : Int) : Prop :=
  (∃ i, i < n ∧ b i = true ∧ r = f i) ∧ ∀ i, i < n → b i = true → f i ≤ r

private def gMin (sgn : Bool) {w : Nat} (a b : BitVec w) : BitVec w :=
  if val sgn b < val sgn a then b else a

private def gMax (sgn : Bool) {w : Nat} (a b : BitVec w) : BitVec w :=
  if val sgn b < val sgn a then a else b

private theorem vMin_op (I : Isa) (sgn : Bool) {w : Nat} (hw : IntWidth w) : LaneOp w (vMin I sgn w) (gMin sgn) := by
  intro a b i h
  have hc : w = 8 * (w / 8) ∧ 0 < w / 8 := by rcases hw with rfl | rfl <;> decide
  unfold vMin gMin val
  cases sgn
  · simp only [Bool.false_eq_true, if_false, Int.ofNat_lt]
    exact lane_vminEpu I hc.1 hc.2 h a b
  · simp only [if_true]
    exact lane_vminEpi I hc.1 h a b

private theorem vMax_op (I : Isa) (sgn : Bool) {w : Nat} (hw : IntWidth w) : LaneOp w (vMax I sgn w) (gMax sgn) := by
  intro a b i h
  have hc : w = 8 * (w / 8) ∧ 0 < w / 8 := by rcases hw with rfl | rfl <;> decide
  unfold vMax gMax val
  cases sgn
  · simp only [Bool.false_eq_true, if_false, Int.ofNat_lt]
    exact lane_vmaxEpu I hc.1 hc.2 h a b
  · simp only [if_true]
    exact lane_vmaxEpi I hc.1 h a b

private theorem val_gMin (sgn : Bool) {w : Nat} (a b : BitVec w) :
    val sgn (gMin sgn a b) = min (val sgn a) (val sgn b) := by
  unfold gMin; split <;> omega

private theorem val_gMax (sgn : Bool) {w : Nat} (a b : BitVec w) :
    val sgn (gMax sgn a b) = max (val sgn a) (val sgn b) := by
  unfold gMax; split <;> omega

private theorem hMin_lanes (I : Isa) {w : Nat} (hw : IntWidth w) (sgn : Bool) (x : M128) :
    (∃ i, i < 128 / w ∧ val sgn (vHMin I sgn w x) = val sgn (lane w x i)) ∧
    ∀ i, i < 128 / w → val sgn (vHMin I sgn w x) ≤ val sgn (lane w x i) := by
  rcases hw with rfl | rfl
  · have e := hReduce_16 (vMin_op I sgn (.inl rfl)) x
    have := tree_min 8 _ (fun i => val sgn (lane 16 x i)) (.inr ⟨rfl, rfl⟩)
    rw [← tree8_map (val_gMin sgn), ← e] at this
    exact this
  · have e := hReduce_32 (vMin_op I sgn (.inr rfl)) x
    have := tree_min 4 _ (fun i => val sgn (lane 32 x i)) (.inl ⟨rfl, rfl⟩)
    rw [← tree4_map (val_gMin sgn), ← e] at this
    exact this

private theorem hMax_lanes (I : Isa) {w : Nat} (hw : IntWidth w) (sgn : Bool) (x : M128) :
    (∃ i, i < 128 / w ∧ val sgn (vHMax I sgn w x) = val sgn (lane w x i)) ∧
    ∀ i, i < 128 / w → val sgn (lane w x i) ≤ val sgn (vHMax I sgn w x) := by
  rcases hw with rfl | rfl
  · have e := hReduce_16 (vMax_op I sgn (.inl rfl)) x
    have := tree_max 8 _ (fun i => val sgn (lane 16 x i)) (.inr ⟨rfl, rfl⟩)
    rw [← tree8_map (val_gMax sgn), ← e] at this
    exact this
  · have e := hReduce_32 (vMax_op I sgn (.inr rfl)) x
    have := tree_max 4 _ (fun i => val sgn (lane 32 x i)) (.inl ⟨rfl, rfl⟩)
    rw [← tree4_map (val_gMax sgn), ← e] at this
    exact this

/-- `min()` and `max()`. -/
theorem C41_minmax (I : Isa) {w : Nat} (hw : IntWidth w) (sgn : Bool) (x : M128) :
    IsMin (128 / w) (fun _ => true) (fun i => val sgn (lane w x i)) (val sgn (vHMin I sgn w x)) ∧
    IsMax (128 / w) (fun _ => true) (fun i => val sgn (lane w x i)) (val sgn (vHMax I sgn w x)) := by
  obtain ⟨⟨i, hi, e⟩, h⟩ := hMin_lanes I hw sgn x
  obtain ⟨⟨j, hj, e'⟩, h'⟩ := hMax_lanes I hw sgn x
  exact ⟨⟨⟨i, hi, rfl, e⟩, fun i hi _ => h i hi⟩, ⟨⟨j, hj, rfl, e'⟩, fun i hi _ => h' i hi⟩⟩

private theorem limits (sgn : Bool) {w i : Nat} (hw : IntWidth w) (hi : w * (i + 1) ≤ 128) (a : BitVec w) :
    val sgn a ≤ val sgn (lane w (vLimitMax sgn w) i) ∧
    lane w (vLimitMax sgn w) i = lane w (vLimitMax sgn w) 0 ∧
    val sgn (lane w (vLimitMin sgn w) i) ≤ val sgn a ∧
    lane w (vLimitMin sgn w) i = lane w (vLimitMin sgn w) 0 := by
  have h0 : w * (0 + 1) ≤ 128 := by rcases hw with rfl | rfl <;> decide
  cases sgn
  · simp only [vLimitMax, vLimitMin, Bool.false_eq_true, if_false, lane_allOnes hi, lane_allOnes h0,
      lane_zero, val]
    have := a.isLt
    refine ⟨?_, trivial, by simp, trivial⟩
    rw [BitVec.toNat_allOnes]; omega
  · simp only [vLimitMax, vLimitMin, if_true, srliEpi, lane_map1 _ _ hi, lane_map1 _ _ h0,
      lane_allOnes hi, lane_allOnes h0, lane_setmin hi, lane_setmin h0, val]
    have h1 := BitVec.toInt_lt (x := a)
    have h2 := BitVec.le_toInt (x := a)
    rcases hw with rfl | rfl
    · have e1 : ((BitVec.allOnes 16 >>> 1 : BitVec 16)).toInt = 32767 := by decide
      have e2 : (signBit 16).toInt = -32768 := by decide
      rw [e1, e2]
      exact ⟨by omega, trivial, by omega, trivial⟩
    · have e1 : ((BitVec.allOnes 32 >>> 1 : BitVec 32)).toInt = 2147483647 := by decide
      have e2 : (signBit 32).toInt = -2147483648 := by decide
      rw [e1, e2]
      exact ⟨by omega, trivial, by omega, trivial⟩

/-- `min(m)` and `max(m)` with at least one active lane. -/
theorem C41_minmax_masked (I : Isa) {w : Nat} (hw : IntWidth w) (sgn : Bool) (x m : M128) {b : Nat → Bool}
    (hm : IsMask w m b) (hb : ∃ i, i < 128 / w ∧ b i = true) :
    IsMin (128 / w) b (fun i => val sgn (lane w x i)) (val sgn (vHMinMasked I sgn w x m)) ∧
    IsMax (128 / w) b (fun i => val sgn (lane w x i)) (val sgn (vHMaxMasked I sgn w x m)) := by
  have hbd : ∀ i, i < 128 / w → w * (i + 1) ≤ 128 := by
    intro i hi; rcases hw with rfl | rfl <;> omega
  have hc : w = 8 * (w / 8) := by rcases hw with rfl | rfl <;> decide
  obtain ⟨j, hj, hbj⟩ := hb
  have l := limits sgn hw (hbd j hj) (lane w x j)
  constructor
  · refine masked_min (top := val sgn (lane w (vLimitMax sgn w) 0)) (fun i hi => ?_)
      (hMin_lanes I hw sgn _) (.inr ⟨j, hj, hbj, ?_⟩) (by omega)
    · rw [lane_vAssign I hc (by decide) (hbd i hi) _ _ _ hm,
        (limits sgn hw (hbd i hi) 0#w).2.1]
      cases b i <;> rfl
    · rw [← l.2.1]; exact l.1
  · refine masked_max (bot := val sgn (lane w (vLimitMin sgn w) 0)) (fun i hi => ?_)
      (hMax_lanes I hw sgn _) (.inr ⟨j, hj, hbj, ?_⟩) (by omega)
    · rw [lane_vAssign I hc (by decide) (hbd i hi) _ _ _ hm,
        (limits sgn hw (hbd i hi) 0#w).2.2.2]
      cases b i <;> rfl
    · rw [← l.2.2.2]; exact l.2.2.1

/-! ### float_v and double_v -/

theorem fval_fMin (F : Fmt) {w : Nat} (a b : BitVec w) (ha : isNaN F a = false) (hb : isNaN F b = false) :
    isNaN F (fMin F a b) = false ∧ fval F (fMin F a b) = min (fval F a) (fval F b) := by
  unfold fMin fLt
  rw [ha, hb]
  by_cases h : fval F a < fval F b
  · simp [h, ha]; omega
  · simp [h, hb]; omega

theorem fval_fMax (F : Fmt) {w : Nat} (a b : BitVec w) (ha : isNaN F a = false) (hb : isNaN F b = false) :
    isNaN F (fMax F a b) = false ∧ fval F (fMax F a b) = max (fval F a) (fval F b) := by
  unfold fMax fLt
  rw [ha, hb]
  by_cases h : fval F b < fval F a
  · simp [h, ha]; omega
  · simp [h, hb]; omega

theorem hReducePs_eq (op : BitVec 32 → BitVec 32 → BitVec 32) (a : M128) :
    hReducePs op a = op (op (lane 32 a 0) (lane 32 a 2)) (op (lane 32 a 1) (lane 32 a 3)) := by
  have hl : ∀ j, j < 2 → lane 32 (movehl a a) j = lane 32 a (2 + j) := by
    intro j hj
    have h0 : lane (32 * 2) (movehl a a) 0 = lane (32 * 2) a 1 := by
      unfold movehl; exact lane_ofLanes _ (by decide)
    have e1 := lane_lane 32 2 (movehl a a) 0 hj
    have e2 := lane_lane 32 2 a 1 hj
    rw [h0] at e1
    rw [e2] at e1
    have : 2 * 0 + j = j := by omega
    rw [this] at e1
    exact e1.symm
  unfold hReducePs
  simp only
  rw [lane_shufflePs _ _ _ (by decide), if_pos (by decide)]
  show op (lane 32 (map2 32 op a (movehl a a)) 0) (lane 32 (map2 32 op a (movehl a a)) 1) = _
  rw [lane_map2 _ _ _ (by decide), lane_map2 _ _ _ (by decide), hl 0 (by decide), hl 1 (by decide)]

theorem hReducePd_eq (op : BitVec 64 → BitVec 64 → BitVec 64) (a : M128) :
    hReducePd op a = op (lane 64 a 0) (lane 64 a 1) := by
  unfold hReducePd
  rw [lane_unpackhi _ _ (by decide)]; rfl

theorem psMin_lanes (x : M128) (hx : ∀ i, i < 4 → isNaN f32 (lane 32 x i) = false) :
    (∃ i, i < 4 ∧ fval f32 (hReducePs (fMin f32) x) = fval f32 (lane 32 x i)) ∧
    ∀ i, i < 4 → fval f32 (hReducePs (fMin f32) x) ≤ fval f32 (lane 32 x i) := by
  have h1 := fval_fMin f32 _ _ (hx 0 (by decide)) (hx 2 (by decide))
  have h2 := fval_fMin f32 _ _ (hx 1 (by decide)) (hx 3 (by decide))
  have h3 := fval_fMin f32 _ _ h1.1 h2.1
  rw [hReducePs_eq, h3.2, h1.2, h2.2]
  exact tree_min 4 _ (fun i => fval f32 (lane 32 x i)) (.inl ⟨rfl, rfl⟩)

theorem psMax_lanes (x : M128) (hx : ∀ i, i < 4 → isNaN f32 (lane 32 x i) = false) :
    (∃ i, i < 4 ∧ fval f32 (hReducePs (fMax f32) x) = fval f32 (lane 32 x i)) ∧
    ∀ i, i < 4 → fval f32 (lane 32 x i) ≤ fval f32 (hReducePs (fMax f32) x) := by
  have h1 := fval_fMax f32 _ _ (hx 0 (by decide)) (hx 2 (by decide))
  have h2 := fval_fMax f32 _ _ (hx 1 (by decide)) (hx 3 (by decide))
  have h3 := fval_fMax f32 _ _ h1.1 h2.1
  rw [hReducePs_eq, h3.2, h1.2, h2.2]
  exact tree_max 4 _ (fun i => fval f32 (lane 32 x i)) (.inl ⟨rfl, rfl⟩)

theorem pdMin_lanes (x : M128) (hx : ∀ i, i < 2 → isNaN f64 (lane 64 x i) = false) :
    (∃ i, i < 2 ∧ fval f64 (hReducePd (fMin f64) x) = fval f64 (lane 64 x i)) ∧
    ∀ i, i < 2 → fval f64 (hReducePd (fMin f64) x) ≤ fval f64 (lane 64 x i) := by
  rw [hReducePd_eq, (fval_fMin f64 _ _ (hx 0 (by decide)) (hx 1 (by decide))).2]
  refine ⟨?_, fun i hi => ?_⟩
  · rcases Int.le_total (fval f64 (lane 64 x 0)) (fval f64 (lane 64 x 1)) with h | h
    · exact ⟨0, by decide, by omega⟩
    · exact ⟨1, by decide, by omega⟩
  · match i, hi with | 0, _ => omega | 1, _ => omega

theorem pdMax_lanes (x : M128) (hx : ∀ i, i < 2 → isNaN f64 (lane 64 x i) = false) :
    (∃ i, i < 2 ∧ fval f64 (hReducePd (fMax f64) x) = fval f64 (lane 64 x i)) ∧
    ∀ i, i < 2 → fval f64 (lane 64 x i) ≤ fval f64 (hReducePd (fMax f64) x) := by
  rw [hReducePd_eq, (fval_fMax f64 _ _ (hx 0 (by decide)) (hx 1 (by decide))).2]
  refine ⟨?_, fun i hi => ?_⟩
  · rcases Int.le_total (fval f64 (lane 64 x 0)) (fval f64 (lane 64 x 1)) with h | h
    · exact ⟨1, by decide, by omega⟩
    · exact ⟨0, by decide, by omega⟩
  · match i, hi with | 0, _ => omega | 1, _ => omega

/-- `float_v::min()`, `float_v::max()`, `double_v::min()`, `double_v::max()` of vectors without NaN. -/
theorem C41_float_minmax (x : M128) :
    ((∀ i, i < 4 → isNaN f32 (lane 32 x i) = false) →
      IsMin 4 (fun _ => true) (fun i => fval f32 (lane 32 x i)) (fval f32 (hReducePs (fMin f32) x)) ∧
      IsMax 4 (fun _ => true) (fun i => fval f32 (lane 32 x i)) (fval f32 (hReducePs (fMax f32) x))) ∧
    ((∀ i, i < 2 → isNaN f64 (lane 64 x i) = false) →
      IsMin 2 (fun _ => true) (fun i => fval f64 (lane 64 x i)) (fval f64 (hReducePd (fMin f64) x)) ∧
      IsMax 2 (fun _ => true) (fun i => fval f64 (lane 64 x i)) (fval f64 (hReducePd (fMax f64) x))) := by
  have conv : ∀ {n : Nat} {f : Nat → Int} {r : Int}, ((∃ i, i < n ∧ r = f i) ∧ ∀ i, i < n → r ≤ f i) →
      IsMin n (fun _ => true) f r := by
    intro n f r ⟨⟨i, hi, e⟩, h⟩; exact ⟨⟨i, hi, rfl, e⟩, fun i hi _ => h i hi⟩
  have conv' : ∀ {n : Nat} {f : Nat → Int} {r : Int}, ((∃ i, i < n ∧ r = f i) ∧ ∀ i, i < n → f i ≤ r) →
      IsMax n (fun _ => true) f r := by
    intro n f r ⟨⟨i, hi, e⟩, h⟩; exact ⟨⟨i, hi, rfl, e⟩, fun i hi _ => h i hi⟩
  exact ⟨fun hx => ⟨conv (psMin_lanes x hx), conv' (psMax_lanes x hx)⟩,
    fun hx => ⟨conv (pdMin_lanes x hx), conv' (pdMax_lanes x hx)⟩⟩

/-- The start value of the masked minimum: the greatest finite number, or zero. -/
private theorem lane_fLimitMax (F : Fmt) {w i : Nat} (included : Bool) (hi : w * (i + 1) ≤ 128) :
    lane w (fLimitMax F w included) i = if included then mkFloat F w false (infMag F - 1) else 0#w := by
  cases included
  · exact lane_zero i
  · exact lane_set1 _ hi

private theorem lane_fLimitMin (F : Fmt) {w i : Nat} (included : Bool) (hi : w * (i + 1) ≤ 128) :
    lane w (fLimitMin F w included) i = if included then mkFloat F w false (2 ^ F.m) else 0#w := by
  cases included
  · exact lane_zero i
  · exact lane_set1 _ hi

private theorem lim32 (included : Bool) :
    isNaN f32 (if included then mkFloat f32 32 false (infMag f32 - 1) else 0#32) = false ∧
    isNaN f32 (if included then mkFloat f32 32 false (2 ^ f32.m) else 0#32) = false := by
  cases included <;> decide

private theorem lim64 (included : Bool) :
    isNaN f64 (if included then mkFloat f64 64 false (infMag f64 - 1) else 0#64) = false ∧
    isNaN f64 (if included then mkFloat f64 64 false (2 ^ f64.m) else 0#64) = false := by
  cases included <;> decide

/-- `float_v::min(m)` for active entries without NaN, if all lanes are active or an active entry is not
greater than the start value: the greatest finite number, or zero if `<Vc/limits>` is not included.
Missing: the other vectors (next theorem). -/
theorem C41_float_min_masked_partial (I : Isa) (included : Bool) (x m : M128) {b : Nat → Bool} (hm : IsMask 32 m b)
    (hx : ∀ i, i < 4 → b i = true → isNaN f32 (lane 32 x i) = false)
    (hb : (∀ i, i < 4 → b i = true) ∨ ∃ i, i < 4 ∧ b i = true ∧
      fval f32 (lane 32 x i) ≤ fval f32 (if included then 0x7f7fffff#32 else 0#32)) :
    IsMin 4 b (fun i => fval f32 (lane 32 x i)) (fval f32 (minMaskedPs I included x m)) := by
  have e : (if included then mkFloat f32 32 false (infMag f32 - 1) else 0#32) =
      (if included then 0x7f7fffff#32 else 0#32) := by cases included <;> decide
  have hl : ∀ i, i < 4 → lane 32 (vAssign I 32 (fLimitMax f32 32 included) x m) i =
      if b i then lane 32 x i else (if included then 0x7f7fffff#32 else 0#32) := by
    intro i hi
    rw [lane_vAssign I (v := 32) (c := 1) rfl (by decide) (by omega) _ _ _ hm,
      lane_fLimitMax _ _ (by omega), e]
  refine masked_min (top := fval f32 (if included then 0x7f7fffff#32 else 0#32)) (fun i hi => ?_)
    (psMin_lanes _ fun i hi => ?_) hb (by decide)
  · rw [hl i hi]; cases b i <;> rfl
  · rw [hl i hi]
    cases h : b i
    · rw [if_neg (by decide), ← e]; exact (lim32 included).1
    · exact hx i hi h

/-- `float_v::max(m)`, if all lanes are active or an active entry is not less than the start value: the
least positive normal number, or zero if `<Vc/limits>` is not included.  Missing: the other
vectors (below). -/
theorem C41_float_max_masked_partial (I : Isa) (included : Bool) (x m : M128) {b : Nat → Bool} (hm : IsMask 32 m b)
    (hx : ∀ i, i < 4 → b i = true → isNaN f32 (lane 32 x i) = false)
    (hb : (∀ i, i < 4 → b i = true) ∨ ∃ i, i < 4 ∧ b i = true ∧
      fval f32 (if included then 0x00800000#32 else 0#32) ≤ fval f32 (lane 32 x i)) :
    IsMax 4 b (fun i => fval f32 (lane 32 x i)) (fval f32 (maxMaskedPs I included x m)) := by
  have e : (if included then mkFloat f32 32 false (2 ^ f32.m) else 0#32) =
      (if included then 0x00800000#32 else 0#32) := by cases included <;> decide
  have hl : ∀ i, i < 4 → lane 32 (vAssign I 32 (fLimitMin f32 32 included) x m) i =
      if b i then lane 32 x i else (if included then 0x00800000#32 else 0#32) := by
    intro i hi
    rw [lane_vAssign I (v := 32) (c := 1) rfl (by decide) (by omega) _ _ _ hm,
      lane_fLimitMin _ _ (by omega), e]
  refine masked_max (bot := fval f32 (if included then 0x00800000#32 else 0#32)) (fun i hi => ?_)
    (psMax_lanes _ fun i hi => ?_) hb (by decide)
  · rw [hl i hi]; cases b i <;> rfl
  · rw [hl i hi]
    cases h : b i
    · rw [if_neg (by decide), ← e]; exact (lim32 included).2
    · exact hx i hi h

/-- `double_v::min(m)` and `double_v::max(m)`, with the same restrictions. -/
theorem C41_double_minmax_masked_partial (I : Isa) (included : Bool) (x m : M128) {b : Nat → Bool}
    (hm : IsMask 64 m b) (hx : ∀ i, i < 2 → b i = true → isNaN f64 (lane 64 x i) = false) :
    ((∀ i, i < 2 → b i = true) ∨ (∃ i, i < 2 ∧ b i = true ∧
      fval f64 (lane 64 x i) ≤ fval f64 (if included then 0x7fefffffffffffff#64 else 0#64)) →
      IsMin 2 b (fun i => fval f64 (lane 64 x i)) (fval f64 (minMaskedPd I included x m))) ∧
    ((∀ i, i < 2 → b i = true) ∨ (∃ i, i < 2 ∧ b i = true ∧
      fval f64 (if included then 0x0010000000000000#64 else 0#64) ≤ fval f64 (lane 64 x i)) →
      IsMax 2 b (fun i => fval f64 (lane 64 x i)) (fval f64 (maxMaskedPd I included x m))) := by
  have e1 : (if included then mkFloat f64 64 false (infMag f64 - 1) else 0#64) =
      (if included then 0x7fefffffffffffff#64 else 0#64) := by cases included <;> decide
  have e2 : (if included then mkFloat f64 64 false (2 ^ f64.m) else 0#64) =
      (if included then 0x0010000000000000#64 else 0#64) := by cases included <;> decide
  have hl1 : ∀ i, i < 2 → lane 64 (vAssign I 64 (fLimitMax f64 64 included) x m) i =
      if b i then lane 64 x i else (if included then 0x7fefffffffffffff#64 else 0#64) := by
    intro i hi
    rw [lane_vAssign I (v := 64) (c := 1) rfl (by decide) (by omega) _ _ _ hm,
      lane_fLimitMax _ _ (by omega), e1]
  have hl2 : ∀ i, i < 2 → lane 64 (vAssign I 64 (fLimitMin f64 64 included) x m) i =
      if b i then lane 64 x i else (if included then 0x0010000000000000#64 else 0#64) := by
    intro i hi
    rw [lane_vAssign I (v := 64) (c := 1) rfl (by decide) (by omega) _ _ _ hm,
      lane_fLimitMin _ _ (by omega), e2]
  constructor
  · intro hb
    refine masked_min (top := fval f64 (if included then 0x7fefffffffffffff#64 else 0#64)) (fun i hi => ?_)
      (pdMin_lanes _ fun i hi => ?_) hb (by decide)
    · rw [hl1 i hi]; cases b i <;> rfl
    · rw [hl1 i hi]
      cases h : b i
      · rw [if_neg (by decide), ← e1]; exact (lim64 included).1
      · exact hx i hi h
  · intro hb
    refine masked_max (bot := fval f64 (if included then 0x0010000000000000#64 else 0#64)) (fun i hi => ?_)
      (pdMax_lanes _ fun i hi => ?_) hb (by decide)
    · rw [hl2 i hi]; cases b i <;> rfl
    · rw [hl2 i hi]
      cases h : b i
      · rw [if_neg (by decide), ← e2]; exact (lim64 included).2
      · exact hx i hi h

/-- The mask with only lane 0 active. -/
private def mask0 : M128 := ofLanes 32 fun i => laneMask (decide (i = 0))

private theorem isMask0 : IsMask 32 mask0 (fun i => decide (i = 0)) :=
  isMask_of fun _ hi => lane_ofLanes _ hi

private theorem masked0 (I : Isa) (op : BitVec 32 → BitVec 32 → BitVec 32) (s x : BitVec 32) :
    hReducePs op (vAssign I 32 (set1 32 s) (set1 32 x) mask0) = op (op x s) (op s s) := by
  have hl : ∀ i, i < 4 → lane 32 (vAssign I 32 (set1 32 s) (set1 32 x) mask0) i =
      if decide (i = 0) = true then x else s := by
    intro i hi
    rw [lane_vAssign I (v := 32) (c := 1) rfl (by decide) (by omega) _ _ _ isMask0,
      lane_set1 _ (by omega), lane_set1 _ (by omega)]
  rw [hReducePs_eq, hl 0 (by decide), hl 1 (by decide), hl 2 (by decide), hl 3 (by decide)]
  rfl

/-- Without `<Vc/limits>`, `float_v::min(m)` of positive entries is 0: here all entries are 1.0 and
lane 0 is active. -/
theorem C41_float_min_masked_violated : ¬ ∀ (I : Isa) (included : Bool) (x m : M128) (b : Nat → Bool),
    IsMask 32 m b → (∃ i, i < 4 ∧ b i = true) → (∀ i, i < 4 → isNaN f32 (lane 32 x i) = false) →
    IsMin 4 b (fun i => fval f32 (lane 32 x i)) (fval f32 (minMaskedPs I included x m)) := by
  intro h
  obtain ⟨⟨i, hi, -, e⟩, -⟩ := h sse2 false (set1 32 0x3f800000#32) mask0 _ isMask0 ⟨0, by decide, rfl⟩
    (fun i hi => by rw [lane_set1 _ (by omega)]; decide)
  have e0 : fLimitMax f32 32 false = set1 32 0#32 := by
    apply reg_ext 32 (by decide) (by decide)
    intro i hi
    rw [lane_fLimitMax f32 (i := i) false (by omega), lane_set1 _ (by omega)]; rfl
  rw [minMaskedPs, e0, masked0] at e
  simp only at e
  rw [lane_set1 _ (by omega)] at e
  exact absurd e (by decide +kernel)

/-- `float_v::max(m)` of negative entries is positive or zero, with and without `<Vc/limits>`: here all
entries are -1.0 and lane 0 is active. -/
theorem C41_float_max_masked_violated (included : Bool) : ¬ ∀ (I : Isa) (x m : M128) (b : Nat → Bool),
    IsMask 32 m b → (∃ i, i < 4 ∧ b i = true) → (∀ i, i < 4 → isNaN f32 (lane 32 x i) = false) →
    IsMax 4 b (fun i => fval f32 (lane 32 x i)) (fval f32 (maxMaskedPs I included x m)) := by
  intro h
  obtain ⟨⟨i, hi, -, e⟩, -⟩ := h sse2 (set1 32 0xbf800000#32) mask0 _ isMask0 ⟨0, by decide, rfl⟩
    (fun i hi => by rw [lane_set1 _ (by omega)]; decide)
  have e0 : fLimitMin f32 32 included =
      set1 32 (if included then mkFloat f32 32 false (2 ^ f32.m) else 0#32) := by
    apply reg_ext 32 (by decide) (by decide)
    intro i hi
    rw [lane_fLimitMin f32 (i := i) included (by omega), lane_set1 _ (by omega)]
  rw [maxMaskedPs, e0, masked0] at e
  simp only at e
  rw [lane_set1 _ (by omega)] at e
  cases included <;> exact absurd e (by decide +kernel)

/-! ### partialSum -/

/-- `partialSum()` of the integer vectors: entry `i` is the sum of the entries `0 .. i` modulo `2 ^ w`. -/
theorem C41_partialSum {bytes size : Nat} (h : SseShape bytes size) (sgn : Bool) (x : M128) (i : Nat)
    (hi : i < size) :
    lane (8 * bytes) (vPartialSum bytes size (addEpi (8 * bytes)) x) i =
      BitVec.ofInt (8 * bytes) (((numbers sgn (8 * bytes) x).take (i + 1)).foldr (· + ·) 0) := by
  have hs : bytes * size = 16 := by rcases h with ⟨rfl, rfl⟩ | ⟨rfl, rfl⟩ | ⟨rfl, rfl⟩ <;> rfl
  have h8 : size ≤ 8 := by rcases h with ⟨rfl, rfl⟩ | ⟨rfl, rfl⟩ | ⟨rfl, rfl⟩ <;> decide
  rw [foldr_add_ofInt, List.map_take, numbers, List.map_map]
  have e : (BitVec.ofInt (8 * bytes) ∘ fun i => val sgn (lane (8 * bytes) x i)) = lane (8 * bytes) x := by
    funext i; exact ofInt_val_red sgn _
  rw [e]
  let st (f : Nat → BitVec (8 * bytes)) (k j : Nat) : BitVec (8 * bytes) :=
    f j + if k ≤ j then f (j - k) else 0#(8 * bytes)
  have step : ∀ (y : M128) (f : Nat → BitVec (8 * bytes)) (kk : Int) (k : Nat), kk = -(k : Int) →
      (∀ j, j < size → lane (8 * bytes) y j = f j) →
      ∀ j, j < size → lane (8 * bytes) (addEpi (8 * bytes) y (vShifted bytes y kk)) j = st f k j := by
    intro y f kk k hkk hf j hj
    rw [addEpi, lane_map2 _ _ _ (lane_bound hs hj), lane_vShifted hs h8 y _ hj, hf j hj]
    unfold shiftLane
    show _ = _ + _
    congr 1
    by_cases hk : k ≤ j
    · rw [if_pos (by omega), if_pos hk]
      simp only
      rw [hf _ (by omega)]
      congr 1; omega
    · rw [if_neg (by omega), if_neg hk]
  have h1 := step x (lane (8 * bytes) x) (-1) 1 rfl (fun _ _ => rfl)
  have h2 := step _ _ (-2) 2 rfl h1
  have h3 := step _ _ (-4) 4 rfl h2
  unfold vPartialSum
  rcases h with ⟨rfl, rfl⟩ | ⟨rfl, rfl⟩ | ⟨rfl, rfl⟩
  · simp only [Nat.reduceLT, if_true, if_false]
    rw [h1 i hi]
    match i, hi with
    | 0, _ => simp [List.range_succ, st]
    | 1, _ => simp [List.range_succ, st]; ac_rfl
  · simp only [Nat.reduceLT, if_true, if_false]
    rw [h2 i hi]
    match i, hi with
    | 0, _ => simp [List.range_succ, st]
    | 1, _ => simp [List.range_succ, st]; ac_rfl
    | 2, _ => simp [List.range_succ, st]; ac_rfl
    | 3, _ => simp [List.range_succ, st]; ac_rfl
  · simp only [Nat.reduceLT, if_true, if_false]
    rw [h3 i hi]
    match i, hi with
    | 0, _ => simp [List.range_succ, st]
    | 1, _ => simp [List.range_succ, st]; ac_rfl
    | 2, _ => simp [List.range_succ, st]; ac_rfl
    | 3, _ => simp [List.range_succ, st]; ac_rfl
    | 4, _ => simp [List.range_succ, st]; ac_rfl
    | 5, _ => simp [List.range_succ, st]; ac_rfl
    | 6, _ => simp [List.range_succ, st]; ac_rfl
    | 7, _ => simp [List.range_succ, st]; ac_rfl

/-! ### Examples -/

/-- int_v with the entries 7, -3, -5, 2. -/
private def exInt : M128 := ofLanes 32 fun i => if i = 0 then 7#32 else if i = 1 then -3#32 else if i = 2 then -5#32 else 2#32

private theorem exInt_numbers : numbers true 32 exInt = [7, -3, -5, 2] := by
  show [val true (lane 32 exInt 0), val true (lane 32 exInt 1), val true (lane 32 exInt 2),
    val true (lane 32 exInt 3)] = _
  unfold exInt
  rw [lane_ofLanes _ (by decide), lane_ofLanes _ (by decide), lane_ofLanes _ (by decide),
    lane_ofLanes _ (by decide)]
  decide

private theorem exMask : IsMask 32 (maskGenerate 32 fun i => i == 1 || i == 2) (fun i => i == 1 || i == 2) :=
  isMask_of fun _ hi => lane_ofLanes _ hi

example : vHSum 32 exInt = 1#32 ∧
    vHSumMasked sse2 32 exInt (maskGenerate 32 fun i => i == 1 || i == 2) = BitVec.ofInt 32 (-8) := by
  refine ⟨?_, ?_⟩
  · rw [C41_sum (.inr rfl) true, exInt_numbers]; decide
  · rw [C41_sum_masked sse2 (.inr rfl) true _ _ exMask, exInt_numbers]; decide

example : val true (vHMinMasked sse2 true 32 exInt (maskGenerate 32 fun i => i == 1 || i == 2)) = -5 ∧
    val true (vHMaxMasked sse2 true 32 exInt (maskGenerate 32 fun i => i == 1 || i == 2)) = -3 := by
  have h := C41_minmax_masked sse2 (.inr rfl) true exInt _ exMask ⟨1, by decide, rfl⟩
  have e1 : val true (lane 32 exInt 1) = -3 := by unfold exInt; rw [lane_ofLanes _ (by decide)]; decide
  have e2 : val true (lane 32 exInt 2) = -5 := by unfold exInt; rw [lane_ofLanes _ (by decide)]; decide
  have hx : ∀ i, i < 128 / 32 → (i == 1 || i == 2) = true → i = 1 ∨ i = 2 := by
    intro i _ h; simpa using h
  obtain ⟨⟨⟨i, hi, hb, e⟩, h1⟩, ⟨⟨j, hj, hb', e'⟩, h2⟩⟩ := h
  have a := h1 2 (by decide) rfl
  have b := h2 1 (by decide) rfl
  simp only at a b e e'
  refine ⟨?_, ?_⟩
  · rcases hx i hi hb with rfl | rfl <;> omega
  · rcases hx j hj hb' with rfl | rfl <;> omega

example : ∃ r, vHProduct sse2 true 32 exInt = some r ∧ r = 210#32 := by
  have : vHProduct sse2 true 32 exInt = some 210#32 := by
    unfold vHProduct exInt
    rw [if_pos ⟨rfl, rfl⟩, if_pos rfl, lane_ofLanes _ (by decide), lane_ofLanes _ (by decide),
      lane_ofLanes _ (by decide), lane_ofLanes _ (by decide)]
    decide
  exact ⟨_, this, rfl⟩

example : lane 32 (vPartialSum 4 4 (addEpi 32) exInt) 2 = BitVec.ofInt 32 (-1) := by
  refine (C41_partialSum (.inr (.inl ⟨rfl, rfl⟩)) true exInt 2 (by decide)).trans ?_
  show BitVec.ofInt 32 (((numbers true 32 exInt).take 3).foldr (· + ·) 0) = _
  rw [exInt_numbers]; decide

/-- Entries -1.0 in all lanes, lane 0 active: `min(m)` is -1.0 with every start value. -/
example (I : Isa) (included : Bool) :
    IsMin 4 (fun i => decide (i = 0)) (fun i => fval f32 (lane 32 (set1 32 0xbf800000#32 : M128) i))
      (fval f32 (minMaskedPs I included (set1 32 0xbf800000#32) mask0)) :=
  C41_float_min_masked_partial I included _ _ isMask0
    (fun i hi _ => by rw [lane_set1 _ (by omega)]; decide)
    (.inr ⟨0, by decide, rfl, by rw [lane_set1 _ (by decide)]; cases included <;> decide +kernel⟩)

/-- Entries 1.0 in all lanes, lane 0 active: `max(m)` is 1.0 with every start value. -/
example (I : Isa) (included : Bool) :
    IsMax 4 (fun i => decide (i = 0)) (fun i => fval f32 (lane 32 (set1 32 0x3f800000#32 : M128) i))
      (fval f32 (maxMaskedPs I included (set1 32 0x3f800000#32) mask0)) :=
  C41_float_max_masked_partial I included _ _ isMask0
    (fun i hi _ => by rw [lane_set1 _ (by omega)]; decide)
    (.inr ⟨0, by decide, rfl, by rw [lane_set1 _ (by decide)]; cases included <;> decide +kernel⟩)

example : (∀ i, i < 4 → isNaN f32 (lane 32 (set1 32 0x3f800000#32 : M128) i) = false) ∧
    (∀ i, i < 2 → isNaN f64 (lane 64 (set1 64 0x3ff0000000000000#64 : M128) i) = false) :=
  ⟨fun i hi => by rw [lane_set1 _ (by omega)]; decide, fun i hi => by rw [lane_set1 _ (by omega)]; decide⟩

end Vc.Prop
