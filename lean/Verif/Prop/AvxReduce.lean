import Verif.Lemma.AvxReduce
import Verif.Prop.SseReduce
import Verif.Prop.AvxInt
import Verif.Lemma.AvxShuffle

/-! # C41: reductions of the AVX vectors -/

namespace Vc.Prop

open Vc.Model Vc.Spec Vc.Lemma

/-- The numbers in the lanes of an AVX integer vector. -/
def numbers256 (sgn : Bool) (w : Nat) (x : M256) : List Int :=
  (List.range (256 / w)).map fun i => val sgn (Model.lane w x i)

/-- The truth values of the lanes of an AVX mask. -/
def truths256 (w : Nat) (b : Nat → Bool) : List Bool := (List.range (256 / w)).map b

private theorem numbers_lanes (sgn : Bool) (w : Nat) (x : M256) :
    (numbers256 sgn w x).map (BitVec.ofInt w) = (List.range (256 / w)).map (Model.lane w x) := by
  rw [numbers256, List.map_map]
  congr 1
  funext i; exact ofInt_val_red sgn _

/-- `sum()` is the sum of the entries modulo `2 ^ w`. -/
theorem C41_avx_sum {w : Nat} (hw : IntWidth w) (sgn : Bool) (x : M256) :
    aHSum w x = BitVec.ofInt w ((numbers256 sgn w x).foldr (· + ·) 0) := by
  rw [foldr_add_ofInt, numbers_lanes]
  unfold aHSum
  rcases hw with rfl | rfl
  · rw [hFold_16 (addEpi_op 16)]
    have hl : ∀ i, i < 8 → Model.lane 16 (addEpi 16 (lo128 x) (hi128 x)) i = Model.lane 16 x i + Model.lane 16 x (8 + i) :=
      fun i hi => by
        rw [addEpi_op 16 _ _ i (by omega), lane_lo128 (w := 16) (k := 8) rfl _ hi, lane_hi128 (w := 16) (k := 8) rfl _ hi]
    unfold tree8
    rw [hl 0 (by decide), hl 1 (by decide), hl 2 (by decide), hl 3 (by decide), hl 4 (by decide), hl 5 (by decide),
      hl 6 (by decide), hl 7 (by decide)]
    generalize Model.lane 16 x = f
    show _ = f 0 + (f 1 + (f 2 + (f 3 + (f 4 + (f 5 + (f 6 + (f 7 + (f 8 + (f 9 + (f 10 + (f 11 + (f 12 + (f 13 +
      (f 14 + (f 15 + 0#16)))))))))))))))
    simp only [BitVec.add_zero]; ac_rfl
  · rw [hFold_32 (addEpi_op 32)]
    have hl : ∀ i, i < 4 → Model.lane 32 (addEpi 32 (lo128 x) (hi128 x)) i = Model.lane 32 x i + Model.lane 32 x (4 + i) :=
      fun i hi => by
        rw [addEpi_op 32 _ _ i (by omega), lane_lo128 (w := 32) (k := 4) rfl _ hi, lane_hi128 (w := 32) (k := 4) rfl _ hi]
    unfold tree4
    rw [hl 0 (by decide), hl 1 (by decide), hl 2 (by decide), hl 3 (by decide)]
    generalize Model.lane 32 x = f
    show _ = f 0 + (f 1 + (f 2 + (f 3 + (f 4 + (f 5 + (f 6 + (f 7 + 0#32)))))))
    simp only [BitVec.add_zero]; ac_rfl

/-- `product()` is the product of the entries modulo `2 ^ w`. -/
theorem C41_avx_product (I : Isa) {w : Nat} (hw : IntWidth w) (sgn : Bool) (x : M256) :
    aHProduct I w x = BitVec.ofInt w ((numbers256 sgn w x).foldr (· * ·) 1) := by
  rw [foldr_mul_ofInt, numbers_lanes]
  unfold aHProduct
  rcases hw with rfl | rfl
  · rw [hFold_16 (vMul_op I (.inl rfl))]
    have hl : ∀ i, i < 8 → Model.lane 16 (vMul I 16 (lo128 x) (hi128 x)) i = Model.lane 16 x i * Model.lane 16 x (8 + i) :=
      fun i hi => by
        rw [vMul_op I (.inl rfl) _ _ i (by omega), lane_lo128 (w := 16) (k := 8) rfl _ hi,
          lane_hi128 (w := 16) (k := 8) rfl _ hi]
    unfold tree8
    rw [hl 0 (by decide), hl 1 (by decide), hl 2 (by decide), hl 3 (by decide), hl 4 (by decide), hl 5 (by decide),
      hl 6 (by decide), hl 7 (by decide)]
    generalize Model.lane 16 x = f
    show _ = f 0 * (f 1 * (f 2 * (f 3 * (f 4 * (f 5 * (f 6 * (f 7 * (f 8 * (f 9 * (f 10 * (f 11 * (f 12 * (f 13 *
      (f 14 * (f 15 * 1#16)))))))))))))))
    simp only [BitVec.mul_one]; ac_rfl
  · rw [hFold_32 (vMul_op I (.inr rfl))]
    have hl : ∀ i, i < 4 → Model.lane 32 (vMul I 32 (lo128 x) (hi128 x)) i = Model.lane 32 x i * Model.lane 32 x (4 + i) :=
      fun i hi => by
        rw [vMul_op I (.inr rfl) _ _ i (by omega), lane_lo128 (w := 32) (k := 4) rfl _ hi,
          lane_hi128 (w := 32) (k := 4) rfl _ hi]
    unfold tree4
    rw [hl 0 (by decide), hl 1 (by decide), hl 2 (by decide), hl 3 (by decide)]
    generalize Model.lane 32 x = f
    show _ = f 0 * (f 1 * (f 2 * (f 3 * (f 4 * (f 5 * (f 6 * (f 7 * 1#32)))))))
    simp only [BitVec.mul_one]; ac_rfl

private theorem numbers_assign256 (avx2 : Bool) {w : Nat} (hw : IntWidth w) (sgn : Bool) (e : BitVec w) (tmp x m : M256)
    {b : Nat → Bool} (hm : IsMask w m b) (ht : ∀ i, w * (i + 1) ≤ 256 → Model.lane w tmp i = e) {op : Int → Int → Int}
    (hop : ∀ a, op (val sgn e) a = a) :
    (numbers256 sgn w (avxAssign avx2 8 tmp x m)).foldr op (val sgn e) =
      (active (numbers256 sgn w x) (truths256 w b)).foldr op (val sgn e) := by
  rw [active_foldr hop _ _ (by simp [numbers256, truths256])]
  congr 1
  rw [numbers256, truths256, numbers256, List.zip_map', List.map_map]
  apply List.map_congr_left
  intro i hi
  have hi : w * (i + 1) ≤ 256 := by
    rw [List.mem_range] at hi
    rcases hw with rfl | rfl <;> omega
  rw [lane_avxAssign8 avx2 hw hi _ _ _ hm, ht i hi]
  simp only [Function.comp]
  cases b i <;> rfl

/-- `sum(m)` is the sum of the active entries modulo `2 ^ w`. -/
theorem C41_avx_sum_masked (avx2 : Bool) {w : Nat} (hw : IntWidth w) (sgn : Bool) (x m : M256) {b : Nat → Bool}
    (hm : IsMask w m b) :
    aHSumMasked avx2 w x m =
      BitVec.ofInt w ((active (numbers256 sgn w x) (truths256 w b)).foldr (· + ·) 0) := by
  unfold aHSumMasked
  rw [C41_avx_sum hw sgn]
  have h0 : val sgn (0#w) = 0 := by cases sgn <;> simp [val]
  have := numbers_assign256 avx2 hw sgn 0#w 0#256 x m hm (fun i _ => lane_zero i) (op := (· + ·))
    (fun a => by rw [h0]; exact Int.zero_add a)
  rw [h0] at this
  rw [this]

/-- `product(m)` is the product of the active entries modulo `2 ^ w`. -/
theorem C41_avx_product_masked (I : Isa) (avx2 : Bool) {w : Nat} (hw : IntWidth w) (sgn : Bool) (x m : M256)
    {b : Nat → Bool} (hm : IsMask w m b) :
    aHProductMasked I avx2 w x m =
      BitVec.ofInt w ((active (numbers256 sgn w x) (truths256 w b)).foldr (· * ·) 1) := by
  unfold aHProductMasked
  rw [C41_avx_product I hw sgn]
  have h1 : val sgn (1#w) = 1 := by rcases hw with rfl | rfl <;> cases sgn <;> decide
  have := numbers_assign256 avx2 hw sgn 1#w (set1 w 1#w) x m hm (fun i hi => lane_set1 _ hi) (op := (· * ·))
    (fun a => by rw [h1]; exact Int.one_mul a)
  rw [h1] at this
  rw [this]

private theorem strip {n : Nat} {f : Nat → Int} {r : Int} :
    (IsMin n (fun _ => true) f r ↔ (∃ i, i < n ∧ r = f i) ∧ ∀ i, i < n → r ≤ f i) ∧
    (IsMax n (fun _ => true) f r ↔ (∃ i, i < n ∧ r = f i) ∧ ∀ i, i < n → f i ≤ r) := by
  constructor <;> constructor
  · rintro ⟨⟨i, hi, -, e⟩, h⟩; exact ⟨⟨i, hi, e⟩, fun i hi => h i hi rfl⟩
  · rintro ⟨⟨i, hi, e⟩, h⟩; exact ⟨⟨i, hi, rfl, e⟩, fun i hi _ => h i hi⟩
  · rintro ⟨⟨i, hi, -, e⟩, h⟩; exact ⟨⟨i, hi, e⟩, fun i hi => h i hi rfl⟩
  · rintro ⟨⟨i, hi, e⟩, h⟩; exact ⟨⟨i, hi, rfl, e⟩, fun i hi _ => h i hi⟩

private theorem double_size {w : Nat} (hw : IntWidth w) : w * (128 / w) = 128 ∧ 256 / w = 2 * (128 / w) := by
  rcases hw with rfl | rfl <;> decide

private theorem aHMin_lanes (I : Isa) {w : Nat} (hw : IntWidth w) (sgn : Bool) (x : M256) :
    (∃ i, i < 256 / w ∧ val sgn (aHMin I sgn w x) = val sgn (Model.lane w x i)) ∧
    ∀ i, i < 256 / w → val sgn (aHMin I sgn w x) ≤ val sgn (Model.lane w x i) := by
  obtain ⟨hk, h2⟩ := double_size hw
  rw [h2]
  refine min_halves (fun i hi => ?_) (strip.1.1 (C41_minmax I hw sgn (vMin I sgn w (lo128 x) (hi128 x))).1)
  rw [C34_min I hw sgn _ _ (lane_room hk hi), lane_lo128 hk _ hi, lane_hi128 hk _ hi]

private theorem aHMax_lanes (I : Isa) {w : Nat} (hw : IntWidth w) (sgn : Bool) (x : M256) :
    (∃ i, i < 256 / w ∧ val sgn (aHMax I sgn w x) = val sgn (Model.lane w x i)) ∧
    ∀ i, i < 256 / w → val sgn (Model.lane w x i) ≤ val sgn (aHMax I sgn w x) := by
  obtain ⟨hk, h2⟩ := double_size hw
  rw [h2]
  refine max_halves (fun i hi => ?_) (strip.2.1 (C41_minmax I hw sgn (vMax I sgn w (lo128 x) (hi128 x))).2)
  rw [C34_max I hw sgn _ _ (lane_room hk hi), lane_lo128 hk _ hi, lane_hi128 hk _ hi]

/-- `min()` and `max()`. -/
theorem C41_avx_minmax (I : Isa) {w : Nat} (hw : IntWidth w) (sgn : Bool) (x : M256) :
    IsMin (256 / w) (fun _ => true) (fun i => val sgn (Model.lane w x i)) (val sgn (aHMin I sgn w x)) ∧
    IsMax (256 / w) (fun _ => true) (fun i => val sgn (Model.lane w x i)) (val sgn (aHMax I sgn w x)) :=
  ⟨strip.1.2 (aHMin_lanes I hw sgn x), strip.2.2 (aHMax_lanes I hw sgn x)⟩

private theorem limits256 (sgn : Bool) {w i : Nat} (hw : IntWidth w) (hi : w * (i + 1) ≤ 256) (a : BitVec w) :
    val sgn a ≤ val sgn (Model.lane w (aLimitMax sgn w) i) ∧
    Model.lane w (aLimitMax sgn w) i = Model.lane w (aLimitMax sgn w) 0 ∧
    val sgn (Model.lane w (aLimitMin sgn w) i) ≤ val sgn a ∧
    Model.lane w (aLimitMin sgn w) i = Model.lane w (aLimitMin sgn w) 0 := by
  have h0 : w * (0 + 1) ≤ 256 := by rcases hw with rfl | rfl <;> decide
  cases sgn
  · simp only [aLimitMax, aLimitMin, Bool.false_eq_true, if_false, lane_allOnes hi, lane_allOnes h0,
      lane_zero, val]
    have := a.isLt
    refine ⟨?_, trivial, by simp, trivial⟩
    rw [BitVec.toNat_allOnes]; omega
  · simp only [aLimitMax, aLimitMin, if_true, srliEpi, lane_map1 _ _ hi, lane_map1 _ _ h0,
      lane_allOnes hi, lane_allOnes h0, setmin256, lane_set1 _ hi, lane_set1 _ h0, val]
    have h1 := BitVec.toInt_lt (x := a)
    have h2 := BitVec.le_toInt (x := a)
    rcases hw with rfl | rfl
    · have e1 : ((BitVec.allOnes 16 >>> 1 : BitVec 16)).toInt = 32767 := by decide
      have e2 : (signBit 16).toInt = -32768 := by decide
      rw [e1, e2]
      exact ⟨by omega, trivial, by omega, trivial⟩
    · have e1 : ((BitVec.allOnes 32 >>> 1 : BitVec 32)).toInt = 2147483647 := by decide
      have e2 : (signBit 32).toInt = -2147483648 := by decide
      rw [e1, e2]
      exact ⟨by omega, trivial, by omega, trivial⟩

/-- `min(m)` and `max(m)` with at least one active lane. -/
theorem C41_avx_minmax_masked (I : Isa) (avx2 : Bool) {w : Nat} (hw : IntWidth w) (sgn : Bool) (x m : M256)
    {b : Nat → Bool} (hm : IsMask w m b) (hb : ∃ i, i < 256 / w ∧ b i = true) :
    IsMin (256 / w) b (fun i => val sgn (Model.lane w x i)) (val sgn (aHMinMasked I avx2 sgn w x m)) ∧
    IsMax (256 / w) b (fun i => val sgn (Model.lane w x i)) (val sgn (aHMaxMasked I avx2 sgn w x m)) := by
  have hbd : ∀ i, i < 256 / w → w * (i + 1) ≤ 256 := by
    intro i hi; rcases hw with rfl | rfl <;> omega
  obtain ⟨j, hj, hbj⟩ := hb
  have l := limits256 sgn hw (hbd j hj) (Model.lane w x j)
  constructor
  · refine masked_min (top := val sgn (Model.lane w (aLimitMax sgn w) 0)) (fun i hi => ?_)
      (aHMin_lanes I hw sgn _) (.inr ⟨j, hj, hbj, ?_⟩) (by omega)
    · rw [lane_avxAssign8 avx2 hw (hbd i hi) _ _ _ hm, (limits256 sgn hw (hbd i hi) 0#w).2.1]
      cases b i <;> rfl
    · rw [← l.2.1]; exact l.1
  · refine masked_max (bot := val sgn (Model.lane w (aLimitMin sgn w) 0)) (fun i hi => ?_)
      (aHMax_lanes I hw sgn _) (.inr ⟨j, hj, hbj, ?_⟩) (by omega)
    · rw [lane_avxAssign8 avx2 hw (hbd i hi) _ _ _ hm, (limits256 sgn hw (hbd i hi) 0#w).2.2.2]
      cases b i <;> rfl
    · rw [← l.2.2.2]; exact l.2.2.1

/-! ### float_v and double_v -/

theorem aPs_lanes (x : M256) (hx : ∀ i, i < 8 → isNaN f32 (Model.lane 32 x i) = false) :
    ((∃ i, i < 8 ∧ fval f32 (aHReducePs (fMin f32) x) = fval f32 (Model.lane 32 x i)) ∧
      ∀ i, i < 8 → fval f32 (aHReducePs (fMin f32) x) ≤ fval f32 (Model.lane 32 x i)) ∧
    ((∃ i, i < 8 ∧ fval f32 (aHReducePs (fMax f32) x) = fval f32 (Model.lane 32 x i)) ∧
      ∀ i, i < 8 → fval f32 (Model.lane 32 x i) ≤ fval f32 (aHReducePs (fMax f32) x)) := by
  have hl : ∀ (op : BitVec 32 → BitVec 32 → BitVec 32) i, i < 4 →
      Model.lane 32 (map2 32 op (lo128 x) (hi128 x)) i = op (Model.lane 32 x i) (Model.lane 32 x (4 + i)) :=
    fun op i hi => by
      rw [lane_map2 _ _ _ (by omega), lane_lo128 (w := 32) (k := 4) rfl _ hi, lane_hi128 (w := 32) (k := 4) rfl _ hi]
  constructor
  · refine min_halves (k := 4) (fun i hi => ?_) (psMin_lanes (map2 32 (fMin f32) (lo128 x) (hi128 x)) fun i hi => ?_)
    · rw [hl _ i hi, (fval_fMin f32 _ _ (hx i (by omega)) (hx (4 + i) (by omega))).2]
    · rw [hl _ i hi]; exact (fval_fMin f32 _ _ (hx i (by omega)) (hx (4 + i) (by omega))).1
  · refine max_halves (k := 4) (fun i hi => ?_) (psMax_lanes (map2 32 (fMax f32) (lo128 x) (hi128 x)) fun i hi => ?_)
    · rw [hl _ i hi, (fval_fMax f32 _ _ (hx i (by omega)) (hx (4 + i) (by omega))).2]
    · rw [hl _ i hi]; exact (fval_fMax f32 _ _ (hx i (by omega)) (hx (4 + i) (by omega))).1

theorem aPd_lanes (x : M256) (hx : ∀ i, i < 4 → isNaN f64 (Model.lane 64 x i) = false) :
    ((∃ i, i < 4 ∧ fval f64 (aHReducePd (fMin f64) x) = fval f64 (Model.lane 64 x i)) ∧
      ∀ i, i < 4 → fval f64 (aHReducePd (fMin f64) x) ≤ fval f64 (Model.lane 64 x i)) ∧
    ((∃ i, i < 4 ∧ fval f64 (aHReducePd (fMax f64) x) = fval f64 (Model.lane 64 x i)) ∧
      ∀ i, i < 4 → fval f64 (Model.lane 64 x i) ≤ fval f64 (aHReducePd (fMax f64) x)) := by
  have hl : ∀ (op : BitVec 64 → BitVec 64 → BitVec 64) i, i < 2 →
      Model.lane 64 (map2 64 op (lo128 x) (hi128 x)) i = op (Model.lane 64 x i) (Model.lane 64 x (2 + i)) :=
    fun op i hi => by
      rw [lane_map2 _ _ _ (by omega), lane_lo128 (w := 64) (k := 2) rfl _ hi, lane_hi128 (w := 64) (k := 2) rfl _ hi]
  constructor
  · refine min_halves (k := 2) (fun i hi => ?_) (pdMin_lanes (map2 64 (fMin f64) (lo128 x) (hi128 x)) fun i hi => ?_)
    · rw [hl _ i hi, (fval_fMin f64 _ _ (hx i (by omega)) (hx (2 + i) (by omega))).2]
    · rw [hl _ i hi]; exact (fval_fMin f64 _ _ (hx i (by omega)) (hx (2 + i) (by omega))).1
  · refine max_halves (k := 2) (fun i hi => ?_) (pdMax_lanes (map2 64 (fMax f64) (lo128 x) (hi128 x)) fun i hi => ?_)
    · rw [hl _ i hi, (fval_fMax f64 _ _ (hx i (by omega)) (hx (2 + i) (by omega))).2]
    · rw [hl _ i hi]; exact (fval_fMax f64 _ _ (hx i (by omega)) (hx (2 + i) (by omega))).1

/-- `float_v::min()`, `float_v::max()`, `double_v::min()`, `double_v::max()` of vectors without NaN. -/
theorem C41_avx_float_minmax (x : M256) :
    ((∀ i, i < 8 → isNaN f32 (Model.lane 32 x i) = false) →
      IsMin 8 (fun _ => true) (fun i => fval f32 (Model.lane 32 x i)) (fval f32 (aHReducePs (fMin f32) x)) ∧
      IsMax 8 (fun _ => true) (fun i => fval f32 (Model.lane 32 x i)) (fval f32 (aHReducePs (fMax f32) x))) ∧
    ((∀ i, i < 4 → isNaN f64 (Model.lane 64 x i) = false) →
      IsMin 4 (fun _ => true) (fun i => fval f64 (Model.lane 64 x i)) (fval f64 (aHReducePd (fMin f64) x)) ∧
      IsMax 4 (fun _ => true) (fun i => fval f64 (Model.lane 64 x i)) (fval f64 (aHReducePd (fMax f64) x))) :=
  ⟨fun hx => ⟨strip.1.2 (aPs_lanes x hx).1, strip.2.2 (aPs_lanes x hx).2⟩,
    fun hx => ⟨strip.1.2 (aPd_lanes x hx).1, strip.2.2 (aPd_lanes x hx).2⟩⟩

private theorem lane_limit {w i : Nat} (hi : w * (i + 1) ≤ 256) (included : Bool) (l : BitVec w) :
    Model.lane w (if included then (set1 w l : M256) else 0#256) i = if included then l else 0#w := by
  cases included
  · exact lane_zero i
  · exact lane_set1 _ hi

private theorem lim_e :
    mkFloat f32 32 false (infMag f32 - 1) = 0x7f7fffff#32 ∧ mkFloat f32 32 false (2 ^ f32.m) = 0x00800000#32 ∧
    mkFloat f64 64 false (infMag f64 - 1) = 0x7fefffffffffffff#64 ∧
    mkFloat f64 64 false (2 ^ f64.m) = 0x0010000000000000#64 := by decide

private theorem lim_nan (included : Bool) :
    isNaN f32 (if included then 0x7f7fffff#32 else 0#32) = false ∧
    isNaN f32 (if included then 0x00800000#32 else 0#32) = false ∧
    isNaN f64 (if included then 0x7fefffffffffffff#64 else 0#64) = false ∧
    isNaN f64 (if included then 0x0010000000000000#64 else 0#64) = false := by
  cases included <;> decide

/-- `float_v::min(m)` and `max(m)` for active entries without NaN, if all lanes are active or an active entry
is not beyond the start value.  Missing: the other vectors (the next theorem). -/
theorem C41_avx_float_minmax_masked_partial (included : Bool) (x m : M256) {b : Nat → Bool} (hm : IsMask 32 m b)
    (hx : ∀ i, i < 8 → b i = true → isNaN f32 (Model.lane 32 x i) = false) :
    ((∀ i, i < 8 → b i = true) ∨ (∃ i, i < 8 ∧ b i = true ∧
      fval f32 (Model.lane 32 x i) ≤ fval f32 (if included then 0x7f7fffff#32 else 0#32)) →
      IsMin 8 b (fun i => fval f32 (Model.lane 32 x i)) (fval f32 (aMinMaskedPs included x m))) ∧
    ((∀ i, i < 8 → b i = true) ∨ (∃ i, i < 8 ∧ b i = true ∧
      fval f32 (if included then 0x00800000#32 else 0#32) ≤ fval f32 (Model.lane 32 x i)) →
      IsMax 8 b (fun i => fval f32 (Model.lane 32 x i)) (fval f32 (aMaxMaskedPs included x m))) := by
  have hl1 : ∀ i, i < 8 → Model.lane 32 (avxAssign true 32 (aFLimitMax f32 32 included) x m) i =
      if b i then Model.lane 32 x i else (if included then 0x7f7fffff#32 else 0#32) := fun i hi => by
    rw [lane_avxAssignF (.inl rfl) (by omega) _ _ _ hm, aFLimitMax, lane_limit (by omega), lim_e.1]
  have hl2 : ∀ i, i < 8 → Model.lane 32 (avxAssign true 32 (aFLimitMin f32 32 included) x m) i =
      if b i then Model.lane 32 x i else (if included then 0x00800000#32 else 0#32) := fun i hi => by
    rw [lane_avxAssignF (.inl rfl) (by omega) _ _ _ hm, aFLimitMin, lane_limit (by omega), lim_e.2.1]
  constructor
  · intro hb
    refine masked_min (top := fval f32 (if included then 0x7f7fffff#32 else 0#32)) (fun i hi => ?_)
      (aPs_lanes _ fun i hi => ?_).1 hb (by decide)
    · rw [hl1 i hi]; cases b i <;> rfl
    · rw [hl1 i hi]
      cases h : b i
      · exact (lim_nan included).1
      · exact hx i hi h
  · intro hb
    refine masked_max (bot := fval f32 (if included then 0x00800000#32 else 0#32)) (fun i hi => ?_)
      (aPs_lanes _ fun i hi => ?_).2 hb (by decide)
    · rw [hl2 i hi]; cases b i <;> rfl
    · rw [hl2 i hi]
      cases h : b i
      · exact (lim_nan included).2.1
      · exact hx i hi h

/-- `double_v::min(m)` and `double_v::max(m)`, with the same restrictions. -/
theorem C41_avx_double_minmax_masked_partial (included : Bool) (x m : M256) {b : Nat → Bool} (hm : IsMask 64 m b)
    (hx : ∀ i, i < 4 → b i = true → isNaN f64 (Model.lane 64 x i) = false) :
    ((∀ i, i < 4 → b i = true) ∨ (∃ i, i < 4 ∧ b i = true ∧
      fval f64 (Model.lane 64 x i) ≤ fval f64 (if included then 0x7fefffffffffffff#64 else 0#64)) →
      IsMin 4 b (fun i => fval f64 (Model.lane 64 x i)) (fval f64 (aMinMaskedPd included x m))) ∧
    ((∀ i, i < 4 → b i = true) ∨ (∃ i, i < 4 ∧ b i = true ∧
      fval f64 (if included then 0x0010000000000000#64 else 0#64) ≤ fval f64 (Model.lane 64 x i)) →
      IsMax 4 b (fun i => fval f64 (Model.lane 64 x i)) (fval f64 (aMaxMaskedPd included x m))) := by
  have hl1 : ∀ i, i < 4 → Model.lane 64 (avxAssign true 64 (aFLimitMax f64 64 included) x m) i =
      if b i then Model.lane 64 x i else (if included then 0x7fefffffffffffff#64 else 0#64) := fun i hi => by
    rw [lane_avxAssignF (.inr rfl) (by omega) _ _ _ hm, aFLimitMax, lane_limit (by omega), lim_e.2.2.1]
  have hl2 : ∀ i, i < 4 → Model.lane 64 (avxAssign true 64 (aFLimitMin f64 64 included) x m) i =
      if b i then Model.lane 64 x i else (if included then 0x0010000000000000#64 else 0#64) := fun i hi => by
    rw [lane_avxAssignF (.inr rfl) (by omega) _ _ _ hm, aFLimitMin, lane_limit (by omega), lim_e.2.2.2]
  constructor
  · intro hb
    refine masked_min (top := fval f64 (if included then 0x7fefffffffffffff#64 else 0#64)) (fun i hi => ?_)
      (aPd_lanes _ fun i hi => ?_).1 hb (by decide)
    · rw [hl1 i hi]; cases b i <;> rfl
    · rw [hl1 i hi]
      cases h : b i
      · exact (lim_nan included).2.2.1
      · exact hx i hi h
  · intro hb
    refine masked_max (bot := fval f64 (if included then 0x0010000000000000#64 else 0#64)) (fun i hi => ?_)
      (aPd_lanes _ fun i hi => ?_).2 hb (by decide)
    · rw [hl2 i hi]; cases b i <;> rfl
    · rw [hl2 i hi]
      cases h : b i
      · exact (lim_nan included).2.2.2
      · exact hx i hi h

/-- The mask with only lane 0 active. -/
private def mask0 : M256 := ofLanes 32 fun i => laneMask (decide (i = 0))

private theorem isMask0 : IsMask 32 mask0 (fun i => decide (i = 0)) :=
  isMask_of fun _ hi => lane_ofLanes _ hi

/-- `max(m)` of negative entries is not the maximum, with and without `<Vc/limits>`: all entries are -1.0 and
lane 0 is active. -/
theorem C41_avx_float_max_masked_violated (included : Bool) : ¬ ∀ (x m : M256) (b : Nat → Bool), IsMask 32 m b →
    (∃ i, i < 8 ∧ b i = true) → (∀ i, i < 8 → isNaN f32 (Model.lane 32 x i) = false) →
    IsMax 8 b (fun i => fval f32 (Model.lane 32 x i)) (fval f32 (aMaxMaskedPs included x m)) := by
  intro h
  obtain ⟨⟨i, hi, hb, e⟩, -⟩ := h (set1 32 0xbf800000#32) mask0 _ isMask0 ⟨0, by decide, rfl⟩
    (fun i hi => by rw [lane_set1 _ (by omega)]; decide)
  have hl2 : ∀ i, i < 8 → Model.lane 32 (avxAssign true 32 (aFLimitMin f32 32 included) (set1 32 0xbf800000#32) mask0) i =
      if decide (i = 0) = true then 0xbf800000#32 else (if included then 0x00800000#32 else 0#32) := fun i hi => by
    rw [lane_avxAssignF (.inl rfl) (by omega) _ _ _ isMask0, aFLimitMin, lane_limit (by omega), lim_e.2.1,
      lane_set1 _ (by omega)]
  have := (aPs_lanes (avxAssign true 32 (aFLimitMin f32 32 included) (set1 32 0xbf800000#32) mask0) (fun i hi => by
    rw [hl2 i hi]; split
    · decide
    · cases included <;> decide)).2.2 1 (by decide)
  rw [hl2 1 (by decide)] at this
  have e' : fval f32 (aMaxMaskedPs included (set1 32 0xbf800000#32) mask0) = fval f32 (0xbf800000#32 : BitVec 32) := by
    rw [e]; simp only; rw [lane_set1 _ (by omega)]
  unfold aMaxMaskedPs at e'
  rw [e'] at this
  cases included <;> exact absurd this (by decide +kernel)

/-- Without `<Vc/limits>`, `min(m)` of positive entries is not the minimum: all entries are 1.0 and lane 0 is
active. -/
theorem C41_avx_float_min_masked_violated : ¬ ∀ (x m : M256) (b : Nat → Bool), IsMask 32 m b →
    (∃ i, i < 8 ∧ b i = true) → (∀ i, i < 8 → isNaN f32 (Model.lane 32 x i) = false) →
    IsMin 8 b (fun i => fval f32 (Model.lane 32 x i)) (fval f32 (aMinMaskedPs false x m)) := by
  intro h
  obtain ⟨⟨i, hi, hb, e⟩, -⟩ := h (set1 32 0x3f800000#32) mask0 _ isMask0 ⟨0, by decide, rfl⟩
    (fun i hi => by rw [lane_set1 _ (by omega)]; decide)
  have hl1 : ∀ i, i < 8 → Model.lane 32 (avxAssign true 32 (aFLimitMax f32 32 false) (set1 32 0x3f800000#32) mask0) i =
      if decide (i = 0) = true then 0x3f800000#32 else 0#32 := fun i hi => by
    rw [lane_avxAssignF (.inl rfl) (by omega) _ _ _ isMask0, aFLimitMax, lane_limit (by omega), lane_set1 _ (by omega)]
    rfl
  have := (aPs_lanes (avxAssign true 32 (aFLimitMax f32 32 false) (set1 32 0x3f800000#32) mask0) (fun i hi => by
    rw [hl1 i hi]; split <;> decide)).1.2 1 (by decide)
  rw [hl1 1 (by decide)] at this
  have e' : fval f32 (aMinMaskedPs false (set1 32 0x3f800000#32) mask0) = fval f32 (0x3f800000#32 : BitVec 32) := by
    rw [e]; simp only; rw [lane_set1 _ (by omega)]
  unfold aMinMaskedPs at e'
  rw [e'] at this
  exact absurd this (by decide +kernel)

/-! ### partialSum -/

/-- `partialSum()` of the integer vectors: entry `i` is the sum of the entries `0 .. i` modulo `2 ^ w`,
whatever the undefined and uninitialised registers contain. -/
theorem C41_avx_partialSum (avx2 : Bool) {bytes size : Nat} (h : AvxShape bytes size) (ext : Option M128) (u : M128)
    (sgn : Bool) (x : M256) (i : Nat) (hi : i < size) :
    Model.lane (8 * bytes) (aPartialSum ext u bytes size (avxAdd avx2 (8 * bytes)) x) i =
      BitVec.ofInt (8 * bytes) (((numbers256 sgn (8 * bytes) x).take (i + 1)).foldr (· + ·) 0) := by
  rw [foldr_add_ofInt, List.map_take, numbers_lanes]
  obtain ⟨c, hs, rfl⟩ : ∃ c, (bytes = 8 ∧ c = 2 ∨ bytes = 4 ∧ c = 4 ∨ bytes = 2 ∧ c = 8) ∧ size = 2 * c := by
    rcases h with ⟨rfl, rfl⟩ | ⟨rfl, rfl⟩ | ⟨rfl, rfl⟩
    · exact ⟨2, .inl ⟨rfl, rfl⟩, rfl⟩
    · exact ⟨4, .inr (.inl ⟨rfl, rfl⟩), rfl⟩
    · exact ⟨8, .inr (.inr ⟨rfl, rfl⟩), rfl⟩
  have hk : 8 * bytes * c = 128 := by rcases hs with ⟨rfl, rfl⟩ | ⟨rfl, rfl⟩ | ⟨rfl, rfl⟩ <;> rfl
  let st (f : Nat → BitVec (8 * bytes)) (k j : Nat) : BitVec (8 * bytes) :=
    f j + if k ≤ j then f (j - k) else 0#(8 * bytes)
  have step : ∀ (y : M256) (f : Nat → BitVec (8 * bytes)) (kk : Int) (k : Nat), kk = -(k : Int) →
      (∀ j, j < 2 * c → Model.lane (8 * bytes) y j = f j) →
      ∀ j, j < 2 * c →
        Model.lane (8 * bytes) (avxAdd avx2 (8 * bytes) y (avxShifted ext u bytes y kk)) j = st f k j := by
    intro y f kk k hkk hf j hj
    refine (lane_avx2op hk (fun a b => a + b) avx2 y _ hj).trans ?_
    rw [lane_avxShifted hs ext u y _ hj, if_pos (by omega), hf j hj]
    unfold shiftLane
    show _ = _ + _
    congr 1
    by_cases hk : k ≤ j
    · rw [if_pos (by omega), if_pos hk]
      simp only
      rw [hf _ (by omega)]
      congr 1; omega
    · rw [if_neg (by omega), if_neg hk]
  have h1 := step x (Model.lane (8 * bytes) x) (-1) 1 rfl (fun _ _ => rfl)
  have h2 := step _ _ (-2) 2 rfl h1
  have h3 := step _ _ (-4) 4 rfl h2
  have h4 := step _ _ (-8) 8 rfl h3
  unfold aPartialSum
  rcases hs with ⟨rfl, rfl⟩ | ⟨rfl, rfl⟩ | ⟨rfl, rfl⟩
  · simp only [Nat.reduceLT, Nat.reduceMul, if_true, if_false]
    refine (h2 i hi).trans ?_
    match i, hi with
    | 0, _ => simp [List.range_succ, st]
    | 1, _ => simp [List.range_succ, st]; ac_rfl
    | 2, _ => simp [List.range_succ, st]; ac_rfl
    | 3, _ => simp [List.range_succ, st]; ac_rfl
    | i + 4, hi => omega
  · simp only [Nat.reduceLT, Nat.reduceMul, if_true, if_false]
    refine (h3 i hi).trans ?_
    match i, hi with
    | 0, _ => simp [List.range_succ, st]
    | 1, _ => simp [List.range_succ, st]; ac_rfl
    | 2, _ => simp [List.range_succ, st]; ac_rfl
    | 3, _ => simp [List.range_succ, st]; ac_rfl
    | 4, _ => simp [List.range_succ, st]; ac_rfl
    | 5, _ => simp [List.range_succ, st]; ac_rfl
    | 6, _ => simp [List.range_succ, st]; ac_rfl
    | 7, _ => simp [List.range_succ, st]; ac_rfl
    | i + 8, hi => omega
  · simp only [Nat.reduceLT, Nat.reduceMul, if_true, if_false]
    refine (h4 i hi).trans ?_
    match i, hi with
    | 0, _ => simp [List.range_succ, st]
    | 1, _ => simp [List.range_succ, st]; ac_rfl
    | 2, _ => simp [List.range_succ, st]; ac_rfl
    | 3, _ => simp [List.range_succ, st]; ac_rfl
    | 4, _ => simp [List.range_succ, st]; ac_rfl
    | 5, _ => simp [List.range_succ, st]; ac_rfl
    | 6, _ => simp [List.range_succ, st]; ac_rfl
    | 7, _ => simp [List.range_succ, st]; ac_rfl
    | 8, _ => simp [List.range_succ, st]; ac_rfl
    | 9, _ => simp [List.range_succ, st]; ac_rfl
    | 10, _ => simp [List.range_succ, st]; ac_rfl
    | 11, _ => simp [List.range_succ, st]; ac_rfl
    | 12, _ => simp [List.range_succ, st]; ac_rfl
    | 13, _ => simp [List.range_succ, st]; ac_rfl
    | 14, _ => simp [List.range_succ, st]; ac_rfl
    | 15, _ => simp [List.range_succ, st]; ac_rfl
    | i + 16, hi => omega


/-! ### Examples -/

/-- int_v with the entries 7, -3, -5, 2, then 1. -/
private def exInt8 : M256 :=
  ofLanes 32 fun i => if i = 0 then 7#32 else if i = 1 then -3#32 else if i = 2 then -5#32 else if i = 3 then 2#32 else 1#32

private theorem exInt8_numbers : numbers256 true 32 exInt8 = [7, -3, -5, 2, 1, 1, 1, 1] := by
  show [val true (Model.lane 32 exInt8 0), val true (Model.lane 32 exInt8 1), val true (Model.lane 32 exInt8 2),
    val true (Model.lane 32 exInt8 3), val true (Model.lane 32 exInt8 4), val true (Model.lane 32 exInt8 5),
    val true (Model.lane 32 exInt8 6), val true (Model.lane 32 exInt8 7)] = _
  unfold exInt8
  rw [lane_ofLanes _ (by decide), lane_ofLanes _ (by decide), lane_ofLanes _ (by decide), lane_ofLanes _ (by decide),
    lane_ofLanes _ (by decide), lane_ofLanes _ (by decide), lane_ofLanes _ (by decide), lane_ofLanes _ (by decide)]
  decide

/-- The mask of the lanes 1 and 2. -/
private def mask12 : M256 := ofLanes 32 fun i => laneMask (i == 1 || i == 2)

private theorem isMask12 : IsMask 32 mask12 (fun i => i == 1 || i == 2) := isMask_of fun _ hi => lane_ofLanes _ hi

example : aHSum 32 exInt8 = 5#32 ∧ aHProduct sse42 32 exInt8 = 210#32 ∧
    aHSumMasked true 32 exInt8 mask12 = BitVec.ofInt 32 (-8) ∧ aHProductMasked sse42 false 32 exInt8 mask12 = 15#32 := by
  refine ⟨?_, ?_, ?_, ?_⟩
  · rw [C41_avx_sum (.inr rfl) true, exInt8_numbers]; decide
  · rw [C41_avx_product sse42 (.inr rfl) true, exInt8_numbers]; decide
  · rw [C41_avx_sum_masked true (.inr rfl) true _ _ isMask12, exInt8_numbers]; decide
  · rw [C41_avx_product_masked sse42 false (.inr rfl) true _ _ isMask12, exInt8_numbers]; decide

example : val true (aHMinMasked sse42 true true 32 exInt8 mask12) = -5 ∧
    val true (aHMaxMasked sse42 true true 32 exInt8 mask12) = -3 := by
  have h := C41_avx_minmax_masked sse42 true (.inr rfl) true exInt8 _ isMask12 ⟨1, by decide, rfl⟩
  have e1 : val true (Model.lane 32 exInt8 1) = -3 := by unfold exInt8; rw [lane_ofLanes _ (by decide)]; decide
  have e2 : val true (Model.lane 32 exInt8 2) = -5 := by unfold exInt8; rw [lane_ofLanes _ (by decide)]; decide
  have hx : ∀ i, i < 256 / 32 → (i == 1 || i == 2) = true → i = 1 ∨ i = 2 := by
    intro i _ h; simpa using h
  obtain ⟨⟨⟨i, hi, hb, e⟩, h1⟩, ⟨⟨j, hj, hb', e'⟩, h2⟩⟩ := h
  have a := h1 2 (by decide) rfl
  have b := h2 1 (by decide) rfl
  simp only at a b e e'
  refine ⟨?_, ?_⟩
  · rcases hx i hi hb with rfl | rfl <;> omega
  · rcases hx j hj hb' with rfl | rfl <;> omega

example (u : M128) : Model.lane 32 (aPartialSum none u 4 8 (avxAdd true 32) exInt8) 5 = BitVec.ofInt 32 3 := by
  refine (C41_avx_partialSum true (.inr (.inl ⟨rfl, rfl⟩)) none u true exInt8 5 (by decide)).trans ?_
  show BitVec.ofInt 32 (((numbers256 true 32 exInt8).take 6).foldr (· + ·) 0) = _
  rw [exInt8_numbers]; decide

/-- Entries -1.0 in all lanes, lane 0 active: `min(m)` is -1.0 with every start value. -/
example (included : Bool) :
    IsMin 8 (fun i => decide (i = 0)) (fun i => fval f32 (Model.lane 32 (set1 32 0xbf800000#32 : M256) i))
      (fval f32 (aMinMaskedPs included (set1 32 0xbf800000#32) mask0)) :=
  (C41_avx_float_minmax_masked_partial included _ _ isMask0
    (fun i hi _ => by rw [lane_set1 _ (by omega)]; decide)).1
    (.inr ⟨0, by decide, rfl, by rw [lane_set1 _ (by decide)]; cases included <;> decide +kernel⟩)

example : (∀ i, i < 8 → isNaN f32 (Model.lane 32 (set1 32 0x3f800000#32 : M256) i) = false) ∧
    (∀ i, i < 4 → isNaN f64 (Model.lane 64 (set1 64 0x3ff0000000000000#64 : M256) i) = false) :=
  ⟨fun i hi => by rw [lane_set1 _ (by omega)]; decide, fun i hi => by rw [lane_set1 _ (by omega)]; decide⟩

end Vc.Prop
