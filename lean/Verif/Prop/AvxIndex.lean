import Verif.Spec.Index
import Verif.Prop.AvxReduce
import Verif.Prop.AvxMask
import Verif.Lemma.AvxDiv

/-! # C67: position of the minimum and maximum of the AVX vectors -/

namespace Vc.Prop

open Vc.Model Vc.Spec Vc.Lemma

private theorem mem_lanes {w : Nat} (hw : AvxMaskWidth w) {i : Nat} (hi : i < 256 / w) : w * (i + 1) ≤ 256 := by
  rcases hw with rfl | rfl | rfl <;> omega

/-- The value and the first lane equal to it, for every comparison `eq`. -/
private theorem indexOf (avx2 : Bool) {w : Nat} (hw : AvxMaskWidth w) (eq : M256 → M256 → M256) (v : M256)
    (m : BitVec w) (e : Nat → Bool) (he : ∀ i, w * (i + 1) ≤ 256 → Model.lane w (eq v (set1 w m)) i = laneMask (e i))
    (hne : ∃ i, i < 256 / w ∧ e i = true) :
    ∃ i, (aIndexOf avx2 w eq v m).2 = some i ∧ i < 256 / w ∧ e i = true ∧ (∀ j, j < i → e j = false) ∧
      ∀ j, w * (j + 1) ≤ 256 → Model.lane w (aIndexOf avx2 w eq v m).1 j = m := by
  obtain ⟨i, h1, h2, h3, h4⟩ := C63_firstOne avx2 hw (isMask_of he) hne
  exact ⟨i, h1, h2, h3, h4, fun j hj => lane_set1 _ hj⟩

private theorem val_inj (sgn : Bool) {w : Nat} {a b : BitVec w} (h : val sgn a = val sgn b) : a = b := by
  rw [← ofInt_val_red sgn a, h, ofInt_val_red]

private theorem lane_aEq (avx2 : Bool) {w : Nat} (hw : IntWidth w) (sgn : Bool) (v : M256) (m : BitVec w) (i : Nat)
    (hi : w * (i + 1) ≤ 256) :
    Model.lane w (aEq avx2 w v (set1 w m)) i = laneMask (decide (val sgn (Model.lane w v i) = val sgn m)) := by
  rw [C34_avx_eq avx2 hw sgn v _ hi, lane_set1 _ hi]
  cases decide (val sgn (Model.lane w v i) = val sgn m) <;> rfl

/-- `minIndex()` of the integer vectors: all entries of the first result are the minimum, the second one is
its first position. -/
theorem C67_int_minIndex (I : Isa) (avx2 : Bool) {w : Nat} (hw : IntWidth w) (sgn : Bool) (v : M256) :
    ∃ i, (aMinIndex I avx2 sgn w v).2 = some i ∧ FirstMin (256 / w) (fun j => val sgn (Model.lane w v j)) i ∧
      ∀ j, j < 256 / w → Model.lane w (aMinIndex I avx2 sgn w v).1 j = Model.lane w v i := by
  have hw' : AvxMaskWidth w := hw.elim .inl fun h => .inr (.inl h)
  obtain ⟨⟨⟨a, ha, -, e⟩, h⟩, -⟩ := C41_avx_minmax I hw sgn v
  simp only at e h
  obtain ⟨i, h1, h2, h3, h4, h5⟩ := indexOf avx2 hw' (aEq avx2 w) v (aHMin I sgn w v) _ (lane_aEq avx2 hw sgn v _)
    ⟨a, ha, by simp [e]⟩
  have h3 := of_decide_eq_true h3
  refine ⟨i, h1, ⟨h2, fun j hj => ?_, fun j hj => ?_⟩, fun j hj => ?_⟩
  · simp only; rw [h3]; exact h j hj trivial
  · have a1 := of_decide_eq_false (h4 j hj)
    have a2 := h j (by omega) trivial
    simp only; omega
  · exact (h5 j (mem_lanes hw' hj)).trans (val_inj sgn h3.symm)

/-- `maxIndex()` of the integer vectors. -/
theorem C67_int_maxIndex (I : Isa) (avx2 : Bool) {w : Nat} (hw : IntWidth w) (sgn : Bool) (v : M256) :
    ∃ i, (aMaxIndex I avx2 sgn w v).2 = some i ∧ FirstMax (256 / w) (fun j => val sgn (Model.lane w v j)) i ∧
      ∀ j, j < 256 / w → Model.lane w (aMaxIndex I avx2 sgn w v).1 j = Model.lane w v i := by
  have hw' : AvxMaskWidth w := hw.elim .inl fun h => .inr (.inl h)
  obtain ⟨-, ⟨⟨a, ha, -, e⟩, h⟩⟩ := C41_avx_minmax I hw sgn v
  simp only at e h
  obtain ⟨i, h1, h2, h3, h4, h5⟩ := indexOf avx2 hw' (aEq avx2 w) v (aHMax I sgn w v) _ (lane_aEq avx2 hw sgn v _)
    ⟨a, ha, by simp [e]⟩
  have h3 := of_decide_eq_true h3
  refine ⟨i, h1, ⟨h2, fun j hj => ?_, fun j hj => ?_⟩, fun j hj => ?_⟩
  · simp only; rw [h3]; exact h j hj trivial
  · have a1 := of_decide_eq_false (h4 j hj)
    have a2 := h j (by omega) trivial
    simp only; omega
  · exact (h5 j (mem_lanes hw' hj)).trans (val_inj sgn h3.symm)

/-! ### float_v and double_v -/

private theorem fMin_sel (F : Fmt) {w : Nat} (a b : BitVec w) : fMin F a b = a ∨ fMin F a b = b := by
  unfold fMin; split
  · exact .inl rfl
  · exact .inr rfl

private theorem fMax_sel (F : Fmt) {w : Nat} (a b : BitVec w) : fMax F a b = a ∨ fMax F a b = b := by
  unfold fMax; split
  · exact .inl rfl
  · exact .inr rfl

private theorem not_nan_op {w : Nat} (F : Fmt) {op : BitVec w → BitVec w → BitVec w} (hop : ∀ a b, op a b = a ∨ op a b = b)
    {a b : BitVec w} (ha : isNaN F a = false) (hb : isNaN F b = false) : isNaN F (op a b) = false := by
  rcases hop a b with h | h <;> rw [h] <;> assumption

private theorem not_nan_ps {op : BitVec 32 → BitVec 32 → BitVec 32} (hop : ∀ a b, op a b = a ∨ op a b = b) (x : M256)
    (hx : ∀ i, i < 8 → isNaN f32 (Model.lane 32 x i) = false) : isNaN f32 (aHReducePs op x) = false := by
  have hl : ∀ i, i < 4 → isNaN f32 (Model.lane 32 (map2 32 op (lo128 x) (hi128 x)) i) = false := fun i hi => by
    rw [lane_map2 _ _ _ (by omega), lane_lo128 (w := 32) (k := 4) rfl _ hi, lane_hi128 (w := 32) (k := 4) rfl _ hi]
    exact not_nan_op f32 hop (hx _ (by omega)) (hx _ (by omega))
  unfold aHReducePs
  rw [hReducePs_eq]
  exact not_nan_op f32 hop (not_nan_op f32 hop (hl 0 (by decide)) (hl 2 (by decide)))
    (not_nan_op f32 hop (hl 1 (by decide)) (hl 3 (by decide)))

private theorem not_nan_pd {op : BitVec 64 → BitVec 64 → BitVec 64} (hop : ∀ a b, op a b = a ∨ op a b = b) (x : M256)
    (hx : ∀ i, i < 4 → isNaN f64 (Model.lane 64 x i) = false) : isNaN f64 (aHReducePd op x) = false := by
  have hl : ∀ i, i < 2 → isNaN f64 (Model.lane 64 (map2 64 op (lo128 x) (hi128 x)) i) = false := fun i hi => by
    rw [lane_map2 _ _ _ (by omega), lane_lo128 (w := 64) (k := 2) rfl _ hi, lane_hi128 (w := 64) (k := 2) rfl _ hi]
    exact not_nan_op f64 hop (hx _ (by omega)) (hx _ (by omega))
  unfold aHReducePd
  rw [hReducePd_eq]
  exact not_nan_op f64 hop (hl 0 (by decide)) (hl 1 (by decide))

private theorem lane_vFEq (F : Fmt) {w : Nat} (v : M256) {m : BitVec w} (hm : isNaN F m = false)
    (hv : ∀ i, i < 256 / w → isNaN F (Model.lane w v i) = false) (hw : AvxMaskWidth w) (i : Nat) (hi : w * (i + 1) ≤ 256) :
    Model.lane w (vFEq F w v (set1 w m)) i = laneMask (decide (fval F (Model.lane w v i) = fval F m)) := by
  have hi' : i < 256 / w := by rcases hw with rfl | rfl | rfl <;> omega
  unfold vFEq
  rw [lane_map2 _ _ _ hi, lane_set1 _ hi]
  unfold fEq
  rw [hm, hv i hi']
  rfl

private theorem float_first_min (avx2 : Bool) (F : Fmt) {w : Nat} (hw : AvxMaskWidth w) (v : M256) (m : BitVec w)
    (hm : isNaN F m = false) (hv : ∀ i, i < 256 / w → isNaN F (Model.lane w v i) = false)
    (h : (∃ i, i < 256 / w ∧ fval F m = fval F (Model.lane w v i)) ∧
      ∀ i, i < 256 / w → fval F m ≤ fval F (Model.lane w v i)) :
    ∃ i, (aIndexOf avx2 w (vFEq F w) v m).2 = some i ∧ FirstMin (256 / w) (fun j => fval F (Model.lane w v j)) i ∧
      ∀ j, j < 256 / w → fval F (Model.lane w (aIndexOf avx2 w (vFEq F w) v m).1 j) = fval F (Model.lane w v i) := by
  obtain ⟨⟨a, ha, e⟩, h⟩ := h
  obtain ⟨i, h1, h2, h3, h4, h5⟩ := indexOf avx2 hw (vFEq F w) v m _ (lane_vFEq F v hm hv hw) ⟨a, ha, by simp [e]⟩
  have h3 := of_decide_eq_true h3
  refine ⟨i, h1, ⟨h2, fun j hj => ?_, fun j hj => ?_⟩, fun j hj => ?_⟩
  · simp only; rw [h3]; exact h j hj
  · have a1 := of_decide_eq_false (h4 j hj)
    have a2 := h j (by omega)
    simp only; omega
  · rw [h5 j (mem_lanes hw hj), h3]

private theorem float_first_max (avx2 : Bool) (F : Fmt) {w : Nat} (hw : AvxMaskWidth w) (v : M256) (m : BitVec w)
    (hm : isNaN F m = false) (hv : ∀ i, i < 256 / w → isNaN F (Model.lane w v i) = false)
    (h : (∃ i, i < 256 / w ∧ fval F m = fval F (Model.lane w v i)) ∧
      ∀ i, i < 256 / w → fval F (Model.lane w v i) ≤ fval F m) :
    ∃ i, (aIndexOf avx2 w (vFEq F w) v m).2 = some i ∧ FirstMax (256 / w) (fun j => fval F (Model.lane w v j)) i ∧
      ∀ j, j < 256 / w → fval F (Model.lane w (aIndexOf avx2 w (vFEq F w) v m).1 j) = fval F (Model.lane w v i) := by
  obtain ⟨⟨a, ha, e⟩, h⟩ := h
  obtain ⟨i, h1, h2, h3, h4, h5⟩ := indexOf avx2 hw (vFEq F w) v m _ (lane_vFEq F v hm hv hw) ⟨a, ha, by simp [e]⟩
  have h3 := of_decide_eq_true h3
  refine ⟨i, h1, ⟨h2, fun j hj => ?_, fun j hj => ?_⟩, fun j hj => ?_⟩
  · simp only; rw [h3]; exact h j hj
  · have a1 := of_decide_eq_false (h4 j hj)
    have a2 := h j (by omega)
    simp only; omega
  · rw [h5 j (mem_lanes hw hj), h3]

/-- `double_v::minIndex()`, `double_v::maxIndex()` and `float_v::maxIndex()` of vectors without NaN.
Missing: vectors with NaN, see `C67_double_violated`. -/
theorem C67_double_minIndex_partial (avx2 : Bool) (v : M256) (hv : ∀ i, i < 4 → isNaN f64 (Model.lane 64 v i) = false) :
    ∃ i, (aMinIndexPd avx2 v).2 = some i ∧ FirstMin 4 (fun j => fval f64 (Model.lane 64 v j)) i ∧
      ∀ j, j < 4 → fval f64 (Model.lane 64 (aMinIndexPd avx2 v).1 j) = fval f64 (Model.lane 64 v i) :=
  float_first_min avx2 f64 (.inr (.inr rfl)) v _ (not_nan_pd (fMin_sel f64) v hv) hv (aPd_lanes v hv).1

theorem C67_double_maxIndex_partial (avx2 : Bool) (v : M256) (hv : ∀ i, i < 4 → isNaN f64 (Model.lane 64 v i) = false) :
    ∃ i, (aMaxIndexPd avx2 v).2 = some i ∧ FirstMax 4 (fun j => fval f64 (Model.lane 64 v j)) i ∧
      ∀ j, j < 4 → fval f64 (Model.lane 64 (aMaxIndexPd avx2 v).1 j) = fval f64 (Model.lane 64 v i) :=
  float_first_max avx2 f64 (.inr (.inr rfl)) v _ (not_nan_pd (fMax_sel f64) v hv) hv (aPd_lanes v hv).2

theorem C67_float_maxIndex_partial (avx2 : Bool) (v : M256) (hv : ∀ i, i < 8 → isNaN f32 (Model.lane 32 v i) = false) :
    ∃ i, (aMaxIndexPs avx2 v).2 = some i ∧ FirstMax 8 (fun j => fval f32 (Model.lane 32 v j)) i ∧
      ∀ j, j < 8 → fval f32 (Model.lane 32 (aMaxIndexPs avx2 v).1 j) = fval f32 (Model.lane 32 v i) :=
  float_first_max avx2 f32 (.inr (.inl rfl)) v _ (not_nan_ps (fMax_sel f32) v hv) hv (aPs_lanes v hv).2

/-! ### float_v::minIndex -/

private theorem lt8 {i : Nat} (h : i < 8) :
    i = 0 ∨ i = 1 ∨ i = 2 ∨ i = 3 ∨ i = 4 ∨ i = 5 ∨ i = 6 ∨ i = 7 := by omega

private theorem lane_pairs (x : M256) {i : Nat} (hi : i < 8) :
    Model.lane 32 (regPermutePs256 2 3 0 1 x) i = Model.lane 32 x (i / 2 * 2 + (1 - i % 2)) := by
  unfold regPermutePs256 permutePs256
  rw [lane_ofLanes _ (by omega)]
  congr 1
  match i, hi with
  | 0, _ => rfl
  | 1, _ => rfl
  | 2, _ => rfl
  | 3, _ => rfl
  | 4, _ => rfl
  | 5, _ => rfl
  | 6, _ => rfl
  | 7, _ => rfl

private theorem lane_quads (x : M256) {i : Nat} (hi : i < 8) :
    Model.lane 32 (regPermutePs256 1 0 3 2 x) i = Model.lane 32 x (i / 4 * 4 + (i + 2) % 4) := by
  unfold regPermutePs256 permutePs256
  rw [lane_ofLanes _ (by omega)]
  congr 1
  match i, hi with
  | 0, _ => rfl
  | 1, _ => rfl
  | 2, _ => rfl
  | 3, _ => rfl
  | 4, _ => rfl
  | 5, _ => rfl
  | 6, _ => rfl
  | 7, _ => rfl

/-- Lane `j` of the state holds the least of the lanes `g j` of `v` and the lane of `idx` where it is. -/
private def Least (v idx : M256) (g : Nat → List Nat) (s : M256 × M256) : Prop :=
  ∀ j, j < 8 → ∃ i, i ∈ g j ∧ i < 8 ∧ Model.lane 32 s.1 j = Model.lane 32 v i ∧
    Model.lane 32 s.2 j = Model.lane 32 idx i ∧
    ∀ i', i' ∈ g j → fval f32 (Model.lane 32 v i) ≤ fval f32 (Model.lane 32 v i')

private theorem least_step {v idx : M256} (hv : ∀ i, i < 8 → isNaN f32 (Model.lane 32 v i) = false)
    {g : Nat → List Nat} {s : M256 × M256} (h : Least v idx g s) {p : M256 → M256} {q : Nat → Nat}
    (hq : ∀ j, j < 8 → q j < 8) (hp : ∀ x j, j < 8 → Model.lane 32 (p x) j = Model.lane 32 x (q j)) :
    Least v idx (fun j => g j ++ g (q j)) (aMinStep p s) := by
  intro j hj
  obtain ⟨a, a1, a2, a3, a4, a5⟩ := h j hj
  obtain ⟨b, b1, b2, b3, b4, b5⟩ := h (q j) (hq j hj)
  have hl : Model.lane 32 (vFLt f32 32 s.1 (p s.1)) j =
      laneMask (decide (fval f32 (Model.lane 32 v a) < fval f32 (Model.lane 32 v b))) := by
    unfold vFLt
    rw [lane_map2 _ _ _ (by omega), hp _ j hj, a3, b3]
    unfold fLt
    rw [hv a a2, hv b b2]; rfl
  unfold aMinStep
  simp only
  rw [lane_blendvIntr _ _ _ (by omega), lane_blendvIntr _ _ _ (by omega), hl, laneMask_msb (by decide), hp _ j hj,
    hp _ j hj, a3, a4, b3, b4]
  by_cases hab : fval f32 (Model.lane 32 v a) < fval f32 (Model.lane 32 v b)
  · refine ⟨a, List.mem_append_left _ a1, a2, ?_, ?_, fun i' hi' => ?_⟩
    · rw [if_pos (by simpa using hab)]
    · rw [if_pos (by simpa using hab)]
    · rcases List.mem_append.1 hi' with h | h
      · exact a5 i' h
      · have := b5 i' h; omega
  · refine ⟨b, List.mem_append_right _ b1, b2, ?_, ?_, fun i' hi' => ?_⟩
    · rw [if_neg (by simpa using hab)]
    · rw [if_neg (by simpa using hab)]
    · rcases List.mem_append.1 hi' with h | h
      · have := a5 i' h; omega
      · exact b5 i' h

/-- The value of `float_v::minIndex()` is right without NaN, the index is the pattern of the float of a
position of the minimum.  Missing: the index itself, see `C67_float_minIndex_violated`. -/
theorem C67_float_minIndex_partial (v : M256) (hv : ∀ i, i < 8 → isNaN f32 (Model.lane 32 v i) = false) :
    (∀ j, j < 8 → ∃ i, i < 8 ∧ Model.lane 32 (aMinIndexPs v).1 j = Model.lane 32 v i ∧
      ∀ k, k < 8 → fval f32 (Model.lane 32 v i) ≤ fval f32 (Model.lane 32 v k)) ∧
    ∃ i, i < 8 ∧ (aMinIndexPs v).2 = cvtI2F f32 32 (BitVec.ofNat 32 i) ∧
      ∀ k, k < 8 → fval f32 (Model.lane 32 v i) ≤ fval f32 (Model.lane 32 v k) := by
  have h0 : Least v aIndexesPs (fun j => [j]) (v, aIndexesPs) := fun j hj =>
    ⟨j, by simp, hj, rfl, rfl, fun i' hi' => by rw [List.mem_singleton.1 hi']; exact Int.le_refl _⟩
  have h1 := least_step hv h0 (p := memPermute128 (some 1) (some 0)) (q := fun j => if j < 4 then 4 + j else j - 4)
    (fun j hj => by split <;> omega) (fun x j hj => lane_swap (c := 4) rfl x (by omega))
  have h2 := least_step hv h1 (p := regPermutePs256 2 3 0 1) (q := fun j => j / 2 * 2 + (1 - j % 2))
    (fun j hj => by omega) (fun x j hj => lane_pairs x hj)
  have h3 := least_step hv h2 (p := regPermutePs256 1 0 3 2) (q := fun j => j / 4 * 4 + (j + 2) % 4)
    (fun j hj => by omega) (fun x j hj => lane_quads x hj)
  have hall : ∀ j, j < 8 → ∀ k, k < 8 →
      k ∈ (fun j => (fun j => (fun j => (fun j => [j]) j ++ (fun j => [j]) (if j < 4 then 4 + j else j - 4)) j ++
        (fun j => (fun j => [j]) j ++ (fun j => [j]) (if j < 4 then 4 + j else j - 4)) (j / 2 * 2 + (1 - j % 2))) j ++
        (fun j => (fun j => (fun j => [j]) j ++ (fun j => [j]) (if j < 4 then 4 + j else j - 4)) j ++
        (fun j => (fun j => [j]) j ++ (fun j => [j]) (if j < 4 then 4 + j else j - 4)) (j / 2 * 2 + (1 - j % 2)))
          (j / 4 * 4 + (j + 2) % 4)) j := by decide
  constructor
  · intro j hj
    obtain ⟨i, -, a2, a3, -, a5⟩ := h3 j hj
    exact ⟨i, a2, a3, fun k hk => a5 k (hall j hj k hk)⟩
  · obtain ⟨i, -, a2, -, a4, a5⟩ := h3 0 (by decide)
    refine ⟨i, a2, a4.trans ?_, fun k hk => a5 k (hall 0 (by decide) k hk)⟩
    unfold aIndexesPs
    rw [lane_cvtepi32PsN _ a2, lane_ofLanes _ (by omega)]

/-- `float_v::minIndex()` does not return the position: for 0.0 and -1.0 in turns the least entry is in the
lanes 1, 3, 5, 7, and the index is one of the patterns of 1.0, 3.0, 5.0, 7.0. -/
theorem C67_float_minIndex_violated : ¬ ∀ v : M256, (∀ i, i < 8 → isNaN f32 (Model.lane 32 v i) = false) →
    (aMinIndexPs v).2.toNat < 8 := by
  intro h
  let v : M256 := ofLanes 32 fun i => if i % 2 = 0 then 0#32 else 0xbf800000#32
  have hl : ∀ i, i < 8 → Model.lane 32 v i = if i % 2 = 0 then 0#32 else 0xbf800000#32 := fun i hi =>
    lane_ofLanes _ (by omega)
  have hv : ∀ i, i < 8 → isNaN f32 (Model.lane 32 v i) = false := fun i hi => by
    rw [hl i hi]; split <;> decide
  have h1 := h v hv
  obtain ⟨-, i, hi, e, hk⟩ := C67_float_minIndex_partial v hv
  have h2 := hk 1 (by decide)
  rw [hl i hi, hl 1 (by decide)] at h2
  rw [e] at h1
  rcases lt8 hi with rfl | rfl | rfl | rfl | rfl | rfl | rfl | rfl
  · exact absurd h2 (by decide +kernel)
  · exact absurd h1 (by decide +kernel)
  · exact absurd h2 (by decide +kernel)
  · exact absurd h1 (by decide +kernel)
  · exact absurd h2 (by decide +kernel)
  · exact absurd h1 (by decide +kernel)
  · exact absurd h2 (by decide +kernel)
  · exact absurd h1 (by decide +kernel)

/-- With a NaN in every lane `double_v::minIndex()` compares nothing equal, and `firstOne()` is called for an
empty mask. -/
theorem C67_double_violated (avx2 : Bool) :
    (aMinIndexPd avx2 (set1 64 0x7ff8000000000000#64)).2 = none ∧
    (aMaxIndexPd avx2 (set1 64 0x7ff8000000000000#64)).2 = none := by
  have key : ∀ m : BitVec 64, (aIndexOf avx2 64 (vFEq f64 64) (set1 64 0x7ff8000000000000#64) m).2 = none := by
    intro m
    have : vFEq f64 64 (set1 64 0x7ff8000000000000#64 : M256) (set1 64 m) = 0#256 := by
      refine reg_ext 64 (by decide) (by decide) fun i hi => ?_
      have hr : 64 * (i + 1) ≤ 256 := by omega
      unfold vFEq
      rw [lane_map2 _ _ _ hr, lane_set1 _ hr, lane_set1 _ hr, lane_zero]
      unfold fEq
      have hn : isNaN f64 (0x7ff8000000000000#64 : BitVec 64) = true := by decide
      rw [hn]; rfl
    unfold aIndexOf
    simp only
    rw [this]
    cases avx2 <;> decide +kernel
  exact ⟨key _, key _⟩

/-! ### Examples -/

/-- 3, -2, 5, -2, then 4: the minimum -2 is first in lane 1. -/
private def exIdx : M256 :=
  ofLanes 32 fun i => if i = 0 then 3#32 else if i = 1 ∨ i = 3 then -2#32 else if i = 2 then 5#32 else 4#32

example : (aMinIndex sse42 true true 32 exIdx).2 = some 1 ∧ (aMaxIndex sse42 true true 32 exIdx).2 = some 2 := by
  have hl : ∀ i, i < 8 → Model.lane 32 exIdx i =
      if i = 0 then 3#32 else if i = 1 ∨ i = 3 then -2#32 else if i = 2 then 5#32 else 4#32 := fun i hi =>
    lane_ofLanes _ (by omega)
  obtain ⟨i, e, ⟨hi, h1, h2⟩, -⟩ := C67_int_minIndex sse42 true (.inr rfl) true exIdx
  obtain ⟨k, e', ⟨hk, h1', h2'⟩, -⟩ := C67_int_maxIndex sse42 true (.inr rfl) true exIdx
  have a := h1 1 (by decide)
  have b := h1' 2 (by decide)
  rw [e, e']
  simp only at a b h2 h2'
  rw [hl i hi, hl 1 (by decide)] at a
  rw [hl k hk, hl 2 (by decide)] at b
  constructor
  · rcases lt8 hi with rfl | rfl | rfl | rfl | rfl | rfl | rfl | rfl
    · exact absurd a (by decide)
    · rfl
    · exact absurd a (by decide)
    · have := h2 1 (by decide); rw [hl 3 (by decide), hl 1 (by decide)] at this; exact absurd this (by decide)
    · exact absurd a (by decide)
    · exact absurd a (by decide)
    · exact absurd a (by decide)
    · exact absurd a (by decide)
  · rcases lt8 hk with rfl | rfl | rfl | rfl | rfl | rfl | rfl | rfl
    · exact absurd b (by decide)
    · exact absurd b (by decide)
    · rfl
    · exact absurd b (by decide)
    · exact absurd b (by decide)
    · exact absurd b (by decide)
    · exact absurd b (by decide)
    · exact absurd b (by decide)

/-- Vectors without NaN. -/
example : (∀ i, i < 4 → isNaN f64 (Model.lane 64 (set1 64 0x3ff0000000000000#64 : M256) i) = false) ∧
    (∀ i, i < 8 → isNaN f32 (Model.lane 32 (set1 32 0x3f800000#32 : M256) i) = false) :=
  ⟨fun i hi => by rw [lane_set1 _ (by omega)]; decide, fun i hi => by rw [lane_set1 _ (by omega)]; decide⟩

end Vc.Prop
