import Verif.Prop.AvxDiv
import Verif.Prop.SseDiv
import Verif.Lemma.Masked
import Verif.Model.Interleave

/-!
C58: masked compound assignment.  Lanes whose mask entry is set get the result of the operator, all others keep
their value, and operands in lanes whose mask entry is not set do not matter.

The last part does not hold for the operators that are evaluated entry by entry (division of SSE int_v and
uint_v, shifts by a vector), nor for `x(mask) op= y` with Scalar vectors; `++` of float_v and double_v turns a
`-0.0` in an inactive lane into `+0.0`.
-/

namespace Vc.Prop
open Vc.Model Vc.Lemma Vc.Spec


/-- The operators that are evaluated entry by entry for all lanes. -/
def PerLaneSse (avx2 : Bool) (w : Nat) (op : IntOp) : Prop :=
  ((op = .div ∨ op = .mod) ∧ w = 32) ∨ ((op = .shl ∨ op = .shr) ∧ ¬(avx2 = true ∧ w = 32))
def PerLaneAvx (w : Nat) (op : IntOp) : Prop := (op = .shl ∨ op = .shr) ∧ w = 16

/-- The exception of C39: `-32768 / -1` in a short_v. -/
def ShortException (sgn : Bool) {w : Nat} (op : IntOp) (a b : BitVec w) : Prop :=
  (op = .div ∨ op = .mod) ∧ sgn = true ∧ w = 16 ∧ val sgn a = -32768 ∧ val sgn b = -1

private theorem val_true {w : Nat} (x : BitVec w) : val true x = x.toInt := rfl

private theorem eq_of_val {sgn : Bool} {w : Nat} {x : BitVec w} {n : Int} (h : val sgn x = n) : x = BitVec.ofInt w n := by
  rw [← h, ofInt_val]

/-- The operators of the SSE integer vectors. -/
theorem sseIntOp_lanes (I : Isa) (avx2 sgn : Bool) {w : Nat} (hw : IntWidth w) (op : IntOp) (x y : M128)
    (hall : PerLaneSse avx2 w op → ∀ i, w * (i + 1) ≤ 128 → op.Defined sgn (Model.lane w x i) (Model.lane w y i)) :
    ∃ r, sseIntOp I avx2 sgn w op x y = some r ∧ ∀ i, w * (i + 1) ≤ 128 →
      op.Defined sgn (Model.lane w x i) (Model.lane w y i) →
      ¬ShortException sgn op (Model.lane w x i) (Model.lane w y i) →
      Model.lane w r i = op.value sgn (Model.lane w x i) (Model.lane w y i) := by
  have hw0 : 0 < w := by rcases hw with rfl | rfl <;> decide
  cases op with
  | add => exact ⟨_, rfl, fun i hi _ _ => by unfold addEpi; rw [lane_map2 _ _ _ hi, value_add sgn]⟩
  | sub => exact ⟨_, rfl, fun i hi _ _ => by unfold subEpi; rw [lane_map2 _ _ _ hi, value_sub sgn]⟩
  | mul => exact ⟨_, rfl, fun i hi _ _ => by rw [lane_vMul I hw hi, value_mul sgn]⟩
  | and => exact ⟨_, rfl, fun i hi _ _ => by rw [lane_and]; rfl⟩
  | or => exact ⟨_, rfl, fun i hi _ _ => by rw [lane_or]; rfl⟩
  | xor => exact ⟨_, rfl, fun i hi _ _ => by rw [lane_xor]; rfl⟩
  | shlBy k => exact ⟨_, rfl, fun i hi _ _ => by unfold slliEpi; rw [lane_map1 _ _ hi, shl_ofInt sgn]; rfl⟩
  | shrBy k =>
    refine ⟨_, rfl, fun i hi _ _ => ?_⟩
    have := shr_ofInt sgn (Model.lane w x i) k
    cases sgn
    · rw [if_neg Bool.false_ne_true] at this ⊢
      unfold srliEpi; rw [lane_map1 _ _ hi, this]; rfl
    · rw [if_pos rfl] at this ⊢
      unfold sraiEpi; rw [lane_map1 _ _ hi, this]; rfl
  | shl =>
    by_cases h : avx2 = true ∧ w = 32
    · obtain ⟨rfl, rfl⟩ := h
      refine ⟨_, rfl, fun i hi hd _ => ?_⟩
      unfold sllvEpi32
      rw [lane_map2 _ _ _ hi, toNat_count (sgn := sgn) hd.1, shl_ofInt sgn]
      rfl
    · obtain ⟨r, hr, hl⟩ := generate_some (n := 128) (w := w)
        (g := fun i => shlLane sgn (Model.lane w x i) (Model.lane w y i))
        (v := fun i => IntOp.value .shl sgn (Model.lane w x i) (Model.lane w y i))
        (fun i hi => shlLane_some (hall (.inr ⟨.inl rfl, h⟩) i hi))
      refine ⟨r, ?_, fun i hi _ _ => hl i hi⟩
      show (if avx2 = true ∧ w = 32 then _ else _) = _
      rw [if_neg h, hr]
  | shr =>
    by_cases h : avx2 = true ∧ w = 32
    · obtain ⟨rfl, rfl⟩ := h
      refine ⟨_, rfl, fun i hi hd _ => ?_⟩
      have := shr_ofInt sgn (Model.lane 32 x i) (val sgn (Model.lane 32 y i)).toNat
      cases sgn
      · rw [if_neg Bool.false_ne_true] at this ⊢
        unfold srlvEpi32
        rw [lane_map2 _ _ _ hi, toNat_count (sgn := false) hd.1, this]
        rfl
      · rw [if_pos rfl] at this ⊢
        unfold sravEpi32
        rw [lane_map2 _ _ _ hi, toNat_count (sgn := true) hd.1, this]
        rfl
    · obtain ⟨r, hr, hl⟩ := generate_some (n := 128) (w := w)
        (g := fun i => shrLane sgn (Model.lane w x i) (Model.lane w y i))
        (v := fun i => IntOp.value .shr sgn (Model.lane w x i) (Model.lane w y i))
        (fun i hi => shrLane_some (hall (.inr ⟨.inr rfl, h⟩) i hi))
      refine ⟨r, ?_, fun i hi _ _ => hl i hi⟩
      show (if avx2 = true ∧ w = 32 then _ else _) = _
      rw [if_neg h, hr]
  | div =>
    rcases hw with rfl | rfl
    · refine ⟨_, rfl, fun i hi hd he => ?_⟩
      have hb : Model.lane 16 y i ≠ 0#16 := fun h => hd.1 (by rw [h]; cases sgn <;> decide)
      cases sgn
      · apply eq_of_val (sgn := false)
        show (((Model.lane 16 (vDiv16 I false x y) i).toNat : Nat) : Int) = _
        rw [C39_div_ushort I x y (by omega) hb]
        rfl
      · apply eq_of_val (sgn := true)
        rw [val_true, val_true, val_true]
        exact C39_div_short_partial I x y (by omega) hb (fun h => he ⟨.inl rfl, rfl, rfl, h⟩)
    · have hd := hall (.inl ⟨.inl rfl, rfl⟩)
      obtain ⟨h1, h2, -, -⟩ := C39_div32 I sgn x y
      obtain ⟨q, hq⟩ := Option.isSome_iff_exists.mp (h1.mpr fun i hi =>
        ⟨(hd i (by omega)).1, fun h => (hd i (by omega)).2 ⟨h.1, rfl, h.2⟩⟩)
      exact ⟨q, hq, fun i hi _ _ => eq_of_val (h2 q hq i (by omega))⟩
  | mod =>
    rcases hw with rfl | rfl
    · refine ⟨_, rfl, fun i hi hd he => ?_⟩
      have hb : Model.lane 16 y i ≠ 0#16 := fun h => hd.1 (by rw [h]; cases sgn <;> decide)
      cases sgn
      · apply eq_of_val (sgn := false)
        show (((Model.lane 16 (vMod16 I false x y) i).toNat : Nat) : Int) = _
        rw [C39_mod_ushort I x y (by omega) hb]
        rfl
      · apply eq_of_val (sgn := true)
        rw [val_true, val_true, val_true]
        exact C39_mod_short_partial I x y (by omega) hb (fun h => he ⟨.inr rfl, rfl, rfl, h⟩)
    · have hd := hall (.inl ⟨.inr rfl, rfl⟩)
      obtain ⟨h1, -, h3, h4⟩ := C39_div32 I sgn x y
      have hs := h1.mpr fun i hi =>
        ⟨(hd i (by omega)).1, fun h => (hd i (by omega)).2 ⟨h.1, rfl, h.2⟩⟩
      obtain ⟨q, hq⟩ := Option.isSome_iff_exists.mp (h4.trans hs)
      exact ⟨q, hq, fun i hi _ _ => eq_of_val (h3 q hq i (by omega))⟩

/-- The operators of the AVX2 integer vectors. -/
theorem avxIntOp_lanes (avx2 : Bool) (B : CmpBuild) (sgn : Bool) {w : Nat} (hw : IntWidth w) (op : IntOp) (x y : M256)
    (hall : PerLaneAvx w op → ∀ i, w * (i + 1) ≤ 256 → op.Defined sgn (Model.lane w x i) (Model.lane w y i)) :
    ∃ r, avxIntOp avx2 B sgn w op x y = some r ∧ ∀ i, w * (i + 1) ≤ 256 →
      op.Defined sgn (Model.lane w x i) (Model.lane w y i) →
      Model.lane w r i = op.value sgn (Model.lane w x i) (Model.lane w y i) := by
  have hk : ∃ k, w * k = 128 ∧ ∀ i, w * (i + 1) ≤ 256 → i < 2 * k := by
    rcases hw with rfl | rfl
    · exact ⟨8, rfl, fun i hi => by omega⟩
    · exact ⟨4, rfl, fun i hi => by omega⟩
  obtain ⟨k, hk, hik⟩ := hk
  cases op with
  | add =>
    refine ⟨_, rfl, fun i hi _ => ?_⟩
    rw [← value_add sgn]
    exact lane_avx2op hk (fun a b => a + b) avx2 x y (hik i hi)
  | sub =>
    refine ⟨_, rfl, fun i hi _ => ?_⟩
    rw [← value_sub sgn]
    exact lane_avx2op hk (fun a b => a - b) avx2 x y (hik i hi)
  | mul =>
    refine ⟨_, rfl, fun i hi _ => ?_⟩
    rw [← value_mul sgn]
    exact lane_avx2op hk (fun a b => a * b) avx2 x y (hik i hi)
  | and => exact ⟨_, rfl, fun i hi _ => by rw [lane_and]; rfl⟩
  | or => exact ⟨_, rfl, fun i hi _ => by rw [lane_or]; rfl⟩
  | xor => exact ⟨_, rfl, fun i hi _ => by rw [lane_xor]; rfl⟩
  | div =>
    refine ⟨_, rfl, fun i hi hd => ?_⟩
    exact C39_avx_div avx2 B sgn hw x y hi (fun h => hd.1 (by rw [h]; cases sgn <;> simp [val]))
  | mod =>
    refine ⟨_, rfl, fun i hi hd => ?_⟩
    exact C39_avx_mod avx2 B sgn hw x y hi (fun h => hd.1 (by rw [h]; cases sgn <;> simp [val]))
  | shlBy c =>
    refine ⟨_, rfl, fun i hi _ => ?_⟩
    show _ = BitVec.ofInt w _
    rw [← shl_ofInt sgn]
    exact lane_avx1 hk (fun a => a <<< c) avx2 x (hik i hi)
  | shrBy c =>
    refine ⟨_, rfl, fun i hi _ => ?_⟩
    show _ = BitVec.ofInt w _
    rw [← shr_ofInt sgn]
    cases sgn
    · exact lane_avx1 hk (fun a => a >>> c) avx2 x (hik i hi)
    · exact lane_avx1 hk (fun a => a.sshiftRight c) avx2 x (hik i hi)
  | shl =>
    by_cases h : w = 32
    · subst h
      refine ⟨_, rfl, fun i hi hd => ?_⟩
      unfold sllvEpi32
      rw [lane_map2 _ _ _ hi, toNat_count (sgn := sgn) hd.1, shl_ofInt sgn]
      rfl
    · obtain ⟨r, hr, hl⟩ := generate_some (n := 256) (w := w)
        (g := fun i => shlLane sgn (Model.lane w x i) (Model.lane w y i))
        (v := fun i => IntOp.value .shl sgn (Model.lane w x i) (Model.lane w y i))
        (fun i hi => shlLane_some (hall ⟨.inl rfl, hw.resolve_right h⟩ i hi))
      refine ⟨r, ?_, fun i hi _ => hl i hi⟩
      show (if w = 32 then _ else _) = _
      rw [if_neg h, hr]
  | shr =>
    by_cases h : w = 32
    · subst h
      refine ⟨_, rfl, fun i hi hd => ?_⟩
      have := shr_ofInt sgn (Model.lane 32 x i) (val sgn (Model.lane 32 y i)).toNat
      cases sgn
      · rw [if_neg Bool.false_ne_true] at this ⊢
        unfold srlvEpi32
        rw [lane_map2 _ _ _ hi, toNat_count (sgn := false) hd.1, this]
        rfl
      · rw [if_pos rfl] at this ⊢
        unfold sravEpi32
        rw [lane_map2 _ _ _ hi, toNat_count (sgn := true) hd.1, this]
        rfl
    · obtain ⟨r, hr, hl⟩ := generate_some (n := 256) (w := w)
        (g := fun i => shrLane sgn (Model.lane w x i) (Model.lane w y i))
        (v := fun i => IntOp.value .shr sgn (Model.lane w x i) (Model.lane w y i))
        (fun i hi => shrLane_some (hall ⟨.inr rfl, hw.resolve_right h⟩ i hi))
      refine ⟨r, ?_, fun i hi _ => hl i hi⟩
      show (if w = 32 then _ else _) = _
      rw [if_neg h, hr]

/-- SSE.  Missing from the full claim: the operands of inactive lanes matter for the operators that are evaluated
entry by entry; `-32768 / -1` of short_v. -/
theorem C58_sse_partial (I : Isa) (avx2 sgn : Bool) {w : Nat} (hw : IntWidth w) (op : IntOp) (x y m : M128)
    (p : Nat → Bool) (hm : ∀ i, w * (i + 1) ≤ 128 → Model.lane w m i = laneMask (p i))
    (hdef : ∀ i, w * (i + 1) ≤ 128 → p i = true ∨ PerLaneSse avx2 w op →
      op.Defined sgn (Model.lane w x i) (Model.lane w y i))
    (hex : ∀ i, w * (i + 1) ≤ 128 → p i = true → ¬ShortException sgn op (Model.lane w x i) (Model.lane w y i)) :
    ∃ r, sseMasked I avx2 sgn w op x y m = some r ∧ ∀ i, w * (i + 1) ≤ 128 →
      Model.lane w r i =
        if p i then op.value sgn (Model.lane w x i) (Model.lane w y i) else Model.lane w x i := by
  obtain ⟨r, hr, hl⟩ := sseIntOp_lanes I avx2 sgn hw op x y (fun h i hi => hdef i hi (.inr h))
  refine ⟨sseAssign I 8 x r m, ?_, fun i hi => ?_⟩
  · unfold sseMasked; rw [hr]; rfl
  · have e : Model.lane w (sseAssign I 8 x r m) i = if p i then Model.lane w r i else Model.lane w x i := by
      rcases hw with rfl | rfl
      · exact lane_blendv I (w := 16) (v := 8) (c := 2) rfl (by decide) hi x r m (hm i hi)
      · exact lane_blendv I (w := 32) (v := 8) (c := 4) rfl (by decide) hi x r m (hm i hi)
    rw [e]
    cases hp : p i
    · rfl
    · rw [if_pos rfl, if_pos rfl, hl i hi (hdef i hi (.inl hp)) (hex i hi hp)]

/-- AVX2.  Missing from the full claim: the shift counts of inactive lanes matter for short_v and ushort_v. -/
theorem C58_avx_partial (avx2 : Bool) (B : CmpBuild) (sgn : Bool) {w : Nat} (hw : IntWidth w) (op : IntOp)
    (x y m : M256) (p : Nat → Bool) (hm : ∀ i, w * (i + 1) ≤ 256 → Model.lane w m i = laneMask (p i))
    (hdef : ∀ i, w * (i + 1) ≤ 256 → p i = true ∨ PerLaneAvx w op →
      op.Defined sgn (Model.lane w x i) (Model.lane w y i)) :
    ∃ r, avxMasked avx2 B sgn w op x y m = some r ∧ ∀ i, w * (i + 1) ≤ 256 →
      Model.lane w r i =
        if p i then op.value sgn (Model.lane w x i) (Model.lane w y i) else Model.lane w x i := by
  obtain ⟨r, hr, hl⟩ := avxIntOp_lanes avx2 B sgn hw op x y (fun h i hi => hdef i hi (.inr h))
  refine ⟨avxAssign avx2 8 x r m, ?_, fun i hi => ?_⟩
  · unfold avxMasked; rw [hr]; rfl
  · have e : Model.lane w (avxAssign avx2 8 x r m) i = if p i then Model.lane w r i else Model.lane w x i := by
      rcases hw with rfl | rfl
      · exact lane_avxBlendv8 avx2 (w := 16) (c := 2) (k := 8) rfl rfl (by omega) x r m (hm i hi)
      · exact lane_avxBlendv8 avx2 (w := 32) (c := 4) (k := 4) rfl rfl (by omega) x r m (hm i hi)
    rw [e]
    cases hp : p i
    · rfl
    · rw [if_pos rfl, if_pos rfl, hl i hi (hdef i hi (.inl hp))]

/-- `x(mask) /= y` with a division by zero in an inactive lane of an AVX2 vector, `x(mask) >>= y` of an SSE vector. -/
example : (∃ r, avxMasked true .avx true 32 .div (set1 32 (-7)) (setr 32 [2, 0, 2, 0, 2, 0, 2, 0])
        (setr 32 [-1, 0, -1, 0, -1, 0, -1, 0]) = some r ∧ lane 32 r 2 = -3#32 ∧ lane 32 r 3 = -7#32) ∧
    (∃ r, sseMasked sse2 false true 16 .shr (set1 16 (-8)) (set1 16 1#16) (slliSi128 (-1) 8) = some r ∧
      lane 16 r 3 = -8#16 ∧ lane 16 r 4 = -4#16) := by
  constructor
  · obtain ⟨r, hr, hl⟩ := C58_avx_partial true .avx true (w := 32) (.inr rfl) .div (set1 32 (-7))
      (setr 32 [2, 0, 2, 0, 2, 0, 2, 0]) (setr 32 [-1, 0, -1, 0, -1, 0, -1, 0]) (fun i => i % 2 == 0)
      (fun i hi => by
        match i, hi with
        | 0, _ => decide +kernel
        | 1, _ => decide +kernel
        | 2, _ => decide +kernel
        | 3, _ => decide +kernel
        | 4, _ => decide +kernel
        | 5, _ => decide +kernel
        | 6, _ => decide +kernel
        | 7, _ => decide +kernel
        | i + 8, hi => omega)
      (fun i hi hp => by
        match i, hi, hp with
        | 0, _, _ => decide +kernel
        | 2, _, _ => decide +kernel
        | 4, _, _ => decide +kernel
        | 6, _, _ => decide +kernel
        | 1, _, hp => exact absurd hp (by simp [PerLaneAvx])
        | 3, _, hp => exact absurd hp (by simp [PerLaneAvx])
        | 5, _, hp => exact absurd hp (by simp [PerLaneAvx])
        | 7, _, hp => exact absurd hp (by simp [PerLaneAvx])
        | i + 8, hi, _ => omega)
    exact ⟨r, hr, (hl 2 (by decide)).trans (by decide +kernel), (hl 3 (by decide)).trans (by decide +kernel)⟩
  · obtain ⟨r, hr, hl⟩ := C58_sse_partial sse2 false true (w := 16) (.inl rfl) .shr (set1 16 (-8)) (set1 16 1#16)
      (slliSi128 (-1) 8) (fun i => decide (4 ≤ i))
      (fun i hi => by
        match i, hi with
        | 0, _ => decide +kernel
        | 1, _ => decide +kernel
        | 2, _ => decide +kernel
        | 3, _ => decide +kernel
        | 4, _ => decide +kernel
        | 5, _ => decide +kernel
        | 6, _ => decide +kernel
        | 7, _ => decide +kernel
        | i + 8, hi => omega)
      (fun i hi _ => by
        rw [lane_set1 _ hi, lane_set1 _ hi]; exact ⟨by decide, by decide⟩)
      (fun i hi _ h => by rcases h.1 with h | h <;> cases h)
    exact ⟨r, hr, (hl 3 (by decide)).trans (by decide +kernel), (hl 4 (by decide)).trans (by decide +kernel)⟩

/-- The full claim fails on SSE: a division by zero in an inactive lane traps, with every instruction set and even
if no lane is active; so does a shift count out of range. -/
theorem C58_sse_violated (I : Isa) (avx2 : Bool) :
    ¬ ∀ (op : IntOp) (w : Nat) (x y m : M128) (p : Nat → Bool), IntWidth w →
      (∀ i, w * (i + 1) ≤ 128 → Model.lane w m i = laneMask (p i)) →
      (∀ i, w * (i + 1) ≤ 128 → p i = true → op.Defined true (Model.lane w x i) (Model.lane w y i)) →
      ∃ r, sseMasked I avx2 true w op x y m = some r := by
  intro h
  obtain ⟨r, hr⟩ := h .div 32 (set1 32 1#32) 0#128 0#128 (fun _ => false) (.inr rfl)
    (fun i hi => by rw [lane_zero]; rfl) (fun i hi hp => absurd hp (by decide))
  have : vDiv32 true (set1 32 1#32) 0#128 = none := by
    rw [← Option.not_isSome_iff_eq_none, (C39_div32 I true _ _).1]
    intro h
    exact (h 0 (by decide)).1 (by rw [lane_zero]; rfl)
  unfold sseMasked at hr
  rw [show sseIntOp I avx2 true 32 .div (set1 32 1#32) 0#128 = none from this] at hr
  exact absurd hr (by simp)

/-- The full claim fails on AVX2: a shift count of 32 in an inactive lane of a short_v. -/
theorem C58_avx_violated (avx2 : Bool) (B : CmpBuild) :
    ¬ ∀ (op : IntOp) (w : Nat) (x y m : M256) (p : Nat → Bool), IntWidth w →
      (∀ i, w * (i + 1) ≤ 256 → Model.lane w m i = laneMask (p i)) →
      (∀ i, w * (i + 1) ≤ 256 → p i = true → op.Defined true (Model.lane w x i) (Model.lane w y i)) →
      ∃ r, avxMasked avx2 B true w op x y m = some r := by
  intro h
  obtain ⟨r, hr⟩ := h .shl 16 (set1 16 1#16) (set1 16 32#16) 0#256 (fun _ => false) (.inl rfl)
    (fun i hi => by rw [lane_zero]; rfl) (fun i hi hp => absurd hp (by decide))
  have : avxIntOp avx2 B true 16 .shl (set1 16 1#16) (set1 16 32#16) = none := by
    have e : avxIntOp avx2 B true 16 .shl (set1 16 1#16) (set1 16 32#16) = generate 16 fun i =>
        shlLane true (Model.lane 16 (set1 16 1#16 : M256) i) (Model.lane 16 (set1 16 32#16 : M256) i) := by
      simp only [avxIntOp, Nat.reduceEqDiff, if_false]
    rw [e]
    refine generate_none (i := 0) (by decide) (by decide) ?_
    show shlLane true (Model.lane 16 (set1 16 1#16 : M256) 0) (Model.lane 16 (set1 16 32#16 : M256) 0) = none
    rw [lane_set1 _ (by decide), lane_set1 _ (by decide)]
    decide
  unfold avxMasked at hr
  rw [this] at hr
  exact absurd hr (by simp)

/-- `++x(mask)` and `--x(mask)` of the integer vectors. -/
theorem C58_incr (avx2 sgn : Bool) {w : Nat} (hw : IntWidth w) :
    (∀ (x m : M128) (i : Nat) (p : Bool), w * (i + 1) ≤ 128 → Model.lane w m i = laneMask p →
      Model.lane w (sseIncr w x m) i = BitVec.ofInt w (val sgn (Model.lane w x i) + if p then 1 else 0) ∧
      Model.lane w (sseDecr w x m) i = BitVec.ofInt w (val sgn (Model.lane w x i) - if p then 1 else 0)) ∧
    (∀ (x m : M256) (i : Nat) (p : Bool), w * (i + 1) ≤ 256 → Model.lane w m i = laneMask p →
      Model.lane w (avxIncr avx2 w x m) i = BitVec.ofInt w (val sgn (Model.lane w x i) + if p then 1 else 0) ∧
      Model.lane w (avxDecr avx2 w x m) i = BitVec.ofInt w (val sgn (Model.lane w x i) - if p then 1 else 0)) := by
  have hone : ∀ p : Bool, (laneMask p &&& 1 : BitVec w) = BitVec.ofInt w (if p then 1 else 0) := by
    intro p
    cases p
    · simp [laneMask]
    · rcases hw with rfl | rfl <;> decide
  have hadd : ∀ (a : BitVec w) (p : Bool), a + (laneMask p &&& 1) =
      BitVec.ofInt w (val sgn a + if p then 1 else 0) := by
    intro a p
    rw [hone, BitVec.ofInt_add, ofInt_val]
  have hsub : ∀ (a : BitVec w) (p : Bool), a - (laneMask p &&& 1) =
      BitVec.ofInt w (val sgn a - if p then 1 else 0) := by
    intro a p
    have h : BitVec.ofInt w (val sgn a - if p then 1 else 0) + BitVec.ofInt w (if p then 1 else 0) = a := by
      rw [← BitVec.ofInt_add, Int.sub_add_cancel, ofInt_val]
    rw [hone, ← BitVec.add_sub_cancel (BitVec.ofInt w (val sgn a - if p then 1 else 0)), h]
  have hk : ∃ k, w * k = 128 ∧ ∀ i, w * (i + 1) ≤ 256 → i < 2 * k := by
    rcases hw with rfl | rfl
    · exact ⟨8, rfl, fun i hi => by omega⟩
    · exact ⟨4, rfl, fun i hi => by omega⟩
  obtain ⟨k, hk, hik⟩ := hk
  refine ⟨fun x m i p hi hm => ⟨?_, ?_⟩, fun x m i p hi hm => ⟨?_, ?_⟩⟩
  · unfold sseIncr addEpi
    rw [lane_map2 _ _ _ hi, lane_and, lane_set1 _ hi, hm, ← hadd]
  · unfold sseDecr subEpi
    rw [lane_map2 _ _ _ hi, lane_and, lane_set1 _ hi, hm, ← hsub]
  · rw [← hadd, ← hm]
    refine (lane_avx2op hk (fun a b => a + b) avx2 x _ (hik i hi)).trans ?_
    rw [lane_and, lane_set1 _ hi]
  · rw [← hsub, ← hm]
    refine (lane_avx2op hk (fun a b => a - b) avx2 x _ (hik i hi)).trans ?_
    rw [lane_and, lane_set1 _ hi]

/-- Masked increment from 65535 and of an inactive lane. -/
example : lane 16 (sseIncr 16 (set1 16 65535#16) (slliSi128 (-1) 8)) 4 = 0#16 ∧
    lane 16 (sseIncr 16 (set1 16 65535#16) (slliSi128 (-1) 8)) 3 = 65535#16 ∧
    lane 32 (avxDecr false 32 0 (setr 32 [0, -1])) 1 = -1#32 := by decide +kernel

/-- float_v and double_v: active lanes get the result of the operation, inactive lanes keep their pattern. -/
theorem C58_float (I : Isa) (avx2 : Bool) {F : Fmt} {w : Nat} (h : FmtW F w) (op : FloatOp) :
    (∀ (x y m : M128) (i : Nat) (p : Bool), w * (i + 1) ≤ 128 → Model.lane w m i = laneMask p →
      Model.lane w (sseFloatMasked I F w op x y m) i =
        if p then op.lane F (Model.lane w x i) (Model.lane w y i) else Model.lane w x i) ∧
    (∀ (x y m : M256) (i : Nat) (p : Bool), w * (i + 1) ≤ 256 → Model.lane w m i = laneMask p →
      Model.lane w (avxFloatMasked avx2 F w op x y m) i =
        if p then op.lane F (Model.lane w x i) (Model.lane w y i) else Model.lane w x i) := by
  have hw0 : 0 < w := by cases h <;> decide
  refine ⟨fun x y m i p hi hm => ?_, fun x y m i p hi hm => ?_⟩
  · unfold sseFloatMasked sseAssign
    rw [lane_blendv I (w := w) (v := w) (c := 1) (Nat.mul_one w).symm hw0 hi x _ m hm, lane_map2 _ _ _ hi]
  · unfold avxFloatMasked avxAssign
    rw [if_neg (by cases h <;> decide), lane_blendvIntr _ _ _ hi, hm, laneMask_msb hw0, lane_map2 _ _ _ hi]

example : lane 32 (avxFloatMasked true f32 32 .div (set1 32 0x3f800000#32) 0#256 (setr 32 [0, -1])) 0 = 0x3f800000#32 ∧
    lane 32 (avxFloatMasked true f32 32 .div (set1 32 0x3f800000#32) 0#256 (setr 32 [0, -1])) 1 = 0x7f800000#32 := by
  constructor
  · rw [(C58_float sse2 true .single .div).2 _ _ _ 0 false (by decide) (by decide +kernel), lane_set1 _ (by decide)]; rfl
  · rw [(C58_float sse2 true .single .div).2 _ _ _ 1 true (by decide) (by decide +kernel), lane_set1 _ (by decide), lane_zero]
    decide +kernel

/-- `++x(mask)`, `--x(mask)` of float_v and double_v.  Missing from the full claim: inactive lanes of `++` that hold
`-0.0` and, for both, inactive lanes with a signalling NaN. -/
theorem C58_float_incr_partial {F : Fmt} {n w : Nat} {K : FConst n} (h : Platform F n w K) (x m : BitVec n) {i : Nat}
    (hi : w * (i + 1) ≤ n) :
    ∃ one : BitVec w, isFinite F one = true ∧ fval F one = 2 ^ oneExp F ∧
      (Model.lane w m i = laneMask true →
        Model.lane w (fIncr K F w x m) i = fAdd F (Model.lane w x i) one ∧
        Model.lane w (fDecr K F w x m) i = fSub F (Model.lane w x i) one) ∧
      (Model.lane w m i = laneMask false →
        (isNaN F (Model.lane w x i) = true → (Model.lane w x i).toNat.testBit (F.m - 1) = true) →
        Model.lane w (fDecr K F w x m) i = Model.lane w x i ∧
        (¬(fval F (Model.lane w x i) = 0 ∧ fneg F (Model.lane w x i) = true) →
          Model.lane w (fIncr K F w x m) i = Model.lane w x i)) := by
  refine ⟨BitVec.ofNat w (bias F * 2 ^ F.m), ?_, ?_, fun hm => ?_, fun hm hn => ?_⟩
  · cases h.fmtW <;> decide +kernel
  · cases h.fmtW <;> decide +kernel
  · unfold fIncr fDecr
    rw [lane_map2 _ _ _ hi, lane_map2 _ _ _ hi, lane_and, hm, h.one hi]
    have : ∀ v : BitVec w, laneMask true &&& v = v := by intro v; simp [laneMask]
    rw [this]
    exact ⟨rfl, rfl⟩
  · unfold fIncr fDecr
    rw [lane_map2 _ _ _ hi, lane_map2 _ _ _ hi, lane_and, hm]
    have : ∀ v : BitVec w, laneMask false &&& v = 0#w := by intro v; simp [laneMask]
    rw [this]
    refine ⟨fSub_zero h.fmtW hn, fun hz => fAdd_zero h.fmtW (fun h0 => hz ⟨?_, h0.2⟩) hn⟩
    unfold fval
    rw [h0.1, h0.2]
    simp [magVal]

/-- Masked `++` of a `-0.0` in an inactive lane gives `+0.0`. -/
theorem C58_float_incr_violated :
    Model.lane 32 (fIncr sseFloat f32 32 (set1 32 0x80000000#32) 0#128) 0 = 0#32 ∧
    Model.lane 64 (fIncr avxDouble f64 64 (set1 64 0x8000000000000000#64) 0#256) 3 = 0#64 := by
  unfold fIncr
  rw [lane_map2 _ _ _ (by decide), lane_map2 _ _ _ (by decide), lane_and, lane_and, lane_set1 _ (by decide),
    lane_set1 _ (by decide), lane_zero, lane_zero, BitVec.zero_and, BitVec.zero_and]
  constructor <;> decide +kernel

/-- An inactive lane with 1.0 and an active one. -/
example : lane 32 (fIncr sseFloat f32 32 (set1 32 0x3f800000#32) (setr 32 [0, -1])) 0 = 0x3f800000#32 ∧
    lane 32 (fIncr sseFloat f32 32 (set1 32 0x3f800000#32) (setr 32 [0, -1])) 1 = 0x40000000#32 := by
  unfold fIncr
  rw [lane_map2 _ _ _ (by decide), lane_map2 _ _ _ (by decide), lane_and, lane_and, lane_set1 _ (by decide),
    lane_set1 _ (by decide)]
  constructor <;> decide +kernel

/-- Signed sums, differences and products of `int` that do not fit. -/
def IntOverflow (op : IntOp) (sgn : Bool) {w : Nat} (a b : BitVec w) : Prop :=
  sgn = true ∧ w = 32 ∧ match op with
    | .add => ¬(-2147483648 ≤ val sgn a + val sgn b ∧ val sgn a + val sgn b < 2147483648)
    | .sub => ¬(-2147483648 ≤ val sgn a - val sgn b ∧ val sgn a - val sgn b < 2147483648)
    | .mul => ¬(-2147483648 ≤ val sgn a * val sgn b ∧ val sgn a * val sgn b < 2147483648)
    | _ => False

private theorem tdiv_fits {x y : BitVec 32} (h0 : y.toInt ≠ 0) (h : ¬(x.toInt = -2147483648 ∧ y.toInt = -1)) :
    -2147483648 ≤ x.toInt.tdiv y.toInt ∧ x.toInt.tdiv y.toInt < 2147483648 := by
  have hx := bound32 x
  have n1 : (x.toInt.tdiv y.toInt).natAbs = x.toInt.natAbs / y.toInt.natAbs := Int.natAbs_tdiv _ _
  have n0 : x.toInt.natAbs / y.toInt.natAbs ≤ x.toInt.natAbs := Nat.div_le_self _ _
  refine ⟨by omega, ?_⟩
  rcases Int.lt_or_le (x.toInt.tdiv y.toInt) 2147483648 with h' | h'
  · exact h'
  · exfalso
    apply h
    have n2 : x.toInt.natAbs = 2147483648 := by omega
    rw [n2] at n1
    have n3 : y.toInt.natAbs = 1 := by
      rcases Nat.lt_or_ge y.toInt.natAbs 2 with h | h
      · omega
      · have := Nat.div_le_div_left (a := 2147483648) h (by decide)
        omega
    refine ⟨by omega, ?_⟩
    rcases Int.natAbs_eq y.toInt with hb | hb
    · rw [n3] at hb
      rw [hb, show ((1 : Nat) : Int) = 1 from rfl, Int.tdiv_one] at h'
      omega
    · rw [n3] at hb
      exact hb

/-- The operators of C++ on the entries. -/
theorem scalarIntOp_value (sgn : Bool) {w : Nat} (hw : IntWidth w) (op : IntOp) (a b : BitVec w)
    (hd : op.Defined sgn a b) (ho : ¬IntOverflow op sgn a b) : scalarIntOp sgn op a b = some (op.value sgn a b) := by
  have fits : ∀ n : Int, (sgn = true → w = 32 → -2147483648 ≤ n ∧ n < 2147483648) →
      (if sgn = true ∧ w = 32 ∧ ¬(-2147483648 ≤ n ∧ n < 2147483648) then none else some (BitVec.ofInt w n)) =
        some (BitVec.ofInt w n) := by
    intro n hn
    rw [if_neg]
    exact fun h => h.2.2 (hn h.1 h.2.1)
  have hdiv : val sgn b ≠ 0 → ¬(sgn = true ∧ w = 32 ∧ val sgn a = -2147483648 ∧ val sgn b = -1) →
      sgn = true → w = 32 → -2147483648 ≤ (val sgn a).tdiv (val sgn b) ∧ (val sgn a).tdiv (val sgn b) < 2147483648 := by
    intro h0 h1 hs h32
    subst hs h32
    rw [val_true, val_true] at *
    exact tdiv_fits h0 (fun h => h1 ⟨rfl, rfl, h⟩)
  cases op with
  | add => exact fits _ fun hs h32 => Classical.byContradiction fun h => ho ⟨hs, h32, h⟩
  | sub => exact fits _ fun hs h32 => Classical.byContradiction fun h => ho ⟨hs, h32, h⟩
  | mul => exact fits _ fun hs h32 => Classical.byContradiction fun h => ho ⟨hs, h32, h⟩
  | and => rfl
  | or => rfl
  | xor => rfl
  | shl => exact shlLane_some hd
  | shr => exact shrLane_some hd
  | shlBy k =>
    show (if k < 32 then _ else _) = _
    rw [if_pos (show k < 32 from hd), shl_ofInt sgn]; rfl
  | shrBy k =>
    show (if k < 32 then _ else _) = _
    rw [if_pos (show k < 32 from hd), shr_ofInt sgn]; rfl
  | div =>
    show (if val sgn b = 0 then _ else _) = _
    rw [if_neg hd.1]
    exact fits _ (hdiv hd.1 hd.2)
  | mod =>
    show (if val sgn b = 0 then _ else Option.map _ _) = _
    rw [if_neg hd.1]
    exact congrArg (Option.map fun _ => BitVec.ofInt w ((val sgn a).tmod (val sgn b))) (fits _ (hdiv hd.1 hd.2))

/-- `where(mask) | x op= y` with Scalar vectors and with `bool` masks: the operands do not matter if the mask is not
set. -/
theorem C58_scalar_where (sgn : Bool) {w : Nat} (hw : IntWidth w) (op : IntOp) (x y : BitVec w) (m : Bool)
    (hd : m = true → op.Defined sgn x y ∧ ¬IntOverflow op sgn x y) :
    scalarWhere sgn op x y m = some (if m then op.value sgn x y else x) := by
  unfold scalarWhere
  cases m
  · rfl
  · rw [if_pos rfl, if_pos rfl]
    exact scalarIntOp_value sgn hw op x y (hd rfl).1 (hd rfl).2

example : scalarWhere true .div 1#32 0#32 false = some 1#32 ∧ scalarWhere true .div 7#32 (-2) true = some (-3) := by
  decide

/-- `x(mask) op= y` with Scalar vectors.  Missing from the full claim: the operands matter if the mask is not set. -/
theorem C58_scalar_partial (sgn : Bool) {w : Nat} (hw : IntWidth w) (op : IntOp) (x y : BitVec w) (m : Bool)
    (hd : op.Defined sgn x y) (ho : ¬IntOverflow op sgn x y) :
    scalarMasked sgn op x y m = some (if m then op.value sgn x y else x) := by
  unfold scalarMasked
  rw [scalarIntOp_value sgn hw op x y hd ho]
  rfl

example : scalarMasked true .add 7#32 (-2) true = some 5 ∧ scalarMasked true .mod 7#16 (-2) false = some 7 := by
  decide

/-- A division by zero although the mask is not set. -/
theorem C58_scalar_violated (x : BitVec 32) : scalarMasked true .div x 0#32 false = none := by
  rfl

end Vc.Prop
