import Verif.Lemma.AvxCast
import Verif.Prop.FloatCvt

/-!
C52, AVX: `simd_cast` between the integer vectors of AVX2, and between AVX2 and SSE.

Every entry of the result that has a source entry is the source entry converted like the C++ integer types
(`Spec.castInt`); the entries keep their order.  `ext` and `u` are the register halves the code leaves
undefined, so the theorems hold whatever they contain.
-/

namespace Vc.Prop

open Vc.Model Vc.Lemma Vc.Spec

/-- The entry widths of the integer vectors. -/
def IntW (w : Nat) : Prop := w = 16 ∨ w = 32

/-- 1 AVX2 vector to 1 AVX2 vector. -/
theorem C52_avx_cast (ext : Option M128) {v w : Nat} (hv : IntW v) (hw : IntW w) (ss ds : Bool) (x : M256) :
    ∃ r, aiCast ext v w ss ds x = some r ∧ ∀ i, i < 256 / v → i < 256 / w →
      val ds (Model.lane w r i) = castInt w ds (val ss (Model.lane v x i)) := by
  rcases hv with rfl | rfl <;> rcases hw with rfl | rfl
  · refine ⟨_, rfl, fun i _ _ => ?_⟩
    rw [← val_ofInt (Or.inl rfl), ofInt_val_self]
  · refine ⟨_, rfl, fun i _ h => ?_⟩
    have h8 : i < 8 := h
    rw [← val_ofInt (Or.inr rfl)]
    cases ss
    · rw [if_neg Bool.false_ne_true, (lane_cvt16_256 _ h8).2, lane_lo128 (k := 8) rfl _ h8]
    · rw [if_pos rfl, (lane_cvt16_256 _ h8).1, lane_lo128 (k := 8) rfl _ h8]
  · refine ⟨_, rfl, fun i h _ => ?_⟩
    have h8 : i < 8 := h
    rw [← val_ofInt (Or.inl rfl), lane_zeroExtend_lo (c := 8) rfl _ _ h8, ← narrow_val]
    cases ds
    · rw [if_neg Bool.false_ne_true, lane_cvtIntUshortAvx _ h8]
    · rw [if_pos rfl, lane_cvtIntShortAvx _ _ h8]
  · refine ⟨_, rfl, fun i _ _ => ?_⟩
    rw [← val_ofInt (Or.inr rfl), ofInt_val_self]

/-- The bit patterns of a cast of two vectors. -/
theorem lane_aiCast2 (ds : Bool) (x0 x1 : M256) :
    ∃ r, aiCast2 ds x0 x1 = some r ∧ ∀ i, i < 16 → Model.lane 16 r i = (lane2 32 8 x0 x1 i).setWidth 16 := by
  cases ds
  · obtain ⟨r, hr, hl⟩ := lane_simdCastIntUshort2 x0 x1
    exact ⟨r, hr, fun i hi => hl i hi⟩
  · obtain ⟨r, hr, hl⟩ := lane_simdCastIntShort2 x0 x1
    exact ⟨r, hr, fun i hi => hl i hi⟩

/-- 2 AVX2 vectors of int or uint to 1 AVX2 vector of short or ushort. -/
theorem C52_avx_cast2 (ss ds : Bool) (x0 x1 : M256) :
    ∃ r, aiCast2 ds x0 x1 = some r ∧ ∀ i, i < 16 →
      val ds (Model.lane 16 r i) = castInt 16 ds (val ss (lane2 32 8 x0 x1 i)) := by
  obtain ⟨r, hr, hl⟩ := lane_aiCast2 ds x0 x1
  exact ⟨r, hr, fun i hi => by rw [hl i hi, narrow_val ss, val_ofInt (Or.inl rfl)]⟩

/-- 1 SSE vector to 1 AVX2 vector. -/
theorem C52_avx_fromSse (ext : Option M128) {v w : Nat} (hv : IntW v) (hw : IntW w) (ss ds : Bool) (x : M128) :
    ∃ r, aiFromSse ext v w ss x = some r ∧
      (∀ i, i < 128 / v → i < 256 / w →
        val ds (Model.lane w r i) = castInt w ds (val ss (Model.lane v x i))) ∧
      (ext = none → ∀ i, 128 / v ≤ i → i < 256 / w → Model.lane w r i = 0#w) := by
  rcases hv with rfl | rfl <;> rcases hw with rfl | rfl
  · refine ⟨_, rfl, fun i h _ => ?_, fun he i h1 h2 => ?_⟩
    · rw [← val_ofInt (Or.inl rfl), ofInt_val_self, lane_zeroExtend_lo (c := 8) rfl _ _ h]
    · rw [he]; exact lane_zeroExtend_hi (c := 8) rfl _ h1 h2
  · refine ⟨_, rfl, fun i h _ => ?_, fun _ i h1 h2 => ?_⟩
    · have h8 : i < 8 := h
      rw [← val_ofInt (Or.inr rfl)]
      cases ss
      · rw [if_neg Bool.false_ne_true, (lane_cvtShortIntAvx _ _ h8).2, ← widen_u]
      · rw [if_pos rfl, (lane_cvtShortIntAvx _ _ h8).1, widen_s]
    · exact absurd (Nat.lt_of_le_of_lt h1 h2) (by decide)
  · refine ⟨_, rfl, fun i h _ => ?_, fun he i h1 h2 => ?_⟩
    · have h4 : i < 4 := h
      rw [← val_ofInt (Or.inl rfl), lane_zeroExtend_lo (c := 8) rfl _ _ (by omega), ← narrow_val,
        lane_convertInt32ToInt16 _ _ (by omega), if_pos h4]
    · have h4 : 4 ≤ i := h1
      rw [he]
      by_cases h8 : i < 8
      · rw [lane_zeroExtend_lo (c := 8) rfl _ _ h8, lane_convertInt32ToInt16 _ _ h8, if_neg (by omega), lane_zero]
        rfl
      · exact lane_zeroExtend_hi (c := 8) rfl _ (by omega) h2
  · refine ⟨_, rfl, fun i h _ => ?_, fun he i h1 h2 => ?_⟩
    · rw [← val_ofInt (Or.inr rfl), ofInt_val_self, lane_zeroExtend_lo (c := 4) rfl _ _ h]
    · rw [he]; exact lane_zeroExtend_hi (c := 4) rfl _ h1 h2

/-- 2 SSE vectors to 1 AVX2 vector: vectors of the same entry width, or int / uint to short / ushort. -/
theorem C52_avx_fromSse2 (ext : Option M128) {v w : Nat} (hv : IntW v) (hw : IntW w) (hle : w ≤ v) (ss ds : Bool)
    (x0 x1 : M128) :
    ∃ r, aiFromSse2 ext v w x0 x1 = some r ∧
      (∀ i, i < 256 / v → i < 256 / w →
        val ds (Model.lane w r i) = castInt w ds (val ss (lane2 v (128 / v) x0 x1 i))) ∧
      (ext = none → ∀ i, 256 / v ≤ i → i < 256 / w → Model.lane w r i = 0#w) := by
  rcases hv with rfl | rfl <;> rcases hw with rfl | rfl
  · refine ⟨_, rfl, fun i h _ => ?_, fun _ i h1 h2 => absurd (Nat.lt_of_le_of_lt h1 h2) (by decide)⟩
    rw [← val_ofInt (Or.inl rfl), ofInt_val_self, lane_concat128 (k := 8) rfl _ _ h]
    rfl
  · exact absurd hle (by decide)
  · refine ⟨_, rfl, fun i h _ => ?_, fun he i h1 h2 => ?_⟩
    · have h8 : i < 8 := h
      rw [← val_ofInt (Or.inl rfl), lane_zeroExtend_lo (c := 8) rfl _ _ h8, ← narrow_val,
        lane_convertInt32ToInt16 _ _ h8]
      rfl
    · rw [he]; exact lane_zeroExtend_hi (c := 8) rfl _ h1 h2
  · refine ⟨_, rfl, fun i h _ => ?_, fun _ i h1 h2 => absurd (Nat.lt_of_le_of_lt h1 h2) (by decide)⟩
    rw [← val_ofInt (Or.inr rfl), ofInt_val_self, lane_concat128 (k := 4) rfl _ _ h]
    rfl

/-- 3 and 4 SSE vectors of int or uint to 1 AVX2 vector of short or ushort. -/
theorem C52_avx_fromSse34 (ext : Option M128) (ss ds : Bool) (x0 x1 x2 x3 : M128) :
    (∃ r, aiFromSse3 ext ds x0 x1 x2 = some r ∧
      (∀ i, i < 12 → val ds (Model.lane 16 r i) = castInt 16 ds (val ss (lane4 32 4 x0 x1 x2 0#128 i))) ∧
      (ext = none → ∀ i, 12 ≤ i → i < 16 → Model.lane 16 r i = 0#16)) ∧
    (∃ r, aiFromSse4 ds x0 x1 x2 x3 = some r ∧
      ∀ i, i < 16 → val ds (Model.lane 16 r i) = castInt 16 ds (val ss (lane4 32 4 x0 x1 x2 x3 i))) := by
  constructor
  · obtain ⟨r, hr, hl⟩ := lane_aiCast2 ds (concat128 x0 x1) (zeroExtend ext x2)
    refine ⟨r, hr, fun i hi => ?_, fun he i h1 h2 => ?_⟩
    · rw [hl i (by omega), narrow_val ss, val_ofInt (Or.inl rfl)]
      unfold lane2 lane4 lane2
      by_cases h8 : i < 8
      · rw [if_pos h8, if_pos h8, lane_concat128 (k := 4) rfl _ _ (by omega)]
      · rw [if_neg h8, if_neg h8, lane_zeroExtend_lo (c := 4) rfl _ _ (by omega), if_pos (by omega)]
    · rw [hl i h2, he]
      unfold lane2
      rw [if_neg (by omega), lane_zeroExtend_hi (c := 4) rfl _ (by omega) (by omega)]
      rfl
  · obtain ⟨r, hr, hl⟩ := lane_aiCast2 ds (concat128 x0 x1) (concat128 x2 x3)
    refine ⟨r, hr, fun i hi => ?_⟩
    rw [hl i hi, narrow_val ss, val_ofInt (Or.inl rfl)]
    unfold lane2 lane4 lane2
    by_cases h8 : i < 8
    · rw [if_pos h8, if_pos h8, lane_concat128 (k := 4) rfl _ _ (by omega)]
    · rw [if_neg h8, if_neg h8, lane_concat128 (k := 4) rfl _ _ (by omega)]

/-- 1 AVX2 vector to 1 SSE vector. -/
theorem C52_avx_toSse (I : Isa) {v w : Nat} (hv : IntW v) (hw : IntW w) (ss ds : Bool) (x : M256) :
    ∃ r, aiToSse I v w ss ds x = some r ∧ ∀ i, i < 256 / v → i < 128 / w →
      val ds (Model.lane w r i) = castInt w ds (val ss (Model.lane v x i)) := by
  rcases hv with rfl | rfl <;> rcases hw with rfl | rfl
  · refine ⟨_, rfl, fun i _ h => ?_⟩
    rw [← val_ofInt (Or.inl rfl), ofInt_val_self, lane_lo128 (k := 8) rfl _ h]
  · refine ⟨_, rfl, fun i _ h => ?_⟩
    have h4 : i < 4 := h
    rw [← val_ofInt (Or.inr rfl)]
    cases ss
    · rw [if_neg Bool.false_ne_true, lane_convertUshortInt _ _ h4, widen_u, lane_lo128 (k := 8) rfl _ (by omega)]
    · rw [if_pos rfl, lane_convertShortInt _ _ h4, widen_s, lane_lo128 (k := 8) rfl _ (by omega)]
  · refine ⟨_, rfl, fun i _ h => ?_⟩
    have h8 : i < 8 := h
    rw [← val_ofInt (Or.inl rfl), ← narrow_val]
    cases ds
    · rw [if_neg Bool.false_ne_true, lane_cvtIntUshortAvx _ h8]
    · rw [if_pos rfl, lane_cvtIntShortAvx _ _ h8]
  · refine ⟨_, rfl, fun i _ h => ?_⟩
    rw [← val_ofInt (Or.inr rfl), ofInt_val_self, lane_lo128 (k := 4) rfl _ h]

/-- 1 SSE vector to 1 SSE vector. -/
theorem C52_sse_cast (I : Isa) {v w : Nat} (hv : IntW v) (hw : IntW w) (ss ds : Bool) (x : M128) :
    ∃ r, sseCastInt I v w ss x = some r ∧
      (∀ i, i < 128 / v → i < 128 / w →
        val ds (Model.lane w r i) = castInt w ds (val ss (Model.lane v x i))) ∧
      (∀ i, 128 / v ≤ i → i < 128 / w → Model.lane w r i = 0#w) := by
  rcases hv with rfl | rfl <;> rcases hw with rfl | rfl
  · refine ⟨_, rfl, fun i _ h => ?_, fun i h1 h2 => absurd (Nat.lt_of_le_of_lt h1 h2) (by decide)⟩
    rw [← val_ofInt (Or.inl rfl), ofInt_val_self]
  · refine ⟨_, rfl, fun i _ h => ?_, fun i h1 h2 => absurd (Nat.lt_of_le_of_lt h1 h2) (by decide)⟩
    have h4 : i < 4 := h
    rw [← val_ofInt (Or.inr rfl)]
    cases ss
    · rw [if_neg Bool.false_ne_true, lane_convertUshortInt _ _ h4, widen_u]
    · rw [if_pos rfl, lane_convertShortInt _ _ h4, widen_s]
  · refine ⟨_, rfl, fun i h _ => ?_, fun i h1 h2 => ?_⟩
    · have h4 : i < 4 := h
      rw [← val_ofInt (Or.inl rfl), ← narrow_val, lane_convertInt32ToInt16 _ _ (by omega), if_pos h4]
    · have h4 : 4 ≤ i := h1
      rw [lane_convertInt32ToInt16 _ _ h2, if_neg (by omega), lane_zero]
      rfl
  · refine ⟨_, rfl, fun i _ h => ?_, fun i h1 h2 => absurd (Nat.lt_of_le_of_lt h1 h2) (by decide)⟩
    rw [← val_ofInt (Or.inr rfl), ofInt_val_self]

/-! ### Casts with offset -/

/-- The `offset`-th group of `size` entries is moved to the front (AVX2 to AVX2), for every entry type (`v` bits)
and every number of entries of the result for which a group does not straddle the halves of the register; with
AVX2 these are all combinations: (16, 4), (16, 8), (32, 4). -/
theorem C52_avx_offset_move (u : M128) {b c size g offset : Nat} (hb : b * c = 16) (hg : size * g = c)
    (ho : 0 < offset) (h : offset * size + size ≤ 2 * c) (x : M256) :
    ∃ r, avxOffsetMove u (8 * b) offset size x = some r ∧
      ∀ i, i < size → Model.lane (8 * b) r i = Model.lane (8 * b) x (offset * size + i) := by
  have hc : 8 * b * c = 128 := by rw [Nat.mul_assoc, hb]
  have hb0 : 0 < b := Nat.pos_of_ne_zero (by rintro rfl; simp at hb)
  have hc0 : 0 < c := Nat.pos_of_ne_zero (by rintro rfl; simp at hb)
  have hs0 : 0 < size := Nat.pos_of_ne_zero (by rintro rfl; simp at hg; omega)
  have hg0 : 0 < g := Nat.pos_of_ne_zero (by rintro rfl; simp at hg; omega)
  have hsh : 8 * b / 8 * offset * size = b * (offset * size) := by
    rw [Nat.mul_div_cancel_left _ (by decide), Nat.mul_assoc]
  have hle : size ≤ c := hg ▸ Nat.le_mul_of_pos_right _ hg0
  have h1 : 0 < b * (offset * size) := Nat.mul_pos hb0 (Nat.mul_pos ho hs0)
  have h2 : b * (offset * size) < 32 := by
    have : b * (offset * size) < b * (2 * c) := Nat.mul_lt_mul_of_pos_left (by omega) hb0
    have e : b * (2 * c) = 32 := by rw [Nat.mul_left_comm, hb]
    omega
  -- the groups do not straddle
  have hlow : offset * size < c → offset * size + size ≤ c := by
    intro hl
    have : offset < g := by
      rw [← hg, Nat.mul_comm] at hl
      exact Nat.lt_of_mul_lt_mul_left hl
    calc offset * size + size = (offset + 1) * size := by rw [Nat.succ_mul]
      _ ≤ g * size := Nat.mul_le_mul_right _ this
      _ = c := by rw [Nat.mul_comm, hg]
  have cmp : b * (offset * size) < 16 ↔ offset * size < c := by
    rw [← hb]; exact Nat.mul_lt_mul_left hb0
  have cmpe : b * (offset * size) = 16 ↔ offset * size = c := by
    rw [← hb]; exact Nat.mul_right_inj (by omega)
  unfold avxOffsetMove
  simp only [hsh]
  rw [if_pos ⟨h1, h2⟩]
  refine ⟨_, rfl, fun i hi => ?_⟩
  have eight : 8 * (b * (offset * size)) = 8 * b * (offset * size) := by rw [Nat.mul_assoc]
  by_cases hl : offset * size < c
  · rw [if_pos (cmp.2 hl), lane_castTo256_lo hc _ _ (by omega), lane_srliSi128 _ eight,
      lane_lo128 hc _ (by have := hlow hl; omega), Nat.add_comm]
  · rw [if_neg (fun e => hl (cmp.1 e))]
    by_cases he : offset * size = c
    · rw [if_pos (cmpe.2 he), permute_1z, lane_concat128 hc _ _ (by omega), if_pos (by omega),
        lane_hi128 hc _ (by omega), he]
    · rw [if_neg (fun e => he (cmpe.1 e)), lane_castTo256_lo hc _ _ (by omega),
        lane_srliSi128 (j := offset * size - c) _ (by rw [Nat.mul_sub, Nat.mul_sub, eight, hc]),
        lane_hi128 hc _ (by omega)]
      congr 1; omega

/-- The same for AVX2 to SSE; groups may straddle the halves. -/
theorem C52_avx_offset_move_sse {b c size offset : Nat} (hb : b * c = 16) (hs : 0 < size) (hsc : size ≤ c)
    (ho : 0 < offset) (h : offset * size + size ≤ 2 * c) (x : M256) :
    ∃ r, sseOffsetMove (8 * b) offset size x = some r ∧
      ∀ i, i < size → Model.lane (8 * b) r i = Model.lane (8 * b) x (offset * size + i) := by
  have hc : 8 * b * c = 128 := by rw [Nat.mul_assoc, hb]
  have hb0 : 0 < b := Nat.pos_of_ne_zero (by rintro rfl; simp at hb)
  have hsh : 8 * b / 8 * offset * size = b * (offset * size) := by
    rw [Nat.mul_div_cancel_left _ (by decide), Nat.mul_assoc]
  have h1 : 0 < b * (offset * size) := Nat.mul_pos hb0 (Nat.mul_pos ho hs)
  have h2 : b * (offset * size) < 32 := by
    have : b * (offset * size) < b * (2 * c) := Nat.mul_lt_mul_of_pos_left (by omega) hb0
    have e : b * (2 * c) = 32 := by rw [Nat.mul_left_comm, hb]
    omega
  have cmpe : b * (offset * size) = 16 ↔ offset * size = c := by
    rw [← hb]; exact Nat.mul_right_inj (by omega)
  have eight : 8 * (b * (offset * size)) = 8 * b * (offset * size) := by rw [Nat.mul_assoc]
  unfold sseOffsetMove
  simp only [hsh]
  rw [if_pos ⟨h1, h2⟩]
  refine ⟨_, rfl, fun i hi => ?_⟩
  by_cases he : offset * size = c
  · rw [if_pos (cmpe.2 he), lane_hi128 hc _ (by omega), he]
  · rw [if_neg (fun e => he (cmpe.1 e)), lane_alignr _ _ eight hc (by omega)]
    by_cases hl : i + offset * size < c
    · rw [if_pos hl, lane_lo128 hc _ hl, Nat.add_comm]
    · rw [if_neg hl, lane_hi128 hc _ (by omega)]
      congr 1; omega

/-- `simd_cast<int_v, 1>` and `simd_cast<uint_v, 1>` of short_v and ushort_v, AVX2. -/
theorem C52_avx_offset (ext : Option M128) (u : M128) (ss ds : Bool) (x : M256) :
    ∃ r, aiCastOffset ext u 16 32 ss ds 1 x = some r ∧
      ∀ i, i < 8 → val ds (Model.lane 32 r i) = castInt 32 ds (val ss (Model.lane 16 x (8 + i))) := by
  obtain ⟨m, hm, hml⟩ := C52_avx_offset_move u (b := 2) (c := 8) (size := 8) (g := 1) (offset := 1) rfl rfl
    (by decide) (by decide) x
  obtain ⟨r, hr, hl⟩ := C52_avx_cast ext (Or.inl rfl) (Or.inr rfl) ss ds m (v := 16) (w := 32)
  refine ⟨r, ?_, fun i hi => ?_⟩
  · have hm' : avxOffsetMove u 16 1 (256 / 32) x = some m := hm
    show (avxOffsetMove u 16 1 (256 / 32) x).bind (fun m => aiCast ext 16 32 ss ds m) = _
    rw [hm']; exact hr
  · rw [hl i (by omega) hi, hml i hi]

/-- `simd_cast<R, offset>` of the AVX2 integer vectors to the SSE integer vectors, for every offset for which
the vector has entries. -/
theorem C52_avx_offset_sse (I : Isa) {v w : Nat} (hv : IntW v) (hw : IntW w) (ss ds : Bool) {offset : Nat}
    (ho : 0 < offset) (h : (offset + 1) * (128 / w) ≤ 256 / v) (x : M256) :
    ∃ r, aiToSseOffset I v w ss offset x = some r ∧
      ∀ i, i < 128 / w →
        val ds (Model.lane w r i) = castInt w ds (val ss (Model.lane v x (offset * (128 / w) + i))) := by
  have hle : 128 / w ≤ 128 / v := by
    rcases hv with rfl | rfl <;> rcases hw with rfl | rfl <;> first | decide | (exfalso; simp at h; omega)
  obtain ⟨m, hm, hml⟩ := C52_avx_offset_move_sse (b := v / 8) (c := 128 / v) (size := 128 / w) (offset := offset)
    (by rcases hv with rfl | rfl <;> rfl) (by rcases hw with rfl | rfl <;> decide) hle ho
    (by rw [Nat.succ_mul] at h; rcases hv with rfl | rfl <;> simpa using h) x
  have hv8 : 8 * (v / 8) = v := by rcases hv with rfl | rfl <;> rfl
  rw [hv8] at hm hml
  obtain ⟨r, hr, hl, -⟩ := C52_sse_cast I hv hw ss ds m
  refine ⟨r, ?_, fun i hi => ?_⟩
  · show (sseOffsetMove v offset (128 / w) x).bind (fun m => sseCastInt I v w ss m) = _
    rw [hm]; exact hr
  · rw [hl i (by omega) hi, hml i hi]

/-- The entries 4 to 7 of the upper half of a short_v, as SSE::int_v. -/
example : ∃ r, aiToSseOffset sse2 16 32 true 3 (setr 16 [0, 1, 2, 3, 4, 5, 6, 7, 8, 9, 10, 11, 12, 13, 14, 0xffff#16]) =
    some r ∧ val true (Model.lane 32 r 3) = -1 := by
  obtain ⟨r, hr, hl⟩ := C52_avx_offset_sse sse2 (v := 16) (w := 32) (Or.inl rfl) (Or.inr rfl) true true
    (offset := 3) (by decide) (by decide) (setr 16 [0, 1, 2, 3, 4, 5, 6, 7, 8, 9, 10, 11, 12, 13, 14, 0xffff#16])
  refine ⟨r, hr, ?_⟩
  rw [hl 3 (by decide)]
  decide +kernel

/-- 40000 as int becomes -25536 as short, and -1 as int becomes 4294967295 as uint. -/
example : ∃ r, aiCast none 32 16 true true (set1 32 40000#32) = some r ∧ val true (Model.lane 16 r 5) = -25536 := by
  obtain ⟨r, hr, hl⟩ := C52_avx_cast none (v := 32) (w := 16) (Or.inr rfl) (Or.inl rfl) true true (set1 32 40000#32)
  refine ⟨r, hr, ?_⟩
  rw [hl 5 (by decide) (by decide), lane_set1 _ (by decide)]
  decide

example : castInt 32 false (-1) = 4294967295 ∧ castInt 16 true 40000 = -25536 := by decide

end Vc.Prop
