import Verif.Lemma.LoadStore
import Verif.Prop.FloatCvt
import Verif.Prop.SseInt
import Verif.Lemma.AvxDiv

/-!
C68: loads of native vectors, with and without conversion.
-/

namespace Vc.Prop

open Vc.Model Vc.Spec Vc.Lemma

/-! ### SSE -/

private theorem conv_refl {T : ETy} (x : BitVec T.bits) : Converts T T x x := by
  unfold Converts; rw [if_pos rfl]

private theorem lane_ps128 (x : M128) {i : Nat} (h : i < 4) :
    Model.lane 32 (cvtepi32PsN x) i = cvtI2F f32 32 (Model.lane 32 x i) := by
  unfold cvtepi32PsN; rw [lane_map1 _ _ (by omega)]

/-- Loading an SSE vector gives the entries of the array, each converted to the entry type, for every source type
that compiles and every combination of `Vc::Unaligned` and `Vc::Streaming`.  Only the `Size` entries themselves
have to be readable.  Without `Vc::Unaligned` the pointer has to be a multiple of 16; missing from the full
statement: float_v from double with AVX needs a multiple of 32. -/
theorem C68_sse_load_partial (I : Isa) (avx : Bool) (fl : LFlags) (m : ByteMem) (a : Int) {dst src : ETy}
    (hd : dst ∈ vecTypes) (hs : src = dst ∨ (dst, src) ∈ sseLoads)
    (hal : fl.unaligned = false → a % 16 = 0)
    (hfd : avx = true → dst = .float → src = .double → fl = ⟨false, false⟩ → a % 32 = 0)
    (e : Nat → BitVec src.bits) (he : ArrayAt src m a (128 / dst.bits) e) :
    ∃ r, sseLoad I avx fl m a dst src = some r ∧
      ∀ i, i < 128 / dst.bits → Converts src dst (e i) (Model.lane dst.bits r i) := by
  have al : Al fl 16 a := by
    rcases h : fl.unaligned
    · exact .inr (hal h)
    · exact .inl h
  unfold ArrayAt at he
  cases dst <;> try (simp [vecTypes] at hd; done)
  · -- double
    cases src <;> try (simp [sseLoads] at hs; done)
    · exact load_id (load16_array (c := 8) (n := 2) rfl (by decide) rfl al he) (Converts .double .double) fun _ => conv_refl _
    · exact load_map (loadLow_array (c := 4) (n := 2) (k := 8) rfl (by decide) rfl (by decide) he) cvtpsPd
        (Converts .float .double) fun x i hi => ((C55_float_double x).1 i hi).1
    · exact load_map (loadLow_array (c := 4) (n := 2) (k := 8) rfl (by decide) rfl (by decide) he) cvtIntDouble
        (Converts .int .double) fun x i hi => rounded_of_exact ((C55_from_int x x).2.1 i hi)
    · exact load_map (loadLow_array (c := 4) (n := 2) (k := 8) rfl (by decide) rfl (by decide) he) cvtUintDouble
        (Converts .uint .double) fun x i hi => rounded_of_exact ((C55_from_uint I false x 0).2.2.1 i hi)
    · exact load_map (loadLow_array (c := 2) (n := 2) (k := 4) rfl (by decide) rfl (by decide) he) (cvtShortDouble I)
        (Converts .short .double) fun x i hi => rounded_of_exact ((C55_from_short I false x).2.2.1 i hi).1
    · exact load_map (loadLow_array (c := 2) (n := 2) (k := 4) rfl (by decide) rfl (by decide) he) (cvtUshortDouble I)
        (Converts .ushort .double) fun x i hi => rounded_of_exact ((C55_from_short I false x).2.2.1 i hi).2
  · -- float
    cases src <;> try (simp [sseLoads] at hs; done)
    · -- from double
      show ∃ r, sseLoadFloatDouble avx fl m a = some r ∧ _
      unfold sseLoadFloatDouble
      cases avx
      · rw [if_neg Bool.false_ne_true]
        obtain ⟨x0, e0, l0⟩ := load16_array (c := 8) (n := 2) (w := 64) rfl (by decide) rfl al
          (fun i hi => he i (Nat.lt_trans hi (by decide)))
        obtain ⟨x1, e1, l1⟩ := load16_array (c := 8) (n := 2) (w := 64) (a := a + 16) (e := fun i => e (2 + i)) rfl
          (by decide) rfl (al.imp id fun h => by omega) (m := m) (fl := fl) (fun i hi => by
            have := he (2 + i) (show 2 + i < 128 / 32 by omega)
            have h2 : (a + ((ETy.double.bytes : Nat) : Int) * ((2 + i : Nat) : Int)) = a + 16 + ((8 : Nat) : Int) * (i : Int) := by
              show a + (8 : Int) * ((2 + i : Nat) : Int) = a + 16 + (8 : Int) * (i : Int)
              omega
            rw [h2] at this; exact this)
        refine ⟨movelh (cvtpdPs x0) (cvtpdPs x1), by rw [e0, e1]; rfl, fun i hi => ?_⟩
        have h := (C55_double_float false x0 x1 0 0).2.2.1 i hi
        unfold lane2 cvtDoubleFloat2 at h
        rw [if_neg Bool.false_ne_true] at h
        by_cases h2 : i < 2
        · rw [if_pos h2, l0 i h2] at h; exact h
        · have hi4 : i < 4 := hi
          rw [if_neg h2, l1 _ (by omega), show 2 + (i - 2) = i by omega] at h; exact h
      · rw [if_pos rfl]
        refine load_map (load32_array (c := 8) (n := 2) rfl (by decide) rfl ?_ he) cvtpdPs256 (Converts .double .float)
          fun x i hi => (C55_double_float true 0 0 x 0).2.1 i hi
        rcases fl with ⟨u, s⟩
        cases u
        · cases s
          · exact .inl (.inr (hfd rfl rfl rfl rfl))
          · exact .inr ⟨rfl, hal rfl⟩
        · exact .inl (.inl rfl)
    · exact load_id (load16_array (c := 4) (n := 4) rfl (by decide) rfl al he) (Converts .float .float) fun _ => conv_refl _
    · exact load_map (load16_array (c := 4) (n := 4) rfl (by decide) rfl al he) cvtepi32PsN (Converts .int .float)
        fun x i hi => (C55_from_int x 0).1 i (by have : i < 4 := hi; omega)
    · exact load_map (load16_array (c := 4) (n := 4) rfl (by decide) rfl al he) (cvtUintFloat I) (Converts .uint .float)
        fun x i hi => (C55_from_uint I false x 0).1 i hi
    · exact load_map2 (loadLow_array (c := 2) (n := 4) (k := 8) rfl (by decide) rfl (by decide) he) (cvtepi16epi32 I)
        cvtepi32PsN (Converts .short .float) fun x i hi => by
          show RoundedInt f32 (val true (Model.lane 16 x i)) (Model.lane 32 (cvtepi32PsN (cvtepi16epi32 I x)) i)
          rw [lane_ps128 _ hi, lane_cvtepi16epi32 I x hi]; exact (cvtI2F_ext .single (by decide) _).1
    · exact load_map2 (loadLow_array (c := 2) (n := 4) (k := 8) rfl (by decide) rfl (by decide) he) (cvtepu16epi32 I)
        cvtepi32PsN (Converts .ushort .float) fun x i hi => by
          show RoundedInt f32 (val false (Model.lane 16 x i)) (Model.lane 32 (cvtepi32PsN (cvtepu16epi32 I x)) i)
          rw [lane_ps128 _ hi, lane_cvtepu16epi32 I x hi]; exact (cvtI2F_ext .single (by decide) _).2
    · exact load_map2 (loadLow_array (c := 1) (n := 4) (k := 4) rfl (by decide) rfl (by decide) he) (cvtepi8epi32 I)
        cvtepi32PsN (Converts .schar .float) fun x i hi => by
          show RoundedInt f32 (val true (Model.lane 8 x i)) (Model.lane 32 (cvtepi32PsN (cvtepi8epi32 I x)) i)
          rw [lane_ps128 _ hi, lane_cvtepi8epi32 I x hi]; exact (cvtI2F_ext .single (by decide) _).1
    · exact load_map2 (loadLow_array (c := 1) (n := 4) (k := 4) rfl (by decide) rfl (by decide) he) (cvtepu8epi32 I)
        cvtepi32PsN (Converts .uchar .float) fun x i hi => by
          show RoundedInt f32 (val false (Model.lane 8 x i)) (Model.lane 32 (cvtepi32PsN (cvtepu8epi32 I x)) i)
          rw [lane_ps128 _ hi, lane_cvtepu8epi32 I x hi]; exact (cvtI2F_ext .single (by decide) _).2
  · -- int
    cases src <;> try (simp [sseLoads] at hs; done)
    · exact load_id (load16_array (c := 4) (n := 4) rfl (by decide) rfl al he) (Converts .int .int) fun _ => conv_refl _
    · exact load_id (load16_array (c := 4) (n := 4) rfl (by decide) rfl al he) (Converts .uint .int)
        fun _ => cast_eq 32 _ _
    · exact load_map (loadLow_array (c := 2) (n := 4) (k := 8) rfl (by decide) rfl (by decide) he) (cvtepi16epi32 I)
        (Converts .short .int) fun x i hi => lane_cvtepi16epi32 I x hi
    · exact load_map (loadLow_array (c := 2) (n := 4) (k := 8) rfl (by decide) rfl (by decide) he) (cvtepu16epi32 I)
        (Converts .ushort .int) fun x i hi => (lane_cvtepu16epi32 I x hi).trans (zext_eq 32 _)
    · exact load_map (loadLow_array (c := 1) (n := 4) (k := 4) rfl (by decide) rfl (by decide) he) (cvtepi8epi32 I)
        (Converts .schar .int) fun x i hi => lane_cvtepi8epi32 I x hi
    · exact load_map (loadLow_array (c := 1) (n := 4) (k := 4) rfl (by decide) rfl (by decide) he) (cvtepu8epi32 I)
        (Converts .uchar .int) fun x i hi => (lane_cvtepu8epi32 I x hi).trans (zext_eq 32 _)
  · -- uint
    cases src <;> try (simp [sseLoads] at hs; done)
    · exact load_id (load16_array (c := 4) (n := 4) rfl (by decide) rfl al he) (Converts .uint .uint) fun _ => conv_refl _
    · exact load_map (loadLow_array (c := 2) (n := 4) (k := 8) rfl (by decide) rfl (by decide) he) (cvtepu16epi32 I)
        (Converts .ushort .uint) fun x i hi => (lane_cvtepu16epi32 I x hi).trans (zext_eq 32 _)
    · exact load_map (loadLow_array (c := 1) (n := 4) (k := 4) rfl (by decide) rfl (by decide) he) (cvtepu8epi32 I)
        (Converts .uchar .uint) fun x i hi => (lane_cvtepu8epi32 I x hi).trans (zext_eq 32 _)
  · -- short
    cases src <;> try (simp [sseLoads] at hs; done)
    · exact load_id (load16_array (c := 2) (n := 8) rfl (by decide) rfl al he) (Converts .short .short)
        fun _ => conv_refl _
    · exact load_id (load16_array (c := 2) (n := 8) rfl (by decide) rfl al he) (Converts .ushort .short)
        fun _ => cast_eq 16 _ _
    · exact load_map (loadLow_array (c := 1) (n := 8) (k := 8) rfl (by decide) rfl (by decide) he) (cvtepi8epi16 I)
        (Converts .schar .short) fun x i hi => lane_cvtepi8epi16 I x hi
    · exact load_map (loadLow_array (c := 1) (n := 8) (k := 8) rfl (by decide) rfl (by decide) he) (cvtepu8epi16 I)
        (Converts .uchar .short) fun x i hi => (lane_cvtepu8epi16 I x hi).trans (zext_eq 16 _)
  · -- ushort
    cases src <;> try (simp [sseLoads] at hs; done)
    · exact load_id (load16_array (c := 2) (n := 8) rfl (by decide) rfl al he) (Converts .ushort .ushort)
        fun _ => conv_refl _
    · exact load_map (loadLow_array (c := 1) (n := 8) (k := 8) rfl (by decide) rfl (by decide) he) (cvtepu8epi16 I)
        (Converts .uchar .ushort) fun x i hi => (lane_cvtepu8epi16 I x hi).trans (zext_eq 16 _)

/-! ### AVX -/

/-- Loading an AVX vector gives the entries of the array, each converted to the entry type.  Only the `Size` entries
themselves have to be readable, without `Vc::Unaligned` the pointer has to be a multiple of 32.  Missing from the
full statement: double_v from 16- and 8-bit integers, float_v from unsigned integers greater than 2^31 + 2^24. -/
theorem C68_avx_load_partial (avx2 : Bool) (fl : LFlags) (m : ByteMem) (a : Int) {dst src : ETy}
    (hd : dst ∈ vecTypes) (hs : src = dst ∨ (dst, src) ∈ avxLoads)
    (hal : fl.unaligned = false → a % 32 = 0)
    (e : Nat → BitVec src.bits) (he : ArrayAt src m a (256 / dst.bits) e)
    (hx : dst = .double → src ∉ [.short, .ushort, .schar, .uchar])
    (hu : dst = .float → src = .uint → ∀ i, i < 8 → (e i).toNat ≤ 2147483648 + 16777216) :
    ∃ r, avxLoad avx2 fl m a dst src = some r ∧
      ∀ i, i < 256 / dst.bits → Converts src dst (e i) (Model.lane dst.bits r i) := by
  have al : Al fl 32 a := by
    rcases h : fl.unaligned
    · exact .inr (hal h)
    · exact .inl h
  have al16 : Al fl 16 a := al.imp id fun h => by omega
  unfold ArrayAt at he
  cases dst <;> try (simp [vecTypes] at hd; done)
  · -- double
    cases src <;> try (simp at hx; done)
    · exact load_id (load32_array (c := 8) (n := 2) rfl (by decide) rfl (.inl al) he) (Converts .double .double)
        fun _ => conv_refl _
    · exact load_map (load16_array (c := 4) (n := 4) rfl (by decide) rfl al16 he) cvtpsPd256
        (Converts .float .double) fun x i hi => ((C55_float_double x).2 i hi).1
    · exact load_map (load16_array (c := 4) (n := 4) rfl (by decide) rfl al16 he) cvtIntDoubleAvx
        (Converts .int .double) fun x i hi => rounded_of_exact ((C55_from_int x x).2.2 i hi)
    · exact load_map (load16_array (c := 4) (n := 4) rfl (by decide) rfl al16 he) cvtUintDoubleAvx
        (Converts .uint .double) fun x i hi => rounded_of_exact ((C55_from_uint sse2 false x 0).2.2.2 i hi).1
  · -- float
    cases src
    · -- from double
      show ∃ r, avxLoadFloatDouble fl m a = some r ∧ _
      obtain ⟨x0, e0, l0⟩ := load32_array (c := 8) (n := 2) (w := 64) rfl (by decide) rfl (.inl al)
        (fun i hi => he i (Nat.lt_trans hi (by decide)))
      obtain ⟨x1, e1, l1⟩ := load32_array (c := 8) (n := 2) (w := 64) (a := a + 32) (e := fun i => e (4 + i)) rfl
        (by decide) rfl (.inl (al.imp id fun h => by omega)) (m := m) (fl := fl) (fun i hi => by
          have := he (4 + i) (show 4 + i < 256 / 32 by omega)
          have h2 : (a + ((ETy.double.bytes : Nat) : Int) * ((4 + i : Nat) : Int)) = a + 32 + ((8 : Nat) : Int) * (i : Int) := by
            show a + (8 : Int) * ((4 + i : Nat) : Int) = a + 32 + (8 : Int) * (i : Int)
            omega
          rw [h2] at this; exact this)
      refine ⟨simdCastDoubleFloat2 x0 x1, by unfold avxLoadFloatDouble; rw [e0, e1]; rfl, fun i hi => ?_⟩
      have h := (C55_double_float false 0 0 x0 x1).2.2.2 i hi
      unfold lane2 at h
      by_cases h2 : i < 4
      · rw [if_pos h2, l0 i h2] at h; exact h
      · have hi8 : i < 8 := hi
        rw [if_neg h2, l1 _ (by omega), show 4 + (i - 4) = i by omega] at h; exact h
    · exact load_id (load32_array (c := 4) (n := 4) rfl (by decide) rfl (.inl al) he) (Converts .float .float)
        fun _ => conv_refl _
    · exact load_map (load32_array (c := 4) (n := 4) rfl (by decide) rfl (.inl al) he) cvtIntFloatAvx
        (Converts .int .float) fun x i hi => (C55_from_int x 0).1 i (by have : i < 8 := hi; omega)
    · obtain ⟨x, hx, hl⟩ := load32_array (c := 4) (n := 4) (w := 32) rfl (by decide) rfl (.inl al) he
      refine ⟨avxUintFloat avx2 x, ?_, fun i hi => ?_⟩
      · show (load32 fl m a).map _ = _
        rw [hx]; rfl
      · show RoundedInt f32 (val false (e i)) (Model.lane 32 (avxUintFloat avx2 x) i)
        rw [lane_avxUintFloat avx2 x hi, hl i hi]
        exact avxU2f_spec _ (hu rfl rfl i hi)
    · exact load_map (load16_array (c := 2) (n := 8) rfl (by decide) rfl al16 he) (cvtShortFloatAvx avx2)
        (Converts .short .float) fun x i hi => rounded_of_exact ((C55_from_short sse2 avx2 x).2.1 i hi).1
    · exact load_map (load16_array (c := 2) (n := 8) rfl (by decide) rfl al16 he) (cvtUshortFloatAvx avx2)
        (Converts .ushort .float) fun x i hi => rounded_of_exact ((C55_from_short sse2 avx2 x).2.1 i hi).2
    · exact load_map2 (loadLow_array (c := 1) (n := 8) (k := 8) rfl (by decide) rfl (by decide) he)
        (avxExtend avx2 true 8 32 4) cvtepi32PsN (Converts .schar .float) fun x i hi => by
          show RoundedInt f32 (val true (Model.lane 8 x i)) (Model.lane 32 (cvtepi32PsN (avxExtend avx2 true 8 32 4 x)) i)
          rw [lane_cvtepi32PsN _ hi, lane_avxExtend (v := 8) (w := 32) (c := 4) (sh := 4) _ _ rfl rfl x hi, if_pos rfl]
          exact (cvtI2F_ext .single (by decide) _).1
    · exact load_map2 (loadLow_array (c := 1) (n := 8) (k := 8) rfl (by decide) rfl (by decide) he)
        (avxExtend avx2 false 8 32 4) cvtepi32PsN (Converts .uchar .float) fun x i hi => by
          show RoundedInt f32 (val false (Model.lane 8 x i)) (Model.lane 32 (cvtepi32PsN (avxExtend avx2 false 8 32 4 x)) i)
          rw [lane_cvtepi32PsN _ hi, lane_avxExtend (v := 8) (w := 32) (c := 4) (sh := 4) _ _ rfl rfl x hi, if_neg Bool.false_ne_true]
          exact (cvtI2F_ext .single (by decide) _).2
  · -- int
    cases src <;> try (simp [sseLoads, avxLoads] at hs; done)
    · exact load_id (load32_array (c := 4) (n := 4) rfl (by decide) rfl (.inl al) he) (Converts .int .int)
        fun _ => conv_refl _
    · exact load_id (load32_array (c := 4) (n := 4) rfl (by decide) rfl (.inl al) he) (Converts .uint .int)
        fun _ => cast_eq 32 _ _
    · exact load_map (load16_array (c := 2) (n := 8) rfl (by decide) rfl al16 he) (avxExtend avx2 true 16 32 8)
        (Converts .short .int) fun x i hi => by
          show Model.lane 32 (avxExtend avx2 true 16 32 8 x) i = BitVec.ofInt 32 (val true (Model.lane 16 x i))
          rw [lane_avxExtend (v := 16) (w := 32) (c := 4) (sh := 8) _ _ rfl rfl x hi, if_pos rfl]; exact sext_eq 32 _
    · exact load_map (load16_array (c := 2) (n := 8) rfl (by decide) rfl al16 he) (avxExtend avx2 false 16 32 8)
        (Converts .ushort .int) fun x i hi => by
          show Model.lane 32 (avxExtend avx2 false 16 32 8 x) i = BitVec.ofInt 32 (val false (Model.lane 16 x i))
          rw [lane_avxExtend (v := 16) (w := 32) (c := 4) (sh := 8) _ _ rfl rfl x hi, if_neg Bool.false_ne_true]; exact zext_eq 32 _
    · exact load_map (loadLow_array (c := 1) (n := 8) (k := 8) rfl (by decide) rfl (by decide) he)
        (avxExtend avx2 true 8 32 4) (Converts .schar .int) fun x i hi => by
          show Model.lane 32 (avxExtend avx2 true 8 32 4 x) i = BitVec.ofInt 32 (val true (Model.lane 8 x i))
          rw [lane_avxExtend (v := 8) (w := 32) (c := 4) (sh := 4) _ _ rfl rfl x hi, if_pos rfl]; exact sext_eq 32 _
    · exact load_map (loadLow_array (c := 1) (n := 8) (k := 8) rfl (by decide) rfl (by decide) he)
        (avxExtend avx2 false 8 32 4) (Converts .uchar .int) fun x i hi => by
          show Model.lane 32 (avxExtend avx2 false 8 32 4 x) i = BitVec.ofInt 32 (val false (Model.lane 8 x i))
          rw [lane_avxExtend (v := 8) (w := 32) (c := 4) (sh := 4) _ _ rfl rfl x hi, if_neg Bool.false_ne_true]; exact zext_eq 32 _
  · -- uint
    cases src <;> try (simp [sseLoads, avxLoads] at hs; done)
    · exact load_id (load32_array (c := 4) (n := 4) rfl (by decide) rfl (.inl al) he) (Converts .uint .uint)
        fun _ => conv_refl _
    · exact load_map (load16_array (c := 2) (n := 8) rfl (by decide) rfl al16 he) (avxExtend avx2 false 16 32 8)
        (Converts .ushort .uint) fun x i hi => by
          show Model.lane 32 (avxExtend avx2 false 16 32 8 x) i = BitVec.ofInt 32 (val false (Model.lane 16 x i))
          rw [lane_avxExtend (v := 16) (w := 32) (c := 4) (sh := 8) _ _ rfl rfl x hi, if_neg Bool.false_ne_true]; exact zext_eq 32 _
    · exact load_map (loadLow_array (c := 1) (n := 8) (k := 8) rfl (by decide) rfl (by decide) he)
        (avxExtend avx2 false 8 32 4) (Converts .uchar .uint) fun x i hi => by
          show Model.lane 32 (avxExtend avx2 false 8 32 4 x) i = BitVec.ofInt 32 (val false (Model.lane 8 x i))
          rw [lane_avxExtend (v := 8) (w := 32) (c := 4) (sh := 4) _ _ rfl rfl x hi, if_neg Bool.false_ne_true]; exact zext_eq 32 _
  · -- short
    cases src <;> try (simp [sseLoads, avxLoads] at hs; done)
    · exact load_id (load32_array (c := 2) (n := 8) rfl (by decide) rfl (.inl al) he) (Converts .short .short)
        fun _ => conv_refl _
    · exact load_id (load32_array (c := 2) (n := 8) rfl (by decide) rfl (.inl al) he) (Converts .ushort .short)
        fun _ => cast_eq 16 _ _
    · exact load_map (load16_array (c := 1) (n := 16) rfl (by decide) rfl al16 he) (avxExtend avx2 true 8 16 8)
        (Converts .schar .short) fun x i hi => by
          show Model.lane 16 (avxExtend avx2 true 8 16 8 x) i = BitVec.ofInt 16 (val true (Model.lane 8 x i))
          rw [lane_avxExtend (v := 8) (w := 16) (c := 8) (sh := 8) _ _ rfl rfl x hi, if_pos rfl]; exact sext_eq 16 _
    · exact load_map (load16_array (c := 1) (n := 16) rfl (by decide) rfl al16 he) (avxExtend avx2 false 8 16 8)
        (Converts .uchar .short) fun x i hi => by
          show Model.lane 16 (avxExtend avx2 false 8 16 8 x) i = BitVec.ofInt 16 (val false (Model.lane 8 x i))
          rw [lane_avxExtend (v := 8) (w := 16) (c := 8) (sh := 8) _ _ rfl rfl x hi, if_neg Bool.false_ne_true]; exact zext_eq 16 _
  · -- ushort
    cases src <;> try (simp [sseLoads, avxLoads] at hs; done)
    · exact load_id (load32_array (c := 2) (n := 8) rfl (by decide) rfl (.inl al) he) (Converts .ushort .ushort)
        fun _ => conv_refl _
    · exact load_map (load16_array (c := 1) (n := 16) rfl (by decide) rfl al16 he) (avxExtend avx2 false 8 16 8)
        (Converts .uchar .ushort) fun x i hi => by
          show Model.lane 16 (avxExtend avx2 false 8 16 8 x) i = BitVec.ofInt 16 (val false (Model.lane 8 x i))
          rw [lane_avxExtend (v := 8) (w := 16) (c := 8) (sh := 8) _ _ rfl rfl x hi, if_neg Bool.false_ne_true]; exact zext_eq 16 _

/-! ### Where the loads go wrong -/

/-- Memory holding the bytes `l` from address `a` on, and nothing else. -/
def bytesAt (a : Int) (l : List (BitVec 8)) : ByteMem := fun x => if a ≤ x then l[(x - a).toNat]? else none

private theorem extract_zero (w k : Nat) : (0 : BitVec w).extractLsb' k 8 = 0#8 := by
  apply BitVec.eq_of_getLsbD_eq
  intro i hi
  simp

private theorem of_conv_sd {e : BitVec 16} {r : BitVec 64} (h : Converts .short .double e r) :
    RoundedInt f64 (val true e) r := h

private theorem of_conv_uf {e : BitVec 32} {r : BitVec 32} (h : Converts .uint .float e r) :
    RoundedInt f32 (val false e) r := h

/-- float_v from double compiled for AVX with `Vc::Aligned`: a pointer that is a multiple of
`float_v::MemoryAlignment`, 16, is not enough. -/
theorem C68_sse_load_aligned_violated :
    ¬ ∀ (I : Isa) (m : ByteMem) (a : Int) (e : Nat → BitVec 64), a % 16 = 0 → ArrayAt .double m a 4 e →
      ∃ r, sseLoad I true ⟨false, false⟩ m a .float .double = some r := by
  intro h
  obtain ⟨r, hr⟩ := h sse42 (bytesAt 16 (List.replicate 32 0)) 16 (fun _ => 0) (by decide) (by
    intro i hi j hj
    have hj' : j < 8 := by have : 8 * j < 64 := hj; omega
    have : ∀ i : Fin 4, ∀ j : Fin 8,
        bytesAt 16 (List.replicate 32 0) (16 + (ETy.double.bytes : Nat) * (i.1 : Int) + (j.1 : Nat)) = some 0#8 := by
      decide +kernel
    exact (this ⟨i, hi⟩ ⟨j, hj'⟩).trans (congrArg some (extract_zero 64 _).symm))
  have : sseLoad sse42 true ⟨false, false⟩ (bytesAt 16 (List.replicate 32 0)) 16 .float .double = none := by
    decide +kernel
  rw [this] at hr
  exact absurd hr (by simp)

/-- double_v from arrays of 16- and 8-bit integers with AVX: 16 bytes are read, and taken for four ints.  Where only
the four entries may be read, the load fails. -/
theorem C68_avx_load_overread_violated {src : ETy} (hs : src ∈ [.short, .ushort, .schar, .uchar]) :
    ¬ ∀ (avx2 : Bool) (fl : LFlags) (m : ByteMem) (a : Int) (e : Nat → BitVec src.bits),
      (fl.unaligned = false → a % 32 = 0) → ArrayAt src m a 4 e → ∃ r, avxLoad avx2 fl m a .double src = some r := by
  intro h
  have key : ∀ k : Fin 9, loadu 128 (bytesAt 0 (List.replicate k 0)) 0 = none := by decide +kernel
  have arr : ∀ (k : Nat) (n : Nat), n = 4 * k → ∀ i : Nat, i < 4 → ∀ j : Nat, j < k →
      bytesAt 0 (List.replicate n 0) (0 + (k : Nat) * (i : Int) + (j : Nat)) = some 0#8 := by
    intro k n hn i hi j hj
    unfold bytesAt
    have e1 : (0 + (k : Nat) * (i : Int) + (j : Nat) - 0).toNat = k * i + j := by
      have : ((k : Nat) : Int) * (i : Int) = ((k * i : Nat) : Int) := by push_cast; rfl
      rw [this]; omega
    have e2 : k * i + j < n := by
      have : k * (i + 1) ≤ k * 4 := Nat.mul_le_mul_left _ hi
      rw [Nat.mul_add] at this; omega
    have : ((k : Nat) : Int) * (i : Int) = ((k * i : Nat) : Int) := by push_cast; rfl
    rw [if_pos (by rw [this]; omega), e1, List.getElem?_replicate, if_pos e2]
    rfl
  obtain ⟨r, hr⟩ := h true ⟨true, false⟩ (bytesAt 0 (List.replicate (4 * src.bytes) 0)) 0 (fun _ => 0)
    (fun h => absurd h (by decide)) (by
      intro i hi j hj
      rw [extract_zero]
      exact arr src.bytes _ rfl i hi j (by revert hs hj; cases src <;> simp [ETy.bytes, ETy.bits] <;> omega))
  have e : avxLoad true ⟨true, false⟩ (bytesAt 0 (List.replicate (4 * src.bytes) 0)) 0 .double src =
      (loadu 128 (bytesAt 0 (List.replicate (4 * src.bytes) 0)) 0).map cvtIntDoubleAvx := by
    revert hs; cases src <;> simp <;> rfl
  have hb : 4 * src.bytes < 9 := by revert hs; cases src <;> decide
  rw [e, key ⟨4 * src.bytes, hb⟩] at hr
  exact absurd hr (by simp)

/-- Where more may be read, the values are wrong: from the shorts 1, 0, 2, 0, 3, 0, 4, 0 the vector 1, 2, 3, 4
instead of 1, 0, 2, 0. -/
theorem C68_avx_load_value_violated :
    ¬ ∀ (avx2 : Bool) (fl : LFlags) (m : ByteMem) (a : Int) (e : Nat → BitVec 16),
      (fl.unaligned = false → a % 32 = 0) → ArrayAt .short m a 8 e →
      ∃ r, avxLoad avx2 fl m a .double .short = some r ∧
        ∀ i, i < 4 → Converts .short .double (e i) (Model.lane 64 r i) := by
  intro h
  let l : List (BitVec 8) := [1, 0, 0, 0, 2, 0, 0, 0, 3, 0, 0, 0, 4, 0, 0, 0]
  let e : Nat → BitVec 16 := fun i => if i % 2 = 0 then BitVec.ofNat 16 (i / 2 + 1) else 0
  obtain ⟨r, hr, hl⟩ := h true ⟨true, false⟩ (bytesAt 0 l) 0 e (fun h => absurd h (by decide)) (by
    intro i hi j hj
    have : ∀ i : Fin 8, ∀ j : Fin 2,
        bytesAt 0 l (0 + (ETy.short.bytes : Nat) * (i.1 : Int) + (j.1 : Nat)) = some ((e i.1).extractLsb' (8 * j.1) 8) := by
      decide +kernel
    exact this ⟨i, hi⟩ ⟨j, by have : 8 * j < 16 := hj; omega⟩)
  have h1 : avxLoad true ⟨true, false⟩ (bytesAt 0 l) 0 .double .short =
      some (cvtIntDoubleAvx (ofLanes 32 fun i => BitVec.ofNat 32 (i + 1))) := by
    decide +kernel
  rw [h1] at hr
  have hr' := Option.some.inj hr
  subst hr'
  have h2 := of_conv_sd (hl 1 (by decide))
  have ev : val true (e 1) = 0 := by decide
  rw [ev] at h2
  have h3 : ∀ r : BitVec 64, RoundedInt f64 0 r → fval f64 r = 0 := fun r h => by
    have := (h.2 0#64 (by decide)).1
    have e0 : fval f64 (0#64) = 0 := by decide +kernel
    rw [e0] at this
    omega
  have h4 := h3 _ h2
  revert h4
  decide +kernel

/-- float_v from unsigned int with AVX: 0xc0000081 becomes 0xc0000000 although 0xc0000100 is nearer. -/
theorem C68_avx_load_uint_violated :
    ¬ ∀ (avx2 : Bool) (fl : LFlags) (m : ByteMem) (a : Int) (e : Nat → BitVec 32),
      (fl.unaligned = false → a % 32 = 0) → ArrayAt .uint m a 8 e →
      ∃ r, avxLoad avx2 fl m a .float .uint = some r ∧
        ∀ i, i < 8 → Converts .uint .float (e i) (Model.lane 32 r i) := by
  intro h
  let l : List (BitVec 8) := [0x81, 0, 0, 0xc0, 0x81, 0, 0, 0xc0, 0x81, 0, 0, 0xc0, 0x81, 0, 0, 0xc0,
    0x81, 0, 0, 0xc0, 0x81, 0, 0, 0xc0, 0x81, 0, 0, 0xc0, 0x81, 0, 0, 0xc0]
  obtain ⟨r, hr, hl⟩ := h true ⟨true, false⟩ (bytesAt 0 l) 0 (fun _ => 0xc0000081#32) (fun h => absurd h (by decide)) (by
    intro i hi j hj
    have : ∀ i : Fin 8, ∀ j : Fin 4,
        bytesAt 0 l (0 + (ETy.uint.bytes : Nat) * (i.1 : Int) + (j.1 : Nat)) =
          some ((0xc0000081#32).extractLsb' (8 * j.1) 8) := by
      decide +kernel
    exact this ⟨i, hi⟩ ⟨j, by have : 8 * j < 32 := hj; omega⟩)
  have h1 : load32 ⟨true, false⟩ (bytesAt 0 l) 0 = some (set1 32 0xc0000081#32) := by decide +kernel
  have h1' : avxLoad true ⟨true, false⟩ (bytesAt 0 l) 0 .float .uint =
      some (avxUintFloat true (set1 32 0xc0000081#32)) := by
    show (load32 ⟨true, false⟩ (bytesAt 0 l) 0).map (avxUintFloat true) = _
    rw [h1]; rfl
  rw [h1'] at hr
  have hr' := Option.some.inj hr
  subst hr'
  have h2 := of_conv_uf (hl 0 (by decide))
  rw [lane_avxUintFloat true _ (by decide), lane_set1 _ (by decide)] at h2
  have h3 := (h2.2 0x4f400001#32 (by decide)).1
  revert h3
  decide +kernel

/-! ### Examples -/

/-- The hypotheses of the theorems: four shorts at an address that is not aligned, loaded into SSE::float_v. -/
example : ∃ r, sseLoad sse2 false ⟨true, false⟩ (bytesAt 3 [0xff, 0xff, 2, 0, 3, 0, 0, 0x80]) 3 .float .short = some r ∧
    Model.lane 32 r 0 = 0xbf800000#32 ∧ Model.lane 32 r 3 = 0xc7000000#32 := by
  refine ⟨_, rfl, ?_⟩
  decide +kernel

example : ArrayAt .short (bytesAt 3 [0xff, 0xff, 2, 0, 3, 0, 0, 0x80]) 3 4
    (fun i => if i = 0 then 0xffff else if i = 3 then 0x8000 else BitVec.ofNat 16 (i + 1)) := by
  intro i hi j hj
  have : ∀ i : Fin 4, ∀ j : Fin 2,
      bytesAt 3 [0xff, 0xff, 2, 0, 3, 0, 0, 0x80] (3 + (ETy.short.bytes : Nat) * (i.1 : Int) + (j.1 : Nat)) =
        some ((if i.1 = 0 then 0xffff#16 else if i.1 = 3 then 0x8000 else BitVec.ofNat 16 (i.1 + 1)).extractLsb'
          (8 * j.1) 8) := by decide +kernel
  exact this ⟨i, hi⟩ ⟨j, by have : 8 * j < 16 := hj; omega⟩

/-- Eight unsigned chars, 16 bytes after which nothing may be read, with AVX. -/
example : ∃ r, avxLoad false ⟨false, true⟩ (bytesAt 32 [1, 2, 3, 4, 5, 6, 7, 200]) 32 .float .uchar = some r ∧
    Model.lane 32 r 7 = 0x43480000#32 := by
  refine ⟨_, rfl, ?_⟩
  decide +kernel

end Vc.Prop
