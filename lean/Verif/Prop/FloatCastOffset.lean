import Verif.Model.FloatCastOffset
import Verif.Prop.FloatCvt
import Verif.Prop.AvxCast

/-!
C55 continued: `simd_cast<To, offset>` converts the entries `offset * To::Size + i` of the source.
-/

namespace Vc.Prop

open Vc.Model Vc.Lemma Vc.Spec

/-- An integer entry becomes exactly the same number of the floating-point format. -/
def IntTo {w n : Nat} (F : Fmt) (sgn : Bool) (s : BitVec w) (r : BitVec n) : Prop := ExactInt F (val sgn s) r

/-- A float entry becomes the same number of type double (or the corresponding special value). -/
def FloatToDouble (s : BitVec 32) (r : BitVec 64) : Prop :=
  Reformatted f32 f64 s r ∧ (isFinite f32 s = true → isFinite f64 r = true ∧
    fval f64 r * 2 ^ oneExp f32 = fval f32 s * 2 ^ oneExp f64)

/-- `r` is defined, and entry `i` of it is entry `offset * size + i` of `x` converted as `R` says. -/
def CastsGroup {n m : Nat} (w v size offset : Nat) (R : BitVec v → BitVec w → Prop) (x : BitVec n)
    (r : Option (BitVec m)) : Prop :=
  ∃ y, r = some y ∧ ∀ i, i < size → R (Model.lane v x (offset * size + i)) (Model.lane w y i)

private theorem lift_sse {w b c size offset : Nat} {R : BitVec (8 * b) → BitVec w → Prop} {conv : M128 → M128}
    (hb : b * c = 16) (hs : 0 < size) (ho : 0 < offset) (h : offset * size + size ≤ c)
    (hc : ∀ y i, i < size → R (Model.lane (8 * b) y i) (Model.lane w (conv y) i)) (x : M128) :
    CastsGroup w (8 * b) size offset R x (simdCastOffset conv (8 * b) offset size x) := by
  have hsh : 8 * b / 8 * offset * size = b * (offset * size) := by
    rw [Nat.mul_div_cancel_left _ (by decide), Nat.mul_assoc]
  have hb0 : 0 < b := Nat.pos_of_ne_zero (by rintro rfl; simp at hb)
  have h1 : 0 < b * (offset * size) := Nat.mul_pos hb0 (Nat.mul_pos ho hs)
  have h2 : b * (offset * size) < 16 := by
    have : b * (offset * size) < b * c := Nat.mul_lt_mul_of_pos_left (by omega) hb0
    omega
  refine ⟨conv (srliSi128 x (b * (offset * size))), ?_, fun i hi => ?_⟩
  · unfold simdCastOffset castShift
    simp only [hsh]
    rw [if_pos ⟨h1, h2⟩]; rfl
  · have := hc (srliSi128 x (b * (offset * size))) i hi
    rwa [lane_srliSi128 (w := 8 * b) (j := offset * size) x (by rw [Nat.mul_assoc]), Nat.add_comm] at this

private theorem lift_avx (u : M128) {w b c size offset g : Nat} {R : BitVec (8 * b) → BitVec w → Prop}
    {conv : M256 → M256} (hb : b * c = 16) (hg : size * g = c) (ho : 0 < offset)
    (h : offset * size + size ≤ 2 * c)
    (hc : ∀ y i, i < size → R (Model.lane (8 * b) y i) (Model.lane w (conv y) i)) (x : M256) :
    CastsGroup w (8 * b) size offset R x (avxCastOffset u conv (8 * b) offset size x) := by
  obtain ⟨r, hr, hl⟩ := C52_avx_offset_move u hb hg ho h x
  refine ⟨conv r, by unfold avxCastOffset; rw [hr]; rfl, fun i hi => ?_⟩
  have := hc r i hi
  rwa [hl i hi] at this

private theorem lift_avx_sse {w b c size offset : Nat} {R : BitVec (8 * b) → BitVec w → Prop}
    {conv : M128 → M128} (hb : b * c = 16) (hs : 0 < size) (hsc : size ≤ c) (ho : 0 < offset)
    (h : offset * size + size ≤ 2 * c)
    (hc : ∀ y i, i < size → R (Model.lane (8 * b) y i) (Model.lane w (conv y) i)) (x : M256) :
    CastsGroup w (8 * b) size offset R x (sseFromAvxOffset conv (8 * b) offset size x) := by
  obtain ⟨r, hr, hl⟩ := C52_avx_offset_move_sse hb hs hsc ho h x
  refine ⟨conv r, by unfold sseFromAvxOffset; rw [hr]; rfl, fun i hi => ?_⟩
  have := hc r i hi
  rwa [hl i hi] at this

/-- SSE to SSE: short_v and ushort_v to float_v (offset 1) and to double_v (offsets 1 to 3), int_v, uint_v and
float_v to double_v (offset 1).  No value changes. -/
theorem C55_offset_sse (I : Isa) (x : M128) :
    CastsGroup 32 16 4 1 (IntTo f32 true) x (simdCastOffset (cvtShortFloat I) 16 1 4 x) ∧
    CastsGroup 32 16 4 1 (IntTo f32 false) x (simdCastOffset (cvtUshortFloat I) 16 1 4 x) ∧
    (∀ o, 0 < o → o < 4 →
      CastsGroup 64 16 2 o (IntTo f64 true) x (simdCastOffset (cvtShortDouble I) 16 o 2 x) ∧
      CastsGroup 64 16 2 o (IntTo f64 false) x (simdCastOffset (cvtUshortDouble I) 16 o 2 x)) ∧
    CastsGroup 64 32 2 1 (IntTo f64 true) x (simdCastOffset cvtIntDouble 32 1 2 x) ∧
    CastsGroup 64 32 2 1 (IntTo f64 false) x (simdCastOffset cvtUintDouble 32 1 2 x) ∧
    CastsGroup 64 32 2 1 FloatToDouble x (simdCastOffset cvtpsPd 32 1 2 x) := by
  refine ⟨?_, ?_, fun o h0 h4 => ⟨?_, ?_⟩, ?_, ?_, ?_⟩
  · exact lift_sse (b := 2) (c := 8) rfl (by decide) (by decide) (by decide)
      (fun y i hi => ((C55_from_short I true y).1 i hi).1) x
  · exact lift_sse (b := 2) (c := 8) rfl (by decide) (by decide) (by decide)
      (fun y i hi => ((C55_from_short I true y).1 i hi).2) x
  · exact lift_sse (b := 2) (c := 8) rfl (by decide) h0 (by omega)
      (fun y i hi => ((C55_from_short I true y).2.2.1 i hi).1) x
  · exact lift_sse (b := 2) (c := 8) rfl (by decide) h0 (by omega)
      (fun y i hi => ((C55_from_short I true y).2.2.1 i hi).2) x
  · exact lift_sse (b := 4) (c := 4) rfl (by decide) (by decide) (by decide)
      (fun y i hi => (C55_from_int y y).2.1 i hi) x
  · exact lift_sse (b := 4) (c := 4) rfl (by decide) (by decide) (by decide)
      (fun y i hi => (C55_from_uint I true y 0#256).2.2.1 i hi) x
  · exact lift_sse (b := 4) (c := 4) rfl (by decide) (by decide) (by decide)
      (fun y i hi => (C55_float_double y).1 i hi) x

/-- The entries 4 and 7 of the short vector 0, …, 0, -3, 0, 0, 32767. -/
example : ∃ y, simdCastOffset (cvtShortFloat ⟨true, true, true, true⟩) 16 1 4 (0x7fff00000000fffd0000000000000000#128)
    = some y ∧ Model.lane 32 y 0 = 0xc0400000#32 ∧ Model.lane 32 y 3 = 0x46fffe00#32 :=
  ⟨_, rfl, by decide +kernel, by decide +kernel⟩

/-- AVX2 to AVX2. -/
theorem C55_offset_avx (I : Isa) (u : M128) (x : M256) :
    CastsGroup 32 16 8 1 (IntTo f32 true) x (avxCastOffset u acShortFloat 16 1 8 x) ∧
    CastsGroup 32 16 8 1 (IntTo f32 false) x (avxCastOffset u acUshortFloat 16 1 8 x) ∧
    (∀ o, 0 < o → o < 4 →
      CastsGroup 64 16 4 o (IntTo f64 true) x (avxCastOffset u (acShortDouble I) 16 o 4 x) ∧
      CastsGroup 64 16 4 o (IntTo f64 false) x (avxCastOffset u (acUshortDouble I) 16 o 4 x)) ∧
    CastsGroup 64 32 4 1 (IntTo f64 true) x (avxCastOffset u acIntDouble 32 1 4 x) ∧
    CastsGroup 64 32 4 1 (IntTo f64 false) x (avxCastOffset u acUintDouble 32 1 4 x) ∧
    CastsGroup 64 32 4 1 FloatToDouble x (avxCastOffset u acFloatDouble 32 1 4 x) := by
  have l16 : ∀ (y : M256) i, i < 8 → Model.lane 16 (lo128 y) i = Model.lane 16 y i :=
    fun y i hi => lane_lo128 (w := 16) (k := 8) rfl y hi
  have l32 : ∀ (y : M256) i, i < 4 → Model.lane 32 (lo128 y) i = Model.lane 32 y i :=
    fun y i hi => lane_lo128 (w := 32) (k := 4) rfl y hi
  refine ⟨?_, ?_, fun o h0 h4 => ⟨?_, ?_⟩, ?_, ?_, ?_⟩
  · exact lift_avx u (b := 2) (c := 8) (g := 1) rfl rfl (by decide) (by decide)
      (fun y i hi => l16 y i hi ▸ ((C55_from_short I true (lo128 y)).2.1 i hi).1) x
  · exact lift_avx u (b := 2) (c := 8) (g := 1) rfl rfl (by decide) (by decide)
      (fun y i hi => l16 y i hi ▸ ((C55_from_short I true (lo128 y)).2.1 i hi).2) x
  · exact lift_avx u (b := 2) (c := 8) (g := 2) rfl rfl h0 (by omega)
      (fun y i hi => l16 y i (by omega) ▸ ((C55_from_short I true (lo128 y)).2.2.2 i hi).1) x
  · exact lift_avx u (b := 2) (c := 8) (g := 2) rfl rfl h0 (by omega)
      (fun y i hi => l16 y i (by omega) ▸ ((C55_from_short I true (lo128 y)).2.2.2 i hi).2) x
  · exact lift_avx u (b := 4) (c := 4) (g := 1) rfl rfl (by decide) (by decide)
      (fun y i hi => l32 y i hi ▸ (C55_from_int y (lo128 y)).2.2 i hi) x
  · exact lift_avx u (b := 4) (c := 4) (g := 1) rfl rfl (by decide) (by decide)
      (fun y i hi => l32 y i hi ▸ ((C55_from_uint I true (lo128 y) y).2.2.2 i hi).1) x
  · exact lift_avx u (b := 4) (c := 4) (g := 1) rfl rfl (by decide) (by decide)
      (fun y i hi => l32 y i hi ▸ (C55_float_double (lo128 y)).2 i hi) x

/-- The last of the eight int entries 0, …, 0, -2. -/
example : ∃ y, avxCastOffset 0#128 acIntDouble 32 1 4
    (0xfffffffe00000000000000000000000000000000000000000000000000000000#256) = some y ∧
    Model.lane 64 y 3 = 0xc000000000000000#64 := ⟨_, rfl, by decide +kernel⟩

/-- AVX2 to SSE: the entries of float_v (and of the two integer types of its size) and of short_v and ushort_v to
SSE::float_v and SSE::double_v.  Here int to float rounds to the nearest. -/
theorem C55_offset_avx_sse (I : Isa) (x : M256) :
    CastsGroup 32 32 4 1 (fun s r => RoundedInt f32 (val true s) r) x (sseFromAvxOffset cvtepi32PsN 32 1 4 x) ∧
    CastsGroup 32 32 4 1 (fun s r => RoundedInt f32 (val false s) r) x (sseFromAvxOffset (cvtUintFloat I) 32 1 4 x) ∧
    (∀ o, 0 < o → o < 4 →
      CastsGroup 32 16 4 o (IntTo f32 true) x (sseFromAvxOffset (cvtShortFloat I) 16 o 4 x) ∧
      CastsGroup 32 16 4 o (IntTo f32 false) x (sseFromAvxOffset (cvtUshortFloat I) 16 o 4 x) ∧
      CastsGroup 64 32 2 o (IntTo f64 true) x (sseFromAvxOffset cvtIntDouble 32 o 2 x) ∧
      CastsGroup 64 32 2 o (IntTo f64 false) x (sseFromAvxOffset cvtUintDouble 32 o 2 x) ∧
      CastsGroup 64 32 2 o FloatToDouble x (sseFromAvxOffset cvtpsPd 32 o 2 x)) ∧
    (∀ o, 0 < o → o < 8 →
      CastsGroup 64 16 2 o (IntTo f64 true) x (sseFromAvxOffset (cvtShortDouble I) 16 o 2 x) ∧
      CastsGroup 64 16 2 o (IntTo f64 false) x (sseFromAvxOffset (cvtUshortDouble I) 16 o 2 x)) := by
  refine ⟨?_, ?_, fun o h0 h4 => ⟨?_, ?_, ?_, ?_, ?_⟩, fun o h0 h8 => ⟨?_, ?_⟩⟩
  · exact lift_avx_sse (b := 4) (c := 4) rfl (by decide) (by decide) (by decide) (by decide)
      (fun y i hi => (C55_from_int y y).1 i (by omega)) x
  · exact lift_avx_sse (b := 4) (c := 4) rfl (by decide) (by decide) (by decide) (by decide)
      (fun y i hi => (C55_from_uint I true y 0#256).1 i hi) x
  · exact lift_avx_sse (b := 2) (c := 8) rfl (by decide) (by decide) h0 (by omega)
      (fun y i hi => ((C55_from_short I true y).1 i hi).1) x
  · exact lift_avx_sse (b := 2) (c := 8) rfl (by decide) (by decide) h0 (by omega)
      (fun y i hi => ((C55_from_short I true y).1 i hi).2) x
  · exact lift_avx_sse (b := 4) (c := 4) rfl (by decide) (by decide) h0 (by omega)
      (fun y i hi => (C55_from_int y y).2.1 i hi) x
  · exact lift_avx_sse (b := 4) (c := 4) rfl (by decide) (by decide) h0 (by omega)
      (fun y i hi => (C55_from_uint I true y 0#256).2.2.1 i hi) x
  · exact lift_avx_sse (b := 4) (c := 4) rfl (by decide) (by decide) h0 (by omega)
      (fun y i hi => (C55_float_double y).1 i hi) x
  · exact lift_avx_sse (b := 2) (c := 8) rfl (by decide) (by decide) h0 (by omega)
      (fun y i hi => ((C55_from_short I true y).2.2.1 i hi).1) x
  · exact lift_avx_sse (b := 2) (c := 8) rfl (by decide) (by decide) h0 (by omega)
      (fun y i hi => ((C55_from_short I true y).2.2.1 i hi).2) x

/-- The entries 12 and 13 of sixteen ushort: 65535 and 1. -/
example : ∃ y, sseFromAvxOffset (cvtUshortDouble ⟨true, true, true, true⟩) 16 6 2
    (0x000000000001ffff000000000000000000000000000000000000000000000000#256) = some y ∧
    Model.lane 64 y 0 = 0x40efffe000000000#64 ∧ Model.lane 64 y 1 = 0x3ff0000000000000#64 :=
  ⟨_, rfl, by decide +kernel, by decide +kernel⟩

/-- SSE to AVX2: the upper four of eight short or ushort to double. -/
theorem C55_offset_sse_avx (I : Isa) (x : M128) :
    CastsGroup 64 16 4 1 (IntTo f64 true) x (sseShortDoubleOffset I x) ∧
    CastsGroup 64 16 4 1 (IntTo f64 false) x (sseUshortDoubleOffset I x) := by
  obtain ⟨⟨a, ha, la⟩, b, hb, lb⟩ := C52_simdCast_offset I x
  refine ⟨⟨cvtIntDoubleAvx a, by unfold sseShortDoubleOffset; rw [ha]; rfl, fun i hi => ?_⟩,
    cvtIntDoubleAvx b, by unfold sseUshortDoubleOffset; rw [hb]; rfl, fun i hi => ?_⟩
  · have := (C55_from_int a a).2.2 i hi
    rw [la i hi] at this
    exact this
  · have := (C55_from_int b b).2.2 i hi
    rw [lb i hi] at this
    exact this

/-- The last of eight ushort: 65534. -/
example : ∃ y, sseUshortDoubleOffset ⟨true, true, true, true⟩ (0xfffe0000000000000000000000000000#128) = some y ∧
    Model.lane 64 y 3 = 0x40efffc000000000#64 := ⟨_, rfl, by decide +kernel⟩

end Vc.Prop
