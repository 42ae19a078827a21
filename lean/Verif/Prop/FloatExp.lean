import Verif.Lemma.FloatExp3
import Verif.Prop.SseInt

/-!
C57: `frexp`, `ldexp` and `exponent`.

All statements are about an arbitrary lane of the registers and arbitrary bit patterns.  `IsFrexp`,
`IsScaled` and `IsLog2` (Verif/Spec/FloatExp.lean) say what the functions of the C library compute.
-/

namespace Vc.Prop
open Vc.Model Vc.Lemma Vc.Spec

/-! ### frexp -/

/-- `frexp` of SSE::float_v.  Missing: denormal numbers. -/
theorem C57_frexp_sse_float_partial (I : Isa) (v : M128) {i : Nat} (hi : i < 4)
    (hd : isDenormal f32 (Model.lane 32 v i) = false) :
    IsFrexp f32 (Model.lane 32 v i) (Model.lane 32 (frexpMantSse I sseFloat f32 32 v) i)
      (Model.lane 32 (frexpExpSseF v) i).toInt := by
  rw [lane_frexpMantSse I .sseFloat v (by omega), lane_frexpExpSseF v hi]
  exact frexpR_spec .single _ hd

/-- `frexp` of SSE::double_v.  Missing: denormal numbers. -/
theorem C57_frexp_sse_double_partial (I : Isa) (v : M128) :
    (isDenormal f64 (Model.lane 64 v 0) = false →
      IsFrexp f64 (Model.lane 64 v 0) (Model.lane 64 (frexpMantSse I sseDouble f64 64 v) 0) (frexpExpSseD v).1.toInt) ∧
    (isDenormal f64 (Model.lane 64 v 1) = false →
      IsFrexp f64 (Model.lane 64 v 1) (Model.lane 64 (frexpMantSse I sseDouble f64 64 v) 1) (frexpExpSseD v).2.toInt) := by
  rw [lane_frexpMantSse I .sseDouble v (by decide), lane_frexpMantSse I .sseDouble v (by decide),
    (frexpExpSseD_spec v).1, (frexpExpSseD_spec v).2]
  exact ⟨frexpR_spec .double _, frexpR_spec .double _⟩

/-- `frexp` of AVX::float_v, with and without AVX2.  Missing: denormal numbers. -/
theorem C57_frexp_avx_float_partial (avx2 : Bool) (v : M256) {i : Nat} (hi : i < 8)
    (hd : isDenormal f32 (Model.lane 32 v i) = false) :
    IsFrexp f32 (Model.lane 32 v i) (Model.lane 32 (frexpMantAvx avxFloat f32 32 v) i)
      (Model.lane 32 (frexpExpAvxF avx2 v) i).toInt := by
  rw [lane_frexpMantAvx .avxFloat v (by omega), lane_frexpExpAvxF avx2 v hi]
  exact frexpR_spec .single _ hd

/-- `frexp` of AVX::double_v.  Missing: denormal numbers. -/
theorem C57_frexp_avx_double_partial (v : M256) : ∃ e, frexpExpAvxD v = some e ∧
    ∀ i, i < 4 → isDenormal f64 (Model.lane 64 v i) = false →
      IsFrexp f64 (Model.lane 64 v i) (Model.lane 64 (frexpMantAvx avxDouble f64 64 v) i) (Model.lane 32 e i).toInt := by
  obtain ⟨e, he, h⟩ := lane_frexpExpAvxD v
  refine ⟨e, he, fun i hi hd => ?_⟩
  rw [lane_frexpMantAvx .avxDouble v (by omega), h i hi]
  exact frexpR_spec .double _ hd

/-- `frexp` of SimdArray<double, 8> with AVX2, made of the registers `v0` and `v1`.  Missing: denormal numbers. -/
theorem C57_frexp_avx2_double8_partial (v0 v1 : M256) : ∃ e, frexpExpAvx2D8 v0 v1 = some e ∧
    (∀ i, i < 4 → isDenormal f64 (Model.lane 64 v0 i) = false →
      IsFrexp f64 (Model.lane 64 v0 i) (Model.lane 64 (frexpMantAvx avxDouble f64 64 v0) i) (Model.lane 32 e i).toInt) ∧
    (∀ i, i < 4 → isDenormal f64 (Model.lane 64 v1 i) = false →
      IsFrexp f64 (Model.lane 64 v1 i) (Model.lane 64 (frexpMantAvx avxDouble f64 64 v1) i)
        (Model.lane 32 e (4 + i)).toInt) := by
  obtain ⟨e, he, h⟩ := lane_frexpExpAvx2D8 v0 v1
  refine ⟨e, he, fun i hi hd => ?_, fun i hi hd => ?_⟩
  · rw [lane_frexpMantAvx .avxDouble v0 (by omega), h i (by omega), if_pos hi]
    exact frexpR_spec .double _ hd
  · rw [lane_frexpMantAvx .avxDouble v1 (by omega), h (4 + i) (by omega), if_neg (by omega), Nat.add_sub_cancel_left]
    exact frexpR_spec .double _ hd

/-- Not vacuous: -12.0 is not denormal, and is split into -0.75 and 4. -/
example : isDenormal f32 (Model.lane 32 (set1 32 0xc1400000#32 : M128) 1) = false ∧
    Model.lane 32 (frexpMantSse sse2 sseFloat f32 32 (set1 32 0xc1400000#32)) 1 = 0xbf400000#32 ∧
    Model.lane 32 (frexpExpSseF (set1 32 0xc1400000#32)) 1 = 4#32 := by decide +kernel

theorem frexpR_denormal {F : Fmt} {w : Nat} (h : FmtW F w) {x : BitVec w} (hx : isDenormal F x = true) :
    ¬ IsFrexp F x (frexpR F x) (frexpE F x) := by
  intro hs
  have hp := pow_pos2 F.m
  unfold isDenormal at hx
  rw [Bool.and_eq_true, decide_eq_true_eq, decide_eq_true_eq] at hx
  have hb : 2 ≤ bias F ∧ bias F - 1 ≤ 2 ^ F.e - 2 := by cases h <;> decide
  have hE : 2 ≤ 2 ^ F.e := by cases h <;> decide
  have hinf : fmag F x < infMag F := by
    unfold infMag
    have := Nat.mul_le_mul_right (2 ^ F.m) (show 1 ≤ 2 ^ F.e - 1 by omega)
    omega
  have hfin : isFinite F x = true := decide_eq_true hinf
  have h0 : fmag F x ≠ 0 := by omega
  have hmod : fmag F x % 2 ^ F.m = fmag F x := Nat.mod_eq_of_lt hx.2
  have hdiv : fmag F x / 2 ^ F.m = 0 := Nat.div_eq_of_lt hx.2
  have hv := (hs.value hfin h0).2
  have hr : frexpR F x = mkFloat F w (fneg F x) (2 ^ F.m * (bias F - 1) + fmag F x) := by
    unfold frexpR
    rw [hfin, decide_eq_false h0, hmod]; rfl
  have hlt : 2 ^ F.m * (bias F - 1) + fmag F x < 2 ^ (F.e + F.m) := by
    have : 2 ^ F.m * (bias F - 1 + 1) ≤ 2 ^ F.m * 2 ^ F.e := Nat.mul_le_mul_left _ (by omega)
    rw [Nat.mul_add, ← Nat.pow_add, Nat.add_comm F.m] at this
    omega
  have he : frexpE F x = -((bias F - 1 : Nat) : Int) := by
    unfold frexpE
    rw [if_neg h0, hdiv]; omega
  rw [he, hr, fval_mk F h.lt _ hlt] at hv
  have hmx : magVal F (fmag F x) = fmag F x := by unfold magVal; rw [if_pos hdiv]
  have hmr : magVal F (2 ^ F.m * (bias F - 1) + fmag F x) = (2 ^ F.m + fmag F x) * 2 ^ (bias F - 1 - 1) := by
    unfold magVal
    rw [Nat.mul_add_div hp, hdiv, if_neg (by omega), Nat.mul_add_mod, hmod, Nat.add_zero]
  have key : fmag F x * 2 ^ (bias F - 1) = (2 ^ F.m + fmag F x) * 2 ^ (bias F - 1 - 1) := by
    have := congrArg Int.natAbs hv
    rw [Int.natAbs_mul, natAbs_fval, hmx, Int.natAbs_mul, Int.natAbs_pow, Int.natAbs_pow,
      show (-((bias F - 1 : Nat) : Int)).toNat = 0 by omega, show (- -((bias F - 1 : Nat) : Int)).toNat = bias F - 1 by omega,
      Nat.pow_zero, Nat.mul_one] at this
    have e2 : (if fneg F x = true then -((magVal F (2 ^ F.m * (bias F - 1) + fmag F x) : Nat) : Int)
        else (magVal F (2 ^ F.m * (bias F - 1) + fmag F x) : Nat)).natAbs =
        magVal F (2 ^ F.m * (bias F - 1) + fmag F x) := by split <;> omega
    rw [e2, hmr] at this
    exact this
  have e : 2 ^ (bias F - 1) = 2 * 2 ^ (bias F - 1 - 1) := by
    rw [← Nat.pow_succ']; congr 1; omega
  rw [e, ← Nat.mul_assoc] at key
  have := Nat.eq_of_mul_eq_mul_right (pow_pos2 _) key
  omega

/-- For no denormal number the result of `frexp` is right: the hidden bit the number does not have is
added. -/
theorem C57_frexp_denormal_violated :
    (∀ (I : Isa) (v : M128) (i : Nat), i < 4 → isDenormal f32 (Model.lane 32 v i) = true →
      ¬ IsFrexp f32 (Model.lane 32 v i) (Model.lane 32 (frexpMantSse I sseFloat f32 32 v) i)
        (Model.lane 32 (frexpExpSseF v) i).toInt) ∧
    (∀ (I : Isa) (v : M128), isDenormal f64 (Model.lane 64 v 0) = true →
      ¬ IsFrexp f64 (Model.lane 64 v 0) (Model.lane 64 (frexpMantSse I sseDouble f64 64 v) 0)
        (frexpExpSseD v).1.toInt) ∧
    (∀ (avx2 : Bool) (v : M256) (i : Nat), i < 8 → isDenormal f32 (Model.lane 32 v i) = true →
      ¬ IsFrexp f32 (Model.lane 32 v i) (Model.lane 32 (frexpMantAvx avxFloat f32 32 v) i)
        (Model.lane 32 (frexpExpAvxF avx2 v) i).toInt) ∧
    (∀ (v : M256) (e : M128), frexpExpAvxD v = some e → ∀ i, i < 4 → isDenormal f64 (Model.lane 64 v i) = true →
      ¬ IsFrexp f64 (Model.lane 64 v i) (Model.lane 64 (frexpMantAvx avxDouble f64 64 v) i)
        (Model.lane 32 e i).toInt) := by
  refine ⟨fun I v i hi hd => ?_, fun I v hd => ?_, fun avx2 v i hi hd => ?_, fun v e he i hi hd => ?_⟩
  · rw [lane_frexpMantSse I .sseFloat v (by omega), lane_frexpExpSseF v hi]
    exact frexpR_denormal .single hd
  · rw [lane_frexpMantSse I .sseDouble v (by decide), (frexpExpSseD_spec v).1]
    exact frexpR_denormal .double hd
  · rw [lane_frexpMantAvx .avxFloat v (by omega), lane_frexpExpAvxF avx2 v hi]
    exact frexpR_denormal .single hd
  · obtain ⟨e', he', h⟩ := lane_frexpExpAvxD v
    rw [he] at he'
    cases he'
    rw [lane_frexpMantAvx .avxDouble v (by omega), h i hi]
    exact frexpR_denormal .double hd

/-- There are denormal numbers. -/
example : isDenormal f32 (Model.lane 32 (set1 32 3#32 : M128) 2) = true := by decide +kernel

/-! ### ldexp -/

/-- The exponent field `x * 2 ^ e` would have. -/
def newField (F : Fmt) {w : Nat} (x : BitVec w) (e : Int) : Int := (fmag F x / 2 ^ F.m : Nat) + e

/-- `ldexp` of SSE::float_v: exact where argument and result are normal numbers; zeros stay.  Missing:
denormal arguments or results, overflow, infinities, NaNs. -/
theorem C57_ldexp_sse_float_partial (v e : M128) {i : Nat} (hi : i < 4) :
    (isNormal f32 (Model.lane 32 v i) = true →
      1 ≤ newField f32 (Model.lane 32 v i) (Model.lane 32 e i).toInt →
      newField f32 (Model.lane 32 v i) (Model.lane 32 e i).toInt ≤ 254 →
      isNormal f32 (Model.lane 32 (ldexpSseF v e) i) = true ∧
        IsScaled f32 (Model.lane 32 v i) (Model.lane 32 e i).toInt (Model.lane 32 (ldexpSseF v e) i)) ∧
    (fmag f32 (Model.lane 32 v i) = 0 → Model.lane 32 (ldexpSseF v e) i = Model.lane 32 v i) :=
  ⟨fun h0 h1 h2 => ldexpR_spec .single (lane_ldexpSseF v e hi) h0 h1 h2,
    fun h0 => ldexpR_zero (lane_ldexpSseF v e hi) h0⟩

/-- `ldexp` of SSE::double_v.  Missing: as above. -/
theorem C57_ldexp_sse_double_partial (v : M128) (e0 e1 : BitVec 32) {i : Nat} (hi : i < 2) :
    (isNormal f64 (Model.lane 64 v i) = true →
      1 ≤ newField f64 (Model.lane 64 v i) (if i = 0 then e0 else e1).toInt →
      newField f64 (Model.lane 64 v i) (if i = 0 then e0 else e1).toInt ≤ 2046 →
      isNormal f64 (Model.lane 64 (ldexpSseD v e0 e1) i) = true ∧
        IsScaled f64 (Model.lane 64 v i) (if i = 0 then e0 else e1).toInt (Model.lane 64 (ldexpSseD v e0 e1) i)) ∧
    (fmag f64 (Model.lane 64 v i) = 0 → Model.lane 64 (ldexpSseD v e0 e1) i = Model.lane 64 v i) :=
  ⟨fun h0 h1 h2 => ldexpR_spec .double (lane_ldexpSseD v e0 e1 hi) h0 h1 h2,
    fun h0 => ldexpR_zero (lane_ldexpSseD v e0 e1 hi) h0⟩

/-- `ldexp` of AVX::float_v.  Missing: as above. -/
theorem C57_ldexp_avx_float_partial (avx2 : Bool) (v e : M256) {i : Nat} (hi : i < 8) :
    (isNormal f32 (Model.lane 32 v i) = true →
      1 ≤ newField f32 (Model.lane 32 v i) (Model.lane 32 e i).toInt →
      newField f32 (Model.lane 32 v i) (Model.lane 32 e i).toInt ≤ 254 →
      isNormal f32 (Model.lane 32 (ldexpAvxF avx2 v e) i) = true ∧
        IsScaled f32 (Model.lane 32 v i) (Model.lane 32 e i).toInt (Model.lane 32 (ldexpAvxF avx2 v e) i)) ∧
    (fmag f32 (Model.lane 32 v i) = 0 → Model.lane 32 (ldexpAvxF avx2 v e) i = Model.lane 32 v i) :=
  ⟨fun h0 h1 h2 => ldexpR_spec .single (lane_ldexpAvxF avx2 v e hi) h0 h1 h2,
    fun h0 => ldexpR_zero (lane_ldexpAvxF avx2 v e hi) h0⟩

/-- `ldexp` of AVX::double_v.  Missing: as above. -/
theorem C57_ldexp_avx_double_partial (avx2 : Bool) (v : M256) (e : M128) {i : Nat} (hi : i < 4) :
    (isNormal f64 (Model.lane 64 v i) = true →
      1 ≤ newField f64 (Model.lane 64 v i) (Model.lane 32 e i).toInt →
      newField f64 (Model.lane 64 v i) (Model.lane 32 e i).toInt ≤ 2046 →
      isNormal f64 (Model.lane 64 (ldexpAvxD avx2 v e) i) = true ∧
        IsScaled f64 (Model.lane 64 v i) (Model.lane 32 e i).toInt (Model.lane 64 (ldexpAvxD avx2 v e) i)) ∧
    (fmag f64 (Model.lane 64 v i) = 0 → Model.lane 64 (ldexpAvxD avx2 v e) i = Model.lane 64 v i) :=
  ⟨fun h0 h1 h2 => ldexpR_spec .double (lane_ldexpAvxD avx2 v e hi) h0 h1 h2,
    fun h0 => ldexpR_zero (lane_ldexpAvxD avx2 v e hi) h0⟩

/-- Not vacuous: `ldexp(-0.75, 4)` is -12.0. -/
example : isNormal f32 (Model.lane 32 (set1 32 0xbf400000#32 : M128) 1) = true ∧
    newField f32 (Model.lane 32 (set1 32 0xbf400000#32 : M128) 1) (Model.lane 32 (set1 32 4#32 : M128) 1).toInt = 130 ∧
    Model.lane 32 (ldexpSseF (set1 32 0xbf400000#32) (set1 32 4#32)) 1 = 0xc1400000#32 := by decide +kernel

/-- Outside that range the exponent runs into the sign: `ldexp(inf, 1)` is -0 although the comment says
infinities stay, `ldexp(1, 128)` is a NaN instead of infinity, `ldexp(1, 200)` is a negative number,
half of the smallest normal number is 0, and the double of a denormal number is wrong. -/
theorem C57_ldexp_violated :
    Model.lane 32 (ldexpSseF (set1 32 0x7f800000#32) (set1 32 1#32)) 0 = 0x80000000#32 ∧
    fneg f32 (Model.lane 32 (ldexpSseF (set1 32 0x3f800000#32) (set1 32 200#32)) 0) = true ∧
    isNaN f32 (Model.lane 32 (ldexpSseF (set1 32 0x3fc00000#32) (set1 32 128#32)) 0) = true ∧
    ¬ IsScaled f32 0x00800000#32 (-1) (Model.lane 32 (ldexpSseF (set1 32 0x00800000#32) (set1 32 0xffffffff#32)) 0) ∧
    ¬ IsScaled f32 1#32 1 (Model.lane 32 (ldexpSseF (set1 32 1#32) (set1 32 1#32)) 0) ∧
    Model.lane 64 (ldexpSseD (set1 64 0x7ff0000000000000#64) 1#32 1#32) 0 = 0x8000000000000000#64 := by
  unfold IsScaled
  decide +kernel

/-! ### ldexp after frexp -/

/-- `ldexp` undoes `frexp`, for all finite numbers, denormal ones included. -/
theorem C57_roundtrip (I : Isa) (avx2 : Bool) :
    (∀ (v : M128) (i : Nat), i < 4 → isFinite f32 (Model.lane 32 v i) = true →
      Model.lane 32 (ldexpSseF (frexpMantSse I sseFloat f32 32 v) (frexpExpSseF v)) i = Model.lane 32 v i) ∧
    (∀ (v : M128) (i : Nat), i < 2 → isFinite f64 (Model.lane 64 v i) = true →
      Model.lane 64 (ldexpSseD (frexpMantSse I sseDouble f64 64 v) (frexpExpSseD v).1 (frexpExpSseD v).2) i =
        Model.lane 64 v i) ∧
    (∀ (v : M256) (i : Nat), i < 8 → isFinite f32 (Model.lane 32 v i) = true →
      Model.lane 32 (ldexpAvxF avx2 (frexpMantAvx avxFloat f32 32 v) (frexpExpAvxF avx2 v)) i = Model.lane 32 v i) ∧
    (∀ (v : M256) (e : M128), frexpExpAvxD v = some e → ∀ i, i < 4 → isFinite f64 (Model.lane 64 v i) = true →
      Model.lane 64 (ldexpAvxD avx2 (frexpMantAvx avxDouble f64 64 v) e) i = Model.lane 64 v i) := by
  refine ⟨fun v i hi hf => ?_, fun v i hi hf => ?_, fun v i hi hf => ?_, fun v e he i hi hf => ?_⟩
  · have h := lane_ldexpSseF (frexpMantSse I sseFloat f32 32 v) (frexpExpSseF v) hi
    rw [lane_frexpMantSse I .sseFloat v (by omega), lane_frexpExpSseF v hi] at h
    exact ldexpR_frexpR .single hf h
  · have h := lane_ldexpSseD (frexpMantSse I sseDouble f64 64 v) (frexpExpSseD v).1 (frexpExpSseD v).2 hi
    rw [lane_frexpMantSse I .sseDouble v (by omega)] at h
    have e : (if i = 0 then (frexpExpSseD v).1 else (frexpExpSseD v).2).toInt = frexpE f64 (Model.lane 64 v i) := by
      match i, hi with
      | 0, _ => exact (frexpExpSseD_spec v).1
      | 1, _ => exact (frexpExpSseD_spec v).2
    rw [e] at h
    exact ldexpR_frexpR .double hf h
  · have h := lane_ldexpAvxF avx2 (frexpMantAvx avxFloat f32 32 v) (frexpExpAvxF avx2 v) hi
    rw [lane_frexpMantAvx .avxFloat v (by omega), lane_frexpExpAvxF avx2 v hi] at h
    exact ldexpR_frexpR .single hf h
  · obtain ⟨e', he', hl⟩ := lane_frexpExpAvxD v
    rw [he] at he'
    cases he'
    have h := lane_ldexpAvxD avx2 (frexpMantAvx avxDouble f64 64 v) e hi
    rw [lane_frexpMantAvx .avxDouble v (by omega), hl i hi] at h
    exact ldexpR_frexpR .double hf h

/-- Not vacuous. -/
example : isFinite f32 (Model.lane 32 (set1 32 3#32 : M128) 1) = true ∧
    Model.lane 32 (ldexpSseF (frexpMantSse sse2 sseFloat f32 32 (set1 32 3#32)) (frexpExpSseF (set1 32 3#32))) 1 = 3#32 := by
  decide +kernel

/-- Infinities do not survive. -/
theorem C57_roundtrip_inf_violated :
    Model.lane 32 (ldexpSseF (frexpMantSse sse2 sseFloat f32 32 (set1 32 0x7f800000#32))
      (frexpExpSseF (set1 32 0x7f800000#32))) 0 ≠ 0x7f800000#32 := by decide +kernel

/-! ### exponent -/

/-- The result of `exponent` is an integer `e` with `2 ^ e ≤ x < 2 ^ (e + 1)`. -/
def ExponentOk (F : Fmt) {w : Nat} (x r : BitVec w) : Prop :=
  isFinite F r = true ∧ ∃ e : Int, fval F r = e * 2 ^ oneExp F ∧ IsLog2 F x e

/-- `exponent` of float_v, for positive normal numbers.  Missing: denormal numbers, zero. -/
theorem C57_exponent_float_partial :
    (∀ (x : BitVec 32), isNormal f32 x = true → fneg f32 x = false → ExponentOk f32 x (sExponent32 x)) ∧
    (∀ (v : M128) (i : Nat), i < 4 → isNormal f32 (Model.lane 32 v i) = true → fneg f32 (Model.lane 32 v i) = false →
      ExponentOk f32 (Model.lane 32 v i) (Model.lane 32 (vExponentPs v) i)) ∧
    (∀ (v : M256) (i : Nat), i < 8 → isNormal f32 (Model.lane 32 v i) = true → fneg f32 (Model.lane 32 v i) = false →
      ExponentOk f32 (Model.lane 32 v i) (Model.lane 32 (vExponentPsAvx v) i)) := by
  refine ⟨fun x hn hs => ?_, fun v i hi hn hs => ?_, fun v i hi hn hs => ?_⟩
  · unfold sExponent32
    rw [show x.sshiftRight 23 = x >>> 23 from sshift_field ((fneg_msb (F := f32) rfl x).symm.trans hs)]
    exact expoLane .single hn hs (toNat_shift .single hs) rfl
  · have hr : 32 * (i + 1) ≤ 128 := by omega
    unfold vExponentPs cvtepi32PsN subEpi srliEpi
    rw [lane_map1 _ _ hr, lane_map2 _ _ _ hr, lane_map1 _ _ hr, lane_set1 _ hr]
    exact expoLane .single hn hs (toNat_shift .single hs) rfl
  · have hr : 32 * (i + 1) ≤ 256 := by omega
    have e := lane_split1 (w := 32) (k := 4) (f := fun a => subEpi 32 (srliEpi 32 a 23) (set1 32 0x7f#32))
      (g := fun z => z >>> 23 - 0x7f#32) rfl (fun a j hj => by
        show Model.lane 32 (subEpi 32 (srliEpi 32 a 23) (set1 32 0x7f#32)) j = Model.lane 32 a j >>> 23 - 0x7f#32
        unfold subEpi srliEpi
        rw [lane_map2 _ _ _ (by omega), lane_map1 _ _ (by omega), lane_set1 _ (by omega)]) v (i := i) (by omega)
    unfold split1 at e
    unfold vExponentPsAvx cvtepi32PsN
    rw [lane_map1 _ _ hr, e]
    exact expoLane .single hn hs (toNat_shift .single hs) rfl

/-- `exponent` of double_v, for positive normal numbers.  Missing: denormal numbers, zero. -/
theorem C57_exponent_double_partial :
    (∀ (x : BitVec 64), isNormal f64 x = true → fneg f64 x = false → ExponentOk f64 x (sExponent64 x)) ∧
    (∀ (v : M128) (i : Nat), i < 2 → isNormal f64 (Model.lane 64 v i) = true → fneg f64 (Model.lane 64 v i) = false →
      ExponentOk f64 (Model.lane 64 v i) (Model.lane 64 (vExponentPd v) i)) ∧
    (∀ v : M256, ∃ r, vExponentPdAvx v = some r ∧ ∀ i, i < 4 → isNormal f64 (Model.lane 64 v i) = true →
      fneg f64 (Model.lane 64 v i) = false → ExponentOk f64 (Model.lane 64 v i) (Model.lane 64 r i)) := by
  refine ⟨fun x hn hs => ?_, fun v i hi hn hs => ?_, fun v => ⟨_, rfl, fun i hi hn hs => ?_⟩⟩
  · unfold sExponent64
    rw [show x.sshiftRight 52 = x >>> 52 from sshift_field ((fneg_msb (F := f64) rfl x).symm.trans hs)]
    have e : (x >>> 52 - 0x3ff#64).setWidth 32 = (x >>> 52).setWidth 32 - 0x3ff#32 := by
      generalize x >>> 52 = y
      apply BitVec.eq_of_toNat_eq
      rw [BitVec.toNat_setWidth, BitVec.toNat_sub, BitVec.toNat_sub, BitVec.toNat_setWidth]
      have := y.isLt
      show ((2 ^ 64 - 1023 + y.toNat) % 2 ^ 64) % 2 ^ 32 = (2 ^ 32 - 1023 + y.toNat % 2 ^ 32) % 2 ^ 32
      omega
    rw [e]
    exact expoLane .double hn hs (toNat_shift64 hs) rfl
  · have hr : 64 * (i + 1) ≤ 128 := by omega
    unfold vExponentPd cvtepi32Pd
    rw [lane_ofLanes _ hr, lane_shuffleEpi32 _ _ (by omega)]
    have e : Model.lane 32 (subEpi 32 (srliEpi 64 v 52) (set1 32 0x3ff#32)) (sel4 0x08 i) =
        (Model.lane 64 v i >>> 52).setWidth 32 - 0x3ff#32 := by
      have := lane_expo64 v hi
      match i, hi with
      | 0, _ => exact this
      | 1, _ => exact this
    rw [e]
    exact expoLane .double hn hs (toNat_shift64 hs) rfl
  · have hr : 64 * (i + 1) ≤ 256 := by omega
    unfold cvtepi32Pd256
    rw [lane_ofLanes _ hr, lane_shufflePs _ _ _ hi]
    have lo : ∀ q, q < 2 → Model.lane 32 (subEpi 32 (srliEpi 64 (lo128 v) 52) (set1 32 0x3ff#32)) (2 * q) =
        (Model.lane 64 v q >>> 52).setWidth 32 - 0x3ff#32 := fun q hq => by
      rw [lane_expo64 _ hq, lane_lo128 (k := 2) rfl _ hq]
    have hi' : ∀ q, q < 2 → Model.lane 32 (subEpi 32 (srliEpi 64 (hi128 v) 52) (set1 32 0x3ff#32)) (2 * q) =
        (Model.lane 64 v (2 + q) >>> 52).setWidth 32 - 0x3ff#32 := fun q hq => by
      rw [lane_expo64 _ hq, lane_hi128 (k := 2) rfl _ hq]
    have fin : ∀ z, z = (Model.lane 64 v i >>> 52).setWidth 32 - 0x3ff#32 →
        ExponentOk f64 (Model.lane 64 v i) (cvtI2F f64 64 z) := by
      rintro z rfl
      exact expoLane .double hn hs (toNat_shift64 hs) rfl
    match i, hi with
    | 0, _ => exact fin _ (lo 0 (by decide))
    | 1, _ => exact fin _ (lo 1 (by decide))
    | 2, _ => exact fin _ (hi' 0 (by decide))
    | 3, _ => exact fin _ (hi' 1 (by decide))

/-- Not vacuous: the exponent of 12.0 is 3.0. -/
example : isNormal f32 0x41400000#32 = true ∧ fneg f32 0x41400000#32 = false ∧
    sExponent32 0x41400000#32 = 0x40400000#32 := by decide +kernel

/-- The smallest denormal number is `2 ^ -149`, `exponent` says -127. -/
theorem C57_exponent_denormal_violated :
    ¬ ExponentOk f32 (Model.lane 32 (set1 32 1#32 : M128) 0) (Model.lane 32 (vExponentPs (set1 32 1#32 : M128)) 0) := by
  have h1 : Model.lane 32 (set1 32 1#32 : M128) 0 = 1#32 := lane_set1 _ (by decide)
  have h2 : fval f32 (Model.lane 32 (vExponentPs (set1 32 1#32 : M128)) 0) = (-127) * 2 ^ oneExp f32 := by decide +kernel
  rw [h1]
  rintro ⟨-, e, he, hl⟩
  rw [h2] at he
  have : (-127 : Int) = e := Int.eq_of_mul_eq_mul_right (by decide) he
  subst this
  revert hl
  unfold IsLog2
  decide +kernel

end Vc.Prop
