import Verif.Lemma.FloatRound4
import Verif.Prop.SseInt

/-!
C56: `trunc`, `floor`, `ceil` and `round` of floating-point vectors.
-/

namespace Vc.Prop

open Vc.Model Vc.Spec Vc.Lemma

/-! Lanes of the functions without SSE4.1, to evaluate examples. -/

theorem truncPs_sse2 (x : M128) {i : Nat} (hi : i < 4) : lane 32 (vTruncPs sse2 x) i = truncPsLane (lane 32 x i) :=
  lane_truncPsEmul x hi
theorem floorPs_sse2 (x : M128) {i : Nat} (hi : i < 4) :
    lane 32 (vFloorPs sse2 x) i = floorLane f32 0x3f800000#32 (lane 32 x i) (truncPsLane (lane 32 x i)) := by
  unfold vFloorPs; rw [if_neg (by decide), lane_floorEmul sse2 FmtW.single _ _ _ (by omega), lane_truncPsEmul x hi]
theorem ceilPs_sse2 (x : M128) {i : Nat} (hi : i < 4) :
    lane 32 (vCeilPs sse2 x) i = ceilLane f32 0x3f800000#32 (lane 32 x i) (truncPsLane (lane 32 x i)) := by
  unfold vCeilPs; rw [if_neg (by decide), lane_ceilEmul sse2 FmtW.single _ _ _ (by omega), lane_truncPsEmul x hi]
theorem truncPs_sse42 (x : M128) {i : Nat} (hi : i < 4) : lane 32 (vTruncPs sse42 x) i = fRound f32 .zero (lane 32 x i) :=
  lane_map1 _ _ (by omega)
theorem truncPd_sse2 (x : M128) {i : Nat} (hi : i < 2) : lane 64 (vTruncPd sse2 x) i = truncPdLane (lane 64 x i) :=
  lane_truncPdEmul x hi
theorem floorPd_sse2 (x : M128) {i : Nat} (hi : i < 2) :
    lane 64 (vFloorPd sse2 x) i = floorLane f64 0x3ff0000000000000#64 (lane 64 x i) (truncPdLane (lane 64 x i)) := by
  unfold vFloorPd; rw [if_neg (by decide), lane_floorEmul sse2 FmtW.double _ _ _ (by omega), lane_truncPdEmul x hi]
theorem roundPs_sse2 (x : M128) {i : Nat} (hi : i < 4) :
    lane 32 (vRoundPs sse2 x) i = cvtI2F f32 32 (cvtF2I f32 (lane 32 x i)) := by
  show lane 32 (cvtepi32PsN (map1 32 (cvtF2I f32) x)) i = _
  unfold cvtepi32PsN; rw [lane_map1 _ _ (by omega), lane_map1 _ _ (by omega)]
theorem roundPd_sse2 (x : M128) {i : Nat} (hi : i < 2) :
    lane 64 (vRoundPd sse2 x) i = cvtI2F f64 64 (cvtF2I f64 (lane 64 x i)) := by
  show lane 64 (cvtepi32Pd (cvtpdEpi32 x)) i = _
  unfold cvtepi32Pd cvtpdEpi32; rw [lane_ofLanes _ (by omega), lane_ofLanes _ (by omega), if_pos hi]

/-! ### The instruction -/

/-- The integer a rounding mode stands for. -/
def modeSpec : RMode → Int → Int → Int → Prop
  | .nearest => IsNearest
  | .down => IsFloor
  | .up => IsCeil
  | .zero => IsTrunc

theorem roundsTo_fRound {F : Fmt} {w : Nat} (h : FmtW F w) (mode : RMode) (x : BitVec w) :
    RoundsTo F (modeSpec mode) x (fRound F mode x) := by
  refine ⟨?_, ?_, ?_⟩
  · intro hx
    obtain ⟨f1, _, f3⟩ := fRound_finite h mode hx
    refine ⟨f1, _, f3, ?_⟩
    have hd := pow_pos2 (oneExp F)
    rw [fval_signed]
    have e : ((2 : Int) ^ oneExp F) = ((2 ^ oneExp F : Nat) : Int) := (Int.natCast_pow 2 _).symm
    rw [e]
    cases mode
    · exact isNearest_rne _ _ hd
    · exact isFloor_roundQ _ _ hd
    · exact isCeil_roundQ _ _ hd
    · exact isTrunc_div _ _ hd
  · intro hx
    have hn : isNaN F x = false := by
      unfold isNaN isInf at *; rw [of_decide_eq_true hx]; exact decide_eq_false (Nat.lt_irrefl _)
    unfold fRound; rw [hn, hx]; rfl
  · intro hx
    unfold fRound; rw [if_pos hx]; exact isNaN_quiet hx

/-- With SSE4.1 or AVX every lane is rounded as the function says, and the sign (of zeros as well) is kept. -/
theorem C56_instruction {F : Fmt} {n w : Nat} {K : FConst n} (h : Platform F n w K) (x : BitVec n) (mode : RMode)
    {i : Nat} (hi : w * (i + 1) ≤ n) :
    RoundsTo F (modeSpec mode) (lane w x i) (lane w (vRoundIntr F w mode x) i) ∧
    (isFinite F (lane w x i) = true → fneg F (lane w (vRoundIntr F w mode x) i) = fneg F (lane w x i)) := by
  unfold vRoundIntr
  rw [lane_map1 _ _ hi]
  exact ⟨roundsTo_fRound h.fmtW mode _, fun hx => (fRound_finite h.fmtW mode hx).2.1⟩

/-- Witness: floor(-1.5) = -2, ceil(-1.5) = -1, round(2.5) = 2. -/
example : fRound f32 .down 0xbfc00000#32 = 0xc0000000#32 ∧ fRound f32 .up 0xbfc00000#32 = 0xbf800000#32 ∧
    fRound f32 .nearest 0x40200000#32 = 0x40000000#32 := by decide +kernel

/-- `trunc`, `floor`, `ceil` of the scalar implementation are those of the C library. -/
theorem C56_scalar {F : Fmt} {w : Nat} (h : FmtW F w) (x : BitVec w) :
    RoundsTo F IsTrunc x (fRound F .zero x) ∧ RoundsTo F IsFloor x (fRound F .down x) ∧
    RoundsTo F IsCeil x (fRound F .up x) :=
  ⟨roundsTo_fRound h .zero x, roundsTo_fRound h .down x, roundsTo_fRound h .up x⟩

/-! ### SSE::float_v -/

theorem isInf_not {F : Fmt} {w : Nat} {x : BitVec w} (h : isInf F x = true) : isFinite F x = false ∧ isNaN F x = false := by
  unfold isInf isFinite isNaN at *
  have h := of_decide_eq_true h
  rw [h]; exact ⟨decide_eq_false (Nat.lt_irrefl _), decide_eq_false (Nat.lt_irrefl _)⟩

theorem isNaN_not {F : Fmt} {w : Nat} {x : BitVec w} (h : isNaN F x = true) : isFinite F x = false := by
  unfold isFinite isNaN at *
  have h := of_decide_eq_true h
  exact decide_eq_false (Nat.lt_asymm h)

theorem one32 : isFinite f32 0x3f800000#32 = true ∧ fval f32 0x3f800000#32 = 2 ^ oneExp f32 := by decide
theorem one64 : isFinite f64 0x3ff0000000000000#64 = true ∧ fval f64 0x3ff0000000000000#64 = 2 ^ oneExp f64 := by
  decide +kernel

/-- What `floor` and `ceil` of the emulation do with infinities and NaNs that `trunc` left unchanged. -/
theorem special_floor {F : Fmt} {w : Nat} (one : BitVec w) {x y : BitVec w} (h : isInf F x = true ∧ y = x ∨ isNaN F x = true ∧ isNaN F y = true) :
    (isInf F x = true → floorLane F one x y = x ∧ ceilLane F one x y = x) ∧
    (isNaN F x = true → isNaN F (floorLane F one x y) = true ∧ isNaN F (ceilLane F one x y) = true) := by
  rcases h with ⟨h1, rfl⟩ | ⟨h1, h2⟩
  · have hn := (isInf_not h1).2
    have he : fEq F y y = true := by unfold fEq; rw [hn]; simp
    refine ⟨fun _ => ?_, fun hc => ?_⟩
    · unfold floorLane ceilLane; rw [he]; exact ⟨rfl, rfl⟩
    · rw [hn] at hc; exact absurd hc (by decide)
  · refine ⟨fun hc => ?_, fun _ => ?_⟩
    · rw [(isInf_not hc).2] at h1; exact absurd h1 (by decide)
    · have he : fEq F y x = false := by unfold fEq; rw [h2]; rfl
      have hl : fLt F x 0#w = false := by unfold fLt; rw [h1]; rfl
      unfold floorLane ceilLane
      rw [he, hl]
      exact ⟨h2, isNaN_fAdd_left h2 _⟩

theorem truncPsLane_roundsTo (a : BitVec 32) : RoundsTo f32 IsTrunc a (truncPsLane a) := by
  obtain ⟨h1, h2⟩ := truncPsLane_spec a
  refine ⟨fun ha => ?_, fun ha => h2 (isInf_not ha).1, fun ha => ?_⟩
  · obtain ⟨f, v⟩ := h1 ha
    refine ⟨f, _, v, ?_⟩
    have := isTrunc_div (fneg f32 a) (magVal f32 (fmag f32 a)) (pow_pos2 (oneExp f32))
    rw [Int.natCast_pow] at this
    exact this
  · rw [h2 (isNaN_not ha)]; exact ha

/-- `trunc`, `floor` and `ceil` of SSE::float_v, whatever the instruction set, for every float. -/
theorem C56_float (I : Isa) (x : M128) {i : Nat} (hi : i < 4) :
    RoundsTo f32 IsTrunc (lane 32 x i) (lane 32 (vTruncPs I x) i) ∧
    RoundsTo f32 IsFloor (lane 32 x i) (lane 32 (vFloorPs I x) i) ∧
    RoundsTo f32 IsCeil (lane 32 x i) (lane 32 (vCeilPs I x) i) := by
  unfold vTruncPs vFloorPs vCeilPs
  cases I.sse41 with
  | true =>
    have h := fun mode => (C56_instruction Platform.sseFloat x mode (i := i) (by omega)).1
    exact ⟨h .zero, h .down, h .up⟩
  | false =>
    simp only [Bool.false_eq_true, if_false]
    rw [lane_floorEmul I FmtW.single _ _ _ (by omega), lane_ceilEmul I FmtW.single _ _ _ (by omega), lane_truncPsEmul x hi]
    generalize lane 32 x i = a
    have ht := truncPsLane_roundsTo a
    have hs := truncPsLane_spec a
    refine ⟨ht, ⟨?_, ?_, ?_⟩, ⟨?_, ?_, ?_⟩⟩
    · intro ha; exact floorLane_spec FmtW.single ha one32.1 one32.2 (hs.1 ha).1 (hs.1 ha).2
    · intro ha; exact ((special_floor _ (.inl ⟨ha, ht.2.1 ha⟩)).1 ha).1
    · intro ha; exact ((special_floor _ (.inr ⟨ha, ht.2.2 ha⟩)).2 ha).1
    · intro ha; exact ceilLane_spec FmtW.single ha one32.1 one32.2 (hs.1 ha).1 (hs.1 ha).2
    · intro ha; exact ((special_floor _ (.inl ⟨ha, ht.2.1 ha⟩)).1 ha).2
    · intro ha; exact ((special_floor _ (.inr ⟨ha, ht.2.2 ha⟩)).2 ha).2

/-- Witness: floor(-1.5) = -2, ceil(-1.5) = -1 without SSE4.1. -/
example : lane 32 (vFloorPs sse2 (set1 32 0xbfc00000#32)) 1 = 0xc0000000#32 ∧
    lane 32 (vCeilPs sse2 (set1 32 0xbfc00000#32)) 2 = 0xbf800000#32 := by
  rw [floorPs_sse2 _ (by decide), ceilPs_sse2 _ (by decide), lane_set1 _ (by decide), lane_set1 _ (by decide)]
  decide +kernel

/-- Without SSE4.1 the sign of a zero is lost: trunc(-0.5f) and trunc(-0.0f) are +0, with SSE4.1 they are -0. -/
theorem C56_sign_violated :
    lane 32 (vTruncPs sse2 (set1 32 0x80000000#32)) 0 = 0#32 ∧
    lane 32 (vTruncPs sse2 (set1 32 0xbf000000#32)) 0 = 0#32 ∧
    lane 32 (vTruncPs sse42 (set1 32 0x80000000#32)) 0 = 0x80000000#32 ∧
    lane 32 (vTruncPs sse42 (set1 32 0xbf000000#32)) 0 = 0x80000000#32 := by
  rw [truncPs_sse2 _ (by decide), truncPs_sse2 _ (by decide), truncPs_sse42 _ (by decide), truncPs_sse42 _ (by decide),
    lane_set1 _ (by decide), lane_set1 _ (by decide)]
  decide +kernel

/-! ### SSE::double_v -/

theorem isInf64 {x : BitVec 64} (h : isInf f64 x = true) : x = 0x7ff0000000000000#64 ∨ x = 0xfff0000000000000#64 := by
  unfold isInf at h
  have h := of_decide_eq_true h
  have hm : infMag f64 = 0x7ff0000000000000 := by decide
  rw [hm] at h
  cases hn : fneg f64 x
  · left
    exact sm_ext (F := f64) (w := 64) rfl (hn.trans (by decide)) (h.trans (by decide))
  · right
    exact sm_ext (F := f64) (w := 64) rfl (hn.trans (by decide)) (h.trans (by decide))

theorem truncPdLane_inf {x : BitVec 64} (h : isInf f64 x = true) : truncPdLane x = x := by
  rcases isInf64 h with rfl | rfl <;> decide +kernel

theorem truncPdLane_nan {x : BitVec 64} (h : isNaN f64 x = true) : isNaN f64 (truncPdLane x) = true := by
  unfold truncPdLane
  simp only
  have hab : isNaN f64 (x &&& 0x7fffffffffffffff#64) = true := by
    have := (sm_abs (F := f64) (w := 64) rfl x).2
    rw [show BitVec.ofNat 64 (2 ^ (f64.e + f64.m) - 1) = 0x7fffffffffffffff#64 from by decide] at this
    unfold isNaN at h ⊢; rw [this]; exact h
  have ht := isNaN_fSub_left (isNaN_fSub_left (isNaN_fAdd_left hab 0x4330000000000000#64) 0x4330000000000000#64)
    (laneMask (fLt f64 (x &&& 0x7fffffffffffffff#64)
      (fSub f64 (fAdd f64 (x &&& 0x7fffffffffffffff#64) 0x4330000000000000#64) 0x4330000000000000#64)) &&&
      0x3ff0000000000000#64)
  generalize fSub f64 (fSub f64 (fAdd f64 (x &&& 0x7fffffffffffffff#64) 0x4330000000000000#64) 0x4330000000000000#64) _ = t at ht
  unfold isNaN at ht ⊢
  apply decide_eq_true
  apply Nat.lt_of_lt_of_le (of_decide_eq_true ht)
  unfold fmag
  rw [BitVec.toNat_or, Nat.or_mod_two_pow]
  exact Nat.right_le_or

theorem truncPdLane_roundsTo (a : BitVec 64)
    (hsm : isFinite f64 a = true → (fval f64 a).natAbs < 2 ^ 52 * 2 ^ oneExp f64) :
    RoundsTo f64 IsTrunc a (truncPdLane a) := by
  refine ⟨fun ha => ?_, fun ha => truncPdLane_inf ha, fun ha => truncPdLane_nan ha⟩
  have hb := hsm ha
  rw [fval_signed, natAbs_signed] at hb
  obtain ⟨f, _, v⟩ := truncPdLane_spec a ha hb
  refine ⟨f, _, v, ?_⟩
  have := isTrunc_div (fneg f64 a) (magVal f64 (fmag f64 a)) (pow_pos2 (oneExp f64))
  rw [Int.natCast_pow] at this
  exact this

/-- `trunc`, `floor` and `ceil` of SSE::double_v: with SSE4.1 always, without it for numbers below `2 ^ 52`
(and infinities and NaNs).  Missing: `2 ^ 52` and larger numbers without SSE4.1, for which it is wrong
(`C56_double_violated`). -/
theorem C56_double_partial (I : Isa) (x : M128) {i : Nat} (hi : i < 2)
    (hsm : I.sse41 = true ∨
      (isFinite f64 (lane 64 x i) = true → (fval f64 (lane 64 x i)).natAbs < 2 ^ 52 * 2 ^ oneExp f64)) :
    RoundsTo f64 IsTrunc (lane 64 x i) (lane 64 (vTruncPd I x) i) ∧
    RoundsTo f64 IsFloor (lane 64 x i) (lane 64 (vFloorPd I x) i) ∧
    RoundsTo f64 IsCeil (lane 64 x i) (lane 64 (vCeilPd I x) i) := by
  unfold vTruncPd vFloorPd vCeilPd
  cases hI : I.sse41 with
  | true =>
    have h := fun mode => (C56_instruction Platform.sseDouble x mode (i := i) (by omega)).1
    exact ⟨h .zero, h .down, h .up⟩
  | false =>
    have hsm := hsm.resolve_left (by rw [hI]; decide)
    simp only [Bool.false_eq_true, if_false]
    rw [lane_floorEmul I FmtW.double _ _ _ (by omega), lane_ceilEmul I FmtW.double _ _ _ (by omega), lane_truncPdEmul x hi]
    generalize lane 64 x i = a at hsm
    have ht := truncPdLane_roundsTo a hsm
    have hs : isFinite f64 a = true → _ := fun ha => truncPdLane_spec a ha (by
      have := hsm ha; rwa [fval_signed, natAbs_signed] at this)
    refine ⟨ht, ⟨?_, ?_, ?_⟩, ⟨?_, ?_, ?_⟩⟩
    · intro ha; exact floorLane_spec FmtW.double ha one64.1 one64.2 (hs ha).1 (hs ha).2.2
    · intro ha; exact ((special_floor _ (.inl ⟨ha, ht.2.1 ha⟩)).1 ha).1
    · intro ha; exact ((special_floor _ (.inr ⟨ha, ht.2.2 ha⟩)).2 ha).1
    · intro ha; exact ceilLane_spec FmtW.double ha one64.1 one64.2 (hs ha).1 (hs ha).2.2
    · intro ha; exact ((special_floor _ (.inl ⟨ha, ht.2.1 ha⟩)).1 ha).2
    · intro ha; exact ((special_floor _ (.inr ⟨ha, ht.2.2 ha⟩)).2 ha).2

/-- The sign is kept by `trunc` of double. -/
theorem C56_double_sign (I : Isa) (x : M128) {i : Nat} (hi : i < 2) (hx : isFinite f64 (lane 64 x i) = true)
    (hsm : (fval f64 (lane 64 x i)).natAbs < 2 ^ 52 * 2 ^ oneExp f64) :
    fneg f64 (lane 64 (vTruncPd I x) i) = fneg f64 (lane 64 x i) := by
  unfold vTruncPd
  split
  · exact (C56_instruction Platform.sseDouble x .zero (i := i) (by omega)).2 hx
  · rw [lane_truncPdEmul x hi]
    rw [fval_signed, natAbs_signed] at hsm
    exact (truncPdLane_spec _ hx hsm).2.1

/-- Witness: trunc(-1.5) = -1, floor(-1.5) = -2 without SSE4.1. -/
example : lane 64 (vTruncPd sse2 (set1 64 0xbff8000000000000#64)) 1 = 0xbff0000000000000#64 ∧
    lane 64 (vFloorPd sse2 (set1 64 0xbff8000000000000#64)) 0 = 0xc000000000000000#64 := by
  rw [truncPd_sse2 _ (by decide), floorPd_sse2 _ (by decide), lane_set1 _ (by decide), lane_set1 _ (by decide)]
  decide +kernel

/-- trunc(2^52 + 1) is 2^52 without SSE4.1, though the number is an integer; floor gives the same, ceil 2^52 + 1. -/
theorem C56_double_violated :
    lane 64 (vTruncPd sse2 (set1 64 0x4330000000000001#64)) 0 = 0x4330000000000000#64 ∧
    lane 64 (vFloorPd sse2 (set1 64 0x4330000000000001#64)) 0 = 0x4330000000000000#64 ∧
    ¬ RoundsTo f64 IsTrunc (lane 64 (set1 64 0x4330000000000001#64 : M128) 0)
      (lane 64 (vTruncPd sse2 (set1 64 0x4330000000000001#64)) 0) := by
  have e : lane 64 (vTruncPd sse2 (set1 64 0x4330000000000001#64)) 0 = 0x4330000000000000#64 := by
    rw [truncPd_sse2 _ (by decide), lane_set1 _ (by decide)]; decide +kernel
  refine ⟨e, by rw [floorPd_sse2 _ (by decide), lane_set1 _ (by decide)]; decide +kernel, fun h => ?_⟩
  rw [e, lane_set1 _ (by decide)] at h
  obtain ⟨_, n, hn, ht⟩ := h.1 (by decide)
  have h2 := ht.1 (by decide +kernel)
  have hv : fval f64 0x4330000000000001#64 = fval f64 0x4330000000000000#64 + 2 ^ oneExp f64 := by decide +kernel
  have h3 := h2.2
  rw [hv, hn, Int.add_mul, Int.one_mul] at h3
  exact absurd h3 (Int.lt_irrefl _)

/-! ### round -/

/-- `round` of SSE::float_v and double_v rounds to the nearest integer, ties to even: with SSE4.1 always, without it
if that integer is less than `2 ^ 31` in magnitude.  Missing: without SSE4.1 all other numbers, for which the result is
`-2 ^ 31` (`C56_round_violated`). -/
theorem C56_round_partial (I : Isa) (x : M128) :
    (∀ i, i < 4 → I.sse41 = true ∨ (isFinite f32 (lane 32 x i) = true ∧
        2 * (fval f32 (lane 32 x i)).natAbs + 2 ^ oneExp f32 < 2 ^ 32 * 2 ^ oneExp f32) →
      RoundsTo f32 IsNearest (lane 32 x i) (lane 32 (vRoundPs I x) i)) ∧
    (∀ i, i < 2 → I.sse41 = true ∨ (isFinite f64 (lane 64 x i) = true ∧
        2 * (fval f64 (lane 64 x i)).natAbs + 2 ^ oneExp f64 < 2 ^ 32 * 2 ^ oneExp f64) →
      RoundsTo f64 IsNearest (lane 64 x i) (lane 64 (vRoundPd I x) i)) := by
  have key : ∀ {F : Fmt} {w : Nat}, FmtW F w → ∀ a : BitVec w, isFinite F a = true →
      2 * (fval F a).natAbs + 2 ^ oneExp F < 2 ^ 32 * 2 ^ oneExp F →
      RoundsTo F IsNearest a (cvtI2F F w (cvtF2I F a)) := by
    intro F w h a ha hb
    have hd := pow_pos2 (oneExp F)
    refine ⟨fun _ => ?_, fun hc => ?_, fun hc => ?_⟩
    · rw [fval_signed, natAbs_signed] at hb
      have hq : rne (magVal F (fmag F a)) (2 ^ oneExp F) < 2147483648 := by
        have hbd := (rne_bounds (magVal F (fmag F a)) hd).2
        have : 2 * (rne (magVal F (fmag F a)) (2 ^ oneExp F) * 2 ^ oneExp F) < 2 ^ 32 * 2 ^ oneExp F :=
          Nat.lt_of_le_of_lt hbd hb
        rw [← Nat.mul_assoc] at this
        have := Nat.lt_of_mul_lt_mul_right this
        omega
      obtain ⟨f, v⟩ := round_int_spec h ha hq
      refine ⟨f, _, v, ?_⟩
      have := isNearest_rne (fneg F a) (magVal F (fmag F a)) hd
      rw [Int.natCast_pow] at this
      exact this
    · rw [(isInf_not hc).1] at ha; exact absurd ha (by decide)
    · rw [isNaN_not hc] at ha; exact absurd ha (by decide)
  constructor
  · intro i hi h
    unfold vRoundPs
    cases hI : I.sse41 with
    | true => exact (C56_instruction Platform.sseFloat x .nearest (i := i) (by omega)).1
    | false =>
      rw [hI] at h
      obtain ⟨h1, h2⟩ := h.resolve_left (by decide)
      simp only [Bool.false_eq_true, if_false]
      unfold cvtepi32PsN
      rw [lane_map1 _ _ (by omega), lane_map1 _ _ (by omega)]
      exact key FmtW.single _ h1 h2
  · intro i hi h
    unfold vRoundPd
    cases hI : I.sse41 with
    | true => exact (C56_instruction Platform.sseDouble x .nearest (i := i) (by omega)).1
    | false =>
      rw [hI] at h
      obtain ⟨h1, h2⟩ := h.resolve_left (by decide)
      simp only [Bool.false_eq_true, if_false]
      unfold cvtepi32Pd cvtpdEpi32
      rw [lane_ofLanes _ (by omega), lane_ofLanes _ (by omega), if_pos hi]
      exact key FmtW.double _ h1 h2

/-- Witness: round(2.5) = 2, round(-3.5) = -4 without SSE4.1. -/
example : lane 32 (vRoundPs sse2 (set1 32 0x40200000#32)) 3 = 0x40000000#32 ∧
    lane 64 (vRoundPd sse2 (set1 64 0xc00c000000000000#64)) 1 = 0xc010000000000000#64 := by
  rw [roundPs_sse2 _ (by decide), roundPd_sse2 _ (by decide), lane_set1 _ (by decide), lane_set1 _ (by decide)]
  decide +kernel

/-- round(2^31) = -2^31, round(inf) = -2^31 and round(NaN) = -2^31 without SSE4.1. -/
theorem C56_round_violated :
    lane 32 (vRoundPs sse2 (set1 32 0x4f000000#32)) 0 = 0xcf000000#32 ∧
    lane 32 (vRoundPs sse2 (set1 32 0x7f800000#32)) 0 = 0xcf000000#32 ∧
    lane 32 (vRoundPs sse2 (set1 32 0x7fc00000#32)) 0 = 0xcf000000#32 ∧
    lane 64 (vRoundPd sse2 (set1 64 0x41e0000000000000#64)) 0 = 0xc1e0000000000000#64 := by
  rw [roundPs_sse2 _ (by decide), roundPs_sse2 _ (by decide), roundPs_sse2 _ (by decide), roundPd_sse2 _ (by decide),
    lane_set1 _ (by decide), lane_set1 _ (by decide), lane_set1 _ (by decide), lane_set1 _ (by decide)]
  decide +kernel

/-! ### round of the scalar implementation -/

/-- `round` of Scalar::float_v and double_v rounds to the nearest integer, ties to even, for every multiple of `2 ^ j`
units (`2 ^ j` at most one half) whose magnitude plus 2 is at most `2 ^ (m + 1)` such multiples.  Missing: numbers using
all mantissa bits, for some of which it is wrong (`C56_scalar_round_violated`). -/
theorem C56_scalar_round_partial :
    (∀ (x : BitVec 32) (z : Int) (j : Nat), isFinite f32 x = true → fval f32 x = z * 2 ^ j → 1 ≤ j → j < oneExp f32 →
      z.natAbs + 2 ^ (oneExp f32 + 1 - j) ≤ 2 ^ 24 →
      isFinite f32 (sRound32 x) = true ∧
        ∃ n, fval f32 (sRound32 x) = n * 2 ^ oneExp f32 ∧ IsNearest (fval f32 x) (2 ^ oneExp f32) n) ∧
    (∀ (x : BitVec 64) (z : Int) (j : Nat), isFinite f64 x = true → fval f64 x = z * 2 ^ j → 1 ≤ j → j < oneExp f64 →
      z.natAbs + 2 ^ (oneExp f64 + 1 - j) ≤ 2 ^ 53 →
      isFinite f64 (sRound64 x) = true ∧
        ∃ n, fval f64 (sRound64 x) = n * 2 ^ oneExp f64 ∧ IsNearest (fval f64 x) (2 ^ oneExp f64) n) := by
  constructor
  · intro x z j hx hz h1 h2 hb
    exact sRound_spec FmtW.single (by decide) (by decide) (by decide) (by decide) (by decide) (by decide) hx h1
      (i := oneExp f32 - 1 - j) (by omega) hz (by
        rw [show oneExp f32 - 1 - j + 2 = oneExp f32 + 1 - j from by omega]; exact hb)
  · intro x z j hx hz h1 h2 hb
    exact sRound_spec FmtW.double (by decide) (by decide +kernel) (by decide) (by decide +kernel) (by decide)
      (by decide +kernel) hx h1 (i := oneExp f64 - 1 - j) (by omega) hz (by
        rw [show oneExp f64 - 1 - j + 2 = oneExp f64 + 1 - j from by omega]; exact hb)

/-- Witness: 2.5 is five halfs and becomes 2. -/
example : fval f32 0x40200000#32 = 5 * 2 ^ 148 ∧ sRound32 0x40200000#32 = 0x40000000#32 := by decide +kernel

/-- The greatest float below 0.5 becomes 1, and 8388609 becomes 8388610; likewise for double. -/
theorem C56_scalar_round_violated :
    sRound32 0x3effffff#32 = 0x3f800000#32 ∧ sRound32 0x4b000001#32 = 0x4b000002#32 ∧
    sRound64 0x3fdfffffffffffff#64 = 0x3ff0000000000000#64 ∧ sRound64 0x4330000000000001#64 = 0x4330000000000002#64 := by
  decide +kernel

end Vc.Prop
