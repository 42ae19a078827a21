import Verif.Lemma.ArcSpecial
import Verif.Lemma.FloatReal2
import Verif.Lemma.PiDigits

/-!
C77: special values and symmetry of `atan` and `atan2`.
-/

namespace Vc.Prop
open Vc.Model Vc.Spec Vc.Lemma

/-- The versions for float vectors. -/
inductive ArcVF : (n : Nat) → ArcEnv n → Prop
  | sse (I : Isa) : ArcVF 128 (arcSseF I)
  | avx (B : CmpBuild) : ArcVF 256 (arcAvxF B)

/-- The versions for double vectors. -/
inductive ArcVD : (n : Nat) → ArcEnv n → Prop
  | sse (I : Isa) : ArcVD 128 (arcSseD I)
  | avx (B : CmpBuild) : ArcVD 256 (arcAvxD B)

theorem ArcVF.ok {n : Nat} {E : ArcEnv n} (h : ArcVF n E) : ArcOk E f32 32 := by
  cases h with
  | sse I => exact arcOk_sseF I
  | avx B => exact arcOk_avxF B

theorem ArcVD.ok {n : Nat} {E : ArcEnv n} (h : ArcVD n E) : ArcOk E f64 64 := by
  cases h with
  | sse I => exact arcOk_sseD I
  | avx B => exact arcOk_avxD B

/-- Float: the arcus tangens of a NaN is a NaN, that of plus zero is plus zero, that of an infinity is the number next to
`π/2` with its sign, and changing the sign of any other argument changes the sign of the result and nothing else.  Missing:
the arcus tangens of minus zero, see `C77_atan_float_violated`. -/
theorem C77_atan_float_partial {n : Nat} {E : ArcEnv n} (h : ArcVF n E) {i : Nat} (hi : 32 * (i + 1) ≤ n) (x : BitVec n) :
    (isNaN f32 (lane 32 x i) = true → isNaN f32 (lane 32 (atanF (vArc E f32 32) x) i) = true) ∧
    (lane 32 x i = 0#32 → lane 32 (atanF (vArc E f32 32) x) i = 0#32) ∧
    (isInf f32 (lane 32 x i) = true → fneg f32 (lane 32 (atanF (vArc E f32 32) x) i) = fneg f32 (lane 32 x i) ∧
      fmag f32 (lane 32 (atanF (vArc E f32 32) x) i) = piF.half) ∧
    (isNaN f32 (lane 32 x i) = false → fmag f32 (lane 32 x i) ≠ 0 → ∀ y : BitVec n,
      lane 32 y i = lane 32 x i ^^^ BitVec.ofNat 32 (2 ^ (32 - 1)) →
      lane 32 (atanF (vArc E f32 32) y) i = lane 32 (atanF (vArc E f32 32) x) i ^^^ BitVec.ofNat 32 (2 ^ (32 - 1))) := by
  have ok := h.ok
  rw [atanF_lane ok hi (v := x) rfl]
  refine ⟨fun hx => ?_, fun hx => ?_, fun hx => ?_, fun hx h0 y hy => ?_⟩
  · rw [atanF_nan _ hx]; decide +kernel
  · rw [hx]; exact (atan2Ok_F E.B).zero false
  · have e : lane 32 x i = mkFloat f32 32 (fneg f32 (lane 32 x i)) (infMag f32) := by
      unfold isInf at hx
      have := fneg_mk f32 (w := 32) (by decide) (fneg f32 (lane 32 x i)) (k := infMag f32) (by decide +kernel)
      exact sm_ext (by decide) this.1.symm ((of_decide_eq_true hx).trans this.2.symm)
    generalize fneg f32 (lane 32 x i) = s at e ⊢
    rw [e, (atan2Ok_F E.B).inf]
    exact fneg_mk f32 (w := 32) (by decide) s (k := piF.half) (by decide +kernel)
  · have := atanF_odd E.B hx h0
    rw [sgn_def] at this
    rw [atanF_lane ok hi (v := y) rfl, hy, this]

/-- C99 wants `atan(-0)` to be `-0`; on all vector types the result is `+0`. -/
theorem C77_atan_float_violated : ∃ x : BitVec 32, fneg f32 x = true ∧ fmag f32 x = 0 ∧ ∀ {n : Nat} {E : ArcEnv n}, ArcVF n E →
    ∀ (v : BitVec n) (i : Nat), 32 * (i + 1) ≤ n → lane 32 v i = x → lane 32 (atanF (vArc E f32 32) v) i = 0#32 := by
  refine ⟨BitVec.ofNat 32 (2 ^ (32 - 1)), by decide +kernel, by decide +kernel, fun h v i hi e => ?_⟩
  rw [atanF_lane h.ok hi (v := v) rfl, e]
  exact (atan2Ok_F _).zero true

/-- Float: `atan2` is a NaN where an operand is, and has the value C99 wants where an operand is zero or infinite. -/
theorem C77_atan2_float {n : Nat} {E : ArcEnv n} (h : ArcVF n E) {i : Nat} (hi : 32 * (i + 1) ≤ n) (y x : BitVec n) :
    (isNaN f32 (lane 32 y i) = true ∨ isNaN f32 (lane 32 x i) = true → isNaN f32 (lane 32 (atan2F (vArc E f32 32) y x) i) = true) ∧
    ∀ m, atan2Table f32 piF (lane 32 y i) (lane 32 x i) = some m →
      fneg f32 (lane 32 (atan2F (vArc E f32 32) y x) i) = fneg f32 (lane 32 y i) ∧
      fmag f32 (lane 32 (atan2F (vArc E f32 32) y x) i) = m := by
  have ok := h.ok
  unfold atan2F
  rw [atan2_lane ok hi _ _ _ _ (fun hv => atanF_lane ok hi hv) (y := y) (x := x) rfl rfl]
  refine ⟨fun hn => ?_, fun m hm => ?_⟩
  · rw [atan2_nan]
    · decide +kernel
    · rcases hn with e | e <;> rw [e] <;> simp
  · rw [atan2_table .single E.B (atan2Ok_F E.B) hm]
    refine fneg_mk f32 (by decide) _ ?_
    have : m = 0 ∨ m = piF.pi ∨ m = piF.half ∨ m = piF.quarter ∨ m = piF.three := by
      unfold atan2Table at hm
      split at hm
      · cases hm
      split at hm
      · obtain rfl := Option.some.inj hm; split <;> simp
      split at hm
      · obtain rfl := Option.some.inj hm; simp
      split at hm
      · obtain rfl := Option.some.inj hm; split <;> [split; skip] <;> simp
      split at hm
      · obtain rfl := Option.some.inj hm; split <;> simp
      · cases hm
    rcases this with e | e | e | e | e <;> rw [e] <;> decide +kernel

/-- Double: the arcus tangens of a NaN is a NaN, that of plus zero is plus zero, that of an infinity is the number next to
`π/2` with its sign, and changing the sign of any other argument changes the sign of the result and nothing else.  Missing:
the arcus tangens of minus zero, see `C77_atan_double_violated`. -/
theorem C77_atan_double_partial {n : Nat} {E : ArcEnv n} (h : ArcVD n E) {i : Nat} (hi : 64 * (i + 1) ≤ n) (x : BitVec n) :
    (isNaN f64 (lane 64 x i) = true → isNaN f64 (lane 64 (atanD (vArc E f64 64) x) i) = true) ∧
    (lane 64 x i = 0#64 → lane 64 (atanD (vArc E f64 64) x) i = 0#64) ∧
    (isInf f64 (lane 64 x i) = true → fneg f64 (lane 64 (atanD (vArc E f64 64) x) i) = fneg f64 (lane 64 x i) ∧
      fmag f64 (lane 64 (atanD (vArc E f64 64) x) i) = piD.half) ∧
    (isNaN f64 (lane 64 x i) = false → fmag f64 (lane 64 x i) ≠ 0 → ∀ y : BitVec n,
      lane 64 y i = lane 64 x i ^^^ BitVec.ofNat 64 (2 ^ (64 - 1)) →
      lane 64 (atanD (vArc E f64 64) y) i = lane 64 (atanD (vArc E f64 64) x) i ^^^ BitVec.ofNat 64 (2 ^ (64 - 1))) := by
  have ok := h.ok
  rw [atanD_lane ok hi (v := x) rfl]
  refine ⟨fun hx => ?_, fun hx => ?_, fun hx => ?_, fun hx h0 y hy => ?_⟩
  · rw [atanD_nan _ hx]; decide +kernel
  · rw [hx]; exact (atan2Ok_D E.B).zero false
  · have e : lane 64 x i = mkFloat f64 64 (fneg f64 (lane 64 x i)) (infMag f64) := by
      unfold isInf at hx
      have := fneg_mk f64 (w := 64) (by decide) (fneg f64 (lane 64 x i)) (k := infMag f64) (by decide +kernel)
      exact sm_ext (by decide) this.1.symm ((of_decide_eq_true hx).trans this.2.symm)
    generalize fneg f64 (lane 64 x i) = s at e ⊢
    rw [e, (atan2Ok_D E.B).inf]
    exact fneg_mk f64 (w := 64) (by decide) s (k := piD.half) (by decide +kernel)
  · have := atanD_odd E.B hx h0
    rw [sgn_def] at this
    rw [atanD_lane ok hi (v := y) rfl, hy, this]

/-- C99 wants `atan(-0)` to be `-0`; on all vector types the result is `+0`. -/
theorem C77_atan_double_violated : ∃ x : BitVec 64, fneg f64 x = true ∧ fmag f64 x = 0 ∧ ∀ {n : Nat} {E : ArcEnv n}, ArcVD n E →
    ∀ (v : BitVec n) (i : Nat), 64 * (i + 1) ≤ n → lane 64 v i = x → lane 64 (atanD (vArc E f64 64) v) i = 0#64 := by
  refine ⟨BitVec.ofNat 64 (2 ^ (64 - 1)), by decide +kernel, by decide +kernel, fun h v i hi e => ?_⟩
  rw [atanD_lane h.ok hi (v := v) rfl, e]
  exact (atan2Ok_D _).zero true

/-- Double: `atan2` is a NaN where an operand is, and has the value C99 wants where an operand is zero or infinite. -/
theorem C77_atan2_double {n : Nat} {E : ArcEnv n} (h : ArcVD n E) {i : Nat} (hi : 64 * (i + 1) ≤ n) (y x : BitVec n) :
    (isNaN f64 (lane 64 y i) = true ∨ isNaN f64 (lane 64 x i) = true → isNaN f64 (lane 64 (atan2D (vArc E f64 64) y x) i) = true) ∧
    ∀ m, atan2Table f64 piD (lane 64 y i) (lane 64 x i) = some m →
      fneg f64 (lane 64 (atan2D (vArc E f64 64) y x) i) = fneg f64 (lane 64 y i) ∧
      fmag f64 (lane 64 (atan2D (vArc E f64 64) y x) i) = m := by
  have ok := h.ok
  unfold atan2D
  rw [atan2_lane ok hi _ _ _ _ (fun hv => atanD_lane ok hi hv) (y := y) (x := x) rfl rfl]
  refine ⟨fun hn => ?_, fun m hm => ?_⟩
  · rw [atan2_nan]
    · decide +kernel
    · rcases hn with e | e <;> rw [e] <;> simp
  · rw [atan2_table .double E.B (atan2Ok_D E.B) hm]
    refine fneg_mk f64 (by decide) _ ?_
    have : m = 0 ∨ m = piD.pi ∨ m = piD.half ∨ m = piD.quarter ∨ m = piD.three := by
      unfold atan2Table at hm
      split at hm
      · cases hm
      split at hm
      · obtain rfl := Option.some.inj hm; split <;> simp
      split at hm
      · obtain rfl := Option.some.inj hm; simp
      split at hm
      · obtain rfl := Option.some.inj hm; split <;> [split; skip] <;> simp
      split at hm
      · obtain rfl := Option.some.inj hm; split <;> simp
      · cases hm
    rcases this with e | e | e | e | e <;> rw [e] <;> decide +kernel

/-- The table of `atan2` holds the numbers next to `π`, `π/2`, `π/4` and `3π/4`: each differs from it by less than half the
distance to the neighbouring numbers. -/
theorem C77_constants :
    (|rval f32 (BitVec.ofNat 32 piF.pi) - Real.pi| < 1 / 2 ^ 23 ∧ |rval f32 (BitVec.ofNat 32 piF.half) - Real.pi / 2| < 1 / 2 ^ 24 ∧
      |rval f32 (BitVec.ofNat 32 piF.quarter) - Real.pi / 4| < 1 / 2 ^ 25 ∧
      |rval f32 (BitVec.ofNat 32 piF.three) - 3 * Real.pi / 4| < 1 / 2 ^ 23) ∧
    (|rval f64 (BitVec.ofNat 64 piD.pi) - Real.pi| < 1 / 2 ^ 52 ∧ |rval f64 (BitVec.ofNat 64 piD.half) - Real.pi / 2| < 1 / 2 ^ 53 ∧
      |rval f64 (BitVec.ofNat 64 piD.quarter) - Real.pi / 4| < 1 / 2 ^ 54 ∧
      |rval f64 (BitVec.ofNat 64 piD.three) - 3 * Real.pi / 4| < 1 / 2 ^ 52) := by
  have lo := pi_gt_d50
  have hi := pi_lt_d50
  have e0 : rval f32 (BitVec.ofNat 32 piF.pi) = 13176795 / 2 ^ 22 :=
    rval_lit false 128 4788187 (-22) (by decide) (by decide +kernel) (by decide +kernel) (by decide +kernel) (by decide) (by norm_num [f32])
  have e1 : rval f32 (BitVec.ofNat 32 piF.half) = 13176795 / 2 ^ 23 :=
    rval_lit false 127 4788187 (-23) (by decide) (by decide +kernel) (by decide +kernel) (by decide +kernel) (by decide) (by norm_num [f32])
  have e2 : rval f32 (BitVec.ofNat 32 piF.quarter) = 13176795 / 2 ^ 24 :=
    rval_lit false 126 4788187 (-24) (by decide) (by decide +kernel) (by decide +kernel) (by decide +kernel) (by decide) (by norm_num [f32])
  have e3 : rval f32 (BitVec.ofNat 32 piF.three) = 9882596 / 2 ^ 22 :=
    rval_lit false 128 1493988 (-22) (by decide) (by decide +kernel) (by decide +kernel) (by decide +kernel) (by decide) (by norm_num [f32])
  have e4 : rval f64 (BitVec.ofNat 64 piD.pi) = 7074237752028440 / 2 ^ 51 :=
    rval_lit false 1024 2570638124657944 (-51) (by decide) (by decide +kernel) (by decide +kernel) (by decide +kernel) (by decide) (by norm_num [f64])
  have e5 : rval f64 (BitVec.ofNat 64 piD.half) = 7074237752028440 / 2 ^ 52 :=
    rval_lit false 1023 2570638124657944 (-52) (by decide) (by decide +kernel) (by decide +kernel) (by decide +kernel) (by decide) (by norm_num [f64])
  have e6 : rval f64 (BitVec.ofNat 64 piD.quarter) = 7074237752028440 / 2 ^ 53 :=
    rval_lit false 1022 2570638124657944 (-53) (by decide) (by decide +kernel) (by decide +kernel) (by decide +kernel) (by decide) (by norm_num [f64])
  have e7 : rval f64 (BitVec.ofNat 64 piD.three) = 5305678314021330 / 2 ^ 51 :=
    rval_lit false 1024 802078686650834 (-51) (by decide) (by decide +kernel) (by decide +kernel) (by decide +kernel) (by decide) (by norm_num [f64])
  rw [e0, e1, e2, e3, e4, e5, e6, e7]
  simp only [abs_lt]
  norm_num
  refine ⟨⟨⟨?_, ?_⟩, ⟨?_, ?_⟩, ⟨?_, ?_⟩, ⟨?_, ?_⟩⟩, ⟨?_, ?_⟩, ⟨?_, ?_⟩, ⟨?_, ?_⟩, ⟨?_, ?_⟩⟩ <;> linarith

example : ArcVF 128 (arcSseF sse2) ∧ ArcVD 256 (arcAvxD .avx) := ⟨.sse _, .avx _⟩
/-- Both operands infinite, and both zero. -/
example : atan2Table f32 piF 0xff800000#32 0xff800000#32 = some 0x4016cbe4 ∧ atan2Table f64 piD 0#64 0x8000000000000000#64 = some 0x400921fb54442d18 := by
  decide +kernel

end Vc.Prop
