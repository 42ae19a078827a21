import Verif.Lemma.FloatArith
import Verif.Spec.Fma

/-!
Lemmas for `fma` (C64).
-/

namespace Vc.Lemma
open Vc.Model Vc.Spec

theorem finite_of_le {F : Fmt} {w : Nat} {x y : BitVec w} (hy : isFinite F y = true)
    (h1 : fval F x ≤ fval F y) (h2 : -fval F y ≤ fval F x) : isFinite F x = true := by
  have h3 : magVal F (fmag F x) ≤ magVal F (fmag F y) := by
    rw [← natAbs_fval, ← natAbs_fval]; omega
  unfold isFinite at *
  have := of_decide_eq_true hy
  refine decide_eq_true ?_
  rcases Nat.lt_or_ge (fmag F y) (fmag F x) with h | h
  · have := magVal_lt F h; omega
  · omega

/-- Numbers with few enough significant bits exist in the format. -/
theorem exists_val {F : Fmt} {w : Nat} (h : FmtW F w) {r j : Nat} (hr : r ≤ 2 ^ (F.m + 1)) (hj : j + 3 < 2 ^ F.e)
    {n : Int} (hn : n.natAbs = r * 2 ^ j) : ∃ y : BitVec w, isFinite F y = true ∧ fval F y = n := by
  obtain ⟨M, hM, hle⟩ := representable F j r hr
  have hi := inf_bound F hj hle
  have hlt := Nat.lt_trans hi (infMag_lt F)
  refine ⟨mkFloat F w (decide (n < 0)) M, ?_, ?_⟩
  · unfold isFinite
    rw [(fneg_mk F h.lt _ hlt).2]
    exact decide_eq_true hi
  · unfold fval
    rw [(fneg_mk F h.lt _ hlt).1, (fneg_mk F h.lt _ hlt).2, hM, ← hn]
    by_cases h0 : n < 0
    · rw [decide_eq_true h0, if_pos rfl]; omega
    · rw [decide_eq_false h0, if_neg Bool.false_ne_true]; omega

theorem split32 {x : BitVec 32} (hx : isFinite f32 x = true) :
    ∃ r j, (fval f32 x).natAbs = r * 2 ^ j ∧ r ≤ 2 ^ 24 ∧ j ≤ 253 := by
  have hk : fmag f32 x < infMag f32 := of_decide_eq_true hx
  rw [natAbs_fval]
  have e : infMag f32 = 255 * 2 ^ 23 := by decide
  have e' : f32.m = 23 := rfl
  rw [e] at hk
  unfold magVal
  rw [e']
  by_cases h0 : fmag f32 x / 2 ^ 23 = 0
  · refine ⟨fmag f32 x, 0, ?_, ?_, by omega⟩
    · rw [if_pos h0, Nat.pow_zero, Nat.mul_one]
    · omega
  · refine ⟨2 ^ 23 + fmag f32 x % 2 ^ 23, fmag f32 x / 2 ^ 23 - 1, if_neg h0, by omega, by omega⟩

/-- The float as double. -/
def up (x : BitVec 32) : BitVec 64 := cvtF2F f32 f64 64 x

theorem oneExp32 : oneExp f32 = 149 := by decide
theorem oneExp64 : oneExp f64 = 1074 := by decide

theorem ipow_pos (k : Nat) : (0 : Int) < 2 ^ k := Int.pow_pos (by decide)

theorem fval_up {x : BitVec 32} (hx : isFinite f32 x = true) :
    isFinite f64 (up x) = true ∧ fval f64 (up x) = fval f32 x * 2 ^ 925 := by
  obtain ⟨h1, h2⟩ := cvtF2F_exact hx
  refine ⟨h1, ?_⟩
  rw [oneExp32, oneExp64] at h2
  have e : (2 : Int) ^ 1074 = 2 ^ 925 * 2 ^ 149 := by rw [← Int.pow_add]
  rw [e, ← Int.mul_assoc] at h2
  exact Int.eq_of_mul_eq_mul_right (Int.ne_of_gt (ipow_pos 149)) h2

/-- The product of two floats is exact in double. -/
theorem mul_up {a b : BitVec 32} (ha : isFinite f32 a = true) (hb : isFinite f32 b = true) :
    isFinite f64 (fMul f64 (up a) (up b)) = true ∧
    fval f64 (fMul f64 (up a) (up b)) = fval f32 a * fval f32 b * 2 ^ 776 := by
  obtain ⟨fa, va⟩ := fval_up ha
  obtain ⟨fb, vb⟩ := fval_up hb
  obtain ⟨ra, ja, ea, hra, hja⟩ := split32 ha
  obtain ⟨rb, jb, eb, hrb, hjb⟩ := split32 hb
  have hr : ra * rb ≤ 2 ^ (f64.m + 1) := by
    refine Nat.le_trans (Nat.mul_le_mul hra hrb) ?_
    decide
  have h2048 : 2 ^ f64.e = 2048 := by decide
  obtain ⟨y, hy, ey⟩ := exists_val (F := f64) .double (r := ra * rb) (j := ja + jb + 776) hr (by omega)
    (n := fval f32 a * fval f32 b * 2 ^ 776) (by
      rw [Int.natAbs_mul, Int.natAbs_mul, ea, eb, Int.natAbs_pow, Nat.pow_add, Nat.pow_add]
      simp only [Nat.mul_assoc, Nat.mul_left_comm]
      rfl)
  have hn := fMul_nearest .double fa fb
  have e := nearest_eq (pow_pos2 _) hn (isFinite_not hy).1 (by
    rw [ey, va, vb, oneExp64]
    have e1 : (2 : Int) ^ 925 = 2 ^ 776 * 2 ^ 149 := by rw [← Int.pow_add]
    have e2 : ((2 ^ 1074 : Nat) : Int) = 2 ^ 149 * 2 ^ 925 := by rw [← Int.pow_add, Int.natCast_pow]; rfl
    rw [e2]
    conv => rhs; rw [show fval f32 a * 2 ^ 925 * (fval f32 b * 2 ^ 925) =
      fval f32 a * fval f32 b * (2 ^ 925 * 2 ^ 925) from by
        rw [Int.mul_assoc, Int.mul_assoc, Int.mul_left_comm (2 ^ 925)]]
    rw [Int.mul_assoc, ← Int.mul_assoc (2 ^ 776), ← e1])
  exact ⟨finite_of_val hy e, e.trans ey⟩

/-- The sum in double precision. -/
def wide (a b c : BitVec 32) : BitVec 64 := fAdd f64 (fMul f64 (up a) (up b)) (up c)

theorem mul_right_lt {a b : Int} (k : Nat) (h : a < b) : a * 2 ^ k < b * 2 ^ k :=
  Int.mul_lt_mul_of_pos_right h (ipow_pos k)

theorem mul_right_le {a b : Int} (k : Nat) (h : a ≤ b) : a * 2 ^ k ≤ b * 2 ^ k :=
  Int.mul_le_mul_of_nonneg_right h (Int.le_of_lt (ipow_pos k))

theorem natAbs_lt_pow {x : BitVec 32} (hx : isFinite f32 x = true) : (fval f32 x).natAbs ≤ 2 ^ 277 := by
  obtain ⟨r, j, e, hr, hj⟩ := split32 hx
  rw [e]
  refine Nat.le_trans (Nat.mul_le_mul hr (Nat.pow_le_pow_right (by decide) hj)) ?_
  rw [← Nat.pow_add]
  exact Nat.pow_le_pow_right (by decide) (by omega)

theorem wide_nearest {a b c : BitVec 32} (ha : isFinite f32 a = true) (hb : isFinite f32 b = true)
    (hc : isFinite f32 c = true) :
    isFinite f64 (wide a b c) = true ∧ NearestTo f64 (fmaExact f32 a b c * 2 ^ 776) 1 (wide a b c) := by
  obtain ⟨fp, vp⟩ := mul_up ha hb
  obtain ⟨fc, vc⟩ := fval_up hc
  have hn := fAdd_nearest .double fp fc
  have e : fval f64 (fMul f64 (up a) (up b)) + fval f64 (up c) = fmaExact f32 a b c * 2 ^ 776 := by
    unfold fmaExact
    have e1 : (2 : Int) ^ 925 = 2 ^ 149 * 2 ^ 776 := by rw [← Int.pow_add]
    rw [vp, vc, oneExp32, Int.add_mul, e1, Int.mul_assoc (fval f32 c)]
  rw [e] at hn
  refine ⟨?_, hn⟩
  have h2048 : 2 ^ f64.e = 2048 := by decide
  obtain ⟨y, hy, ey⟩ := exists_val (F := f64) .double (r := 1) (j := 1331) (Nat.one_le_two_pow) (by omega)
    (n := 2 ^ 1331) (by rw [Int.natAbs_pow, Nat.one_mul]; rfl)
  obtain ⟨y', hy', ey'⟩ := exists_val (F := f64) .double (r := 1) (j := 1331) (Nat.one_le_two_pow) (by omega)
    (n := -2 ^ 1331) (by rw [Int.natAbs_neg, Int.natAbs_pow, Nat.one_mul]; rfl)
  have hbound : (fmaExact f32 a b c).natAbs ≤ 2 ^ 555 := by
    unfold fmaExact
    refine Nat.le_trans (Int.natAbs_add_le _ _) ?_
    rw [Int.natAbs_mul, Int.natAbs_mul, Int.natAbs_pow, oneExp32]
    have h1 := Nat.mul_le_mul (natAbs_lt_pow ha) (natAbs_lt_pow hb)
    have h2 : (fval f32 c).natAbs * (2 : Int).natAbs ^ 149 ≤ 2 ^ 277 * 2 ^ 149 :=
      Nat.mul_le_mul (natAbs_lt_pow hc) (Nat.le_refl _)
    rw [← Nat.pow_add] at h1 h2
    have h3 : 2 ^ (277 + 149) ≤ 2 ^ (277 + 277) := Nat.pow_le_pow_right (by decide) (by omega)
    have h4 : 2 ^ 555 = 2 ^ (277 + 277) + 2 ^ (277 + 277) := by rw [← Nat.two_mul, ← Nat.pow_succ']
    rw [h4]
    exact Nat.add_le_add h1 (Nat.le_trans h2 h3)
  have hu : fmaExact f32 a b c ≤ 2 ^ 555 := by
    have : ((2 ^ 555 : Nat) : Int) = 2 ^ 555 := by rw [Int.natCast_pow]; rfl
    generalize (2 : Int) ^ 555 = P at *
    omega
  have hl : -2 ^ 555 ≤ fmaExact f32 a b c := by
    have : ((2 ^ 555 : Nat) : Int) = 2 ^ 555 := by rw [Int.natCast_pow]; rfl
    generalize (2 : Int) ^ 555 = P at *
    omega
  have e1331 : (2 : Int) ^ 1331 = 2 ^ 555 * 2 ^ 776 := by rw [← Int.pow_add]
  have k1 := nearest_le (y := y) (by decide) hn (isFinite_not hy).1 (by
    rw [ey, e1331, Int.natCast_one, Int.mul_one]
    exact mul_right_le 776 hu)
  have k2 := nearest_ge (y := y') (by decide) hn (isFinite_not hy').1 (by
    rw [ey', e1331, Int.natCast_one, Int.mul_one, ← Int.neg_mul]
    exact mul_right_le 776 hl)
  refine finite_of_le hy k1 ?_
  rw [ey]; rw [ey'] at k2
  exact k2

/-- The emulation for one float. -/
def fmaLane32 (a b c : BitVec 32) : BitVec 32 := cvtF2F f64 f32 32 (wide a b c)

theorem fmaLane32_nearest {a b c : BitVec 32} (ha : isFinite f32 a = true) (hb : isFinite f32 b = true)
    (hc : isFinite f32 c = true) : NearestTo f32 (fval f64 (wide a b c)) (2 ^ 925) (fmaLane32 a b c) := by
  obtain ⟨hf, -⟩ := wide_nearest ha hb hc
  have h := (cvtF2F_spec (F := f64) (G := f32) (v := 32) .single (wide a b c)).2.2.2 hf
  rw [oneExp32, oneExp64] at h
  refine (nearest_scale (k := 2 ^ 149) (pow_pos2 149)).mp ?_
  have e1 : (2 ^ 925 : Nat) * 2 ^ 149 = 2 ^ 1074 := by rw [← Nat.pow_add]
  rw [e1, Int.natCast_pow]
  exact h

theorem fmaLane32_faithful {a b c : BitVec 32} (ha : isFinite f32 a = true) (hb : isFinite f32 b = true)
    (hc : isFinite f32 c = true) : Faithful f32 (fmaExact f32 a b c) (2 ^ oneExp f32) (fmaLane32 a b c) := by
  obtain ⟨hf, hn⟩ := wide_nearest ha hb hc
  have hr := fmaLane32_nearest ha hb hc
  have e1 : (2 : Int) ^ 925 = 2 ^ 149 * 2 ^ 776 := by rw [← Int.pow_add]
  have e2 : ((2 ^ 925 : Nat) : Int) = 2 ^ 925 := by rw [Int.natCast_pow]; rfl
  have e3 : ((2 ^ 149 : Nat) : Int) = 2 ^ 149 := by rw [Int.natCast_pow]; rfl
  refine ⟨hr.1, fun y hy => ⟨fun h => ?_, fun h => ?_⟩⟩
  · rw [oneExp32, e3] at h
    obtain ⟨fy, vy⟩ := fval_up hy
    have k := nearest_ge (y := up y) (by decide) hn (isFinite_not fy).1 (by
      rw [vy, e1, ← Int.mul_assoc, Int.natCast_one, Int.mul_one]
      exact mul_right_le 776 h)
    refine nearest_ge (pow_pos2 925) hr (isFinite_not hy).1 ?_
    rw [e2, ← vy]
    exact k
  · rw [oneExp32, e3] at h
    obtain ⟨fy, vy⟩ := fval_up hy
    have k := nearest_le (y := up y) (by decide) hn (isFinite_not fy).1 (by
      rw [vy, e1, ← Int.mul_assoc, Int.natCast_one, Int.mul_one]
      exact mul_right_le 776 h)
    refine nearest_le (pow_pos2 925) hr (isFinite_not hy).1 ?_
    rw [e2, ← vy]
    exact k

theorem scale_exact {E : Int} {r : BitVec 32} : NearestTo f32 (E * 2 ^ 776) (2 ^ 925) r ↔
    NearestTo f32 E (2 ^ oneExp f32) r := by
  rw [← nearest_scale (num := E) (den := 2 ^ oneExp f32) (k := 2 ^ 776) (pow_pos2 776), oneExp32]
  have e1 : (2 ^ 149 : Nat) * 2 ^ 776 = 2 ^ 925 := by rw [← Nat.pow_add]
  rw [e1, Int.natCast_pow]
  rfl

/-! ### The next number of a format -/

theorem magVal_sum (F : Fmt) (M : Nat) : ∃ r k, magVal F M + magVal F (M + 1) = (2 * r + 1) * 2 ^ k ∧
    2 * r + 1 ≤ 2 ^ (F.m + 2) ∧ k * 2 ^ F.m ≤ M := by
  have hp := pow_pos2 F.m
  have hk := Nat.div_add_mod M (2 ^ F.m)
  have hd := Nat.mod_lt M hp
  have hp2 : 2 ^ (F.m + 2) = 4 * 2 ^ F.m := by rw [Nat.pow_add, Nat.mul_comm]
  have hp1 : 2 ^ (F.m + 1) = 2 * 2 ^ F.m := by rw [Nat.pow_succ, Nat.mul_comm]
  generalize hc : M / 2 ^ F.m = c at *
  generalize hdd : M % 2 ^ F.m = d at *
  rw [Nat.mul_comm] at hk
  cases c with
  | zero =>
    have e1 := magVal_pack F (k := 0) (r := M) (by omega) (.inl rfl)
    have e2 := magVal_pack F (k := 0) (r := M + 1) (by omega) (.inl rfl)
    simp only [Nat.zero_mul, Nat.zero_add, Nat.pow_zero, Nat.mul_one] at e1 e2
    exact ⟨M, 0, by omega, by omega, by omega⟩
  | succ c =>
    have e1 := magVal_pack F (k := c) (r := 2 ^ F.m + d) (by omega) (.inr (by omega))
    have e2 := magVal_pack F (k := c) (r := 2 ^ F.m + d + 1) (by omega) (.inr (by omega))
    rw [Nat.add_mul, Nat.one_mul] at hk
    have a1 : c * 2 ^ F.m + (2 ^ F.m + d) = M := by omega
    have a2 : c * 2 ^ F.m + (2 ^ F.m + d + 1) = M + 1 := by omega
    rw [a1] at e1
    rw [a2] at e2
    refine ⟨2 ^ F.m + d, c, ?_, by omega, by omega⟩
    rw [e1, e2, ← Nat.add_mul]
    congr 1
    omega

/-- The negative number. -/
def flip (F : Fmt) {w : Nat} (x : BitVec w) : BitVec w := mkFloat F w (!fneg F x) (fmag F x)

theorem flip_spec {F : Fmt} {w : Nat} (h : FmtW F w) (x : BitVec w) :
    fval F (flip F x) = -fval F x ∧ isNaN F (flip F x) = isNaN F x ∧ isFinite F (flip F x) = isFinite F x := by
  have hk : fmag F x < 2 ^ (F.e + F.m) := Nat.mod_lt _ (pow_pos2 _)
  obtain ⟨a, b⟩ := fneg_mk F h.lt (!fneg F x) hk
  unfold isNaN isFinite flip
  rw [b]
  refine ⟨?_, rfl, rfl⟩
  unfold fval
  rw [a, b]
  cases fneg F x <;> simp

theorem nan_mag {F : Fmt} {w : Nat} {x : BitVec w} (h : isNaN F x = false) : fmag F x ≤ infMag F :=
  Nat.le_of_not_lt (of_decide_eq_false h)

/-- Above every number that is not the greatest there is a next one, and the middle of the two floats is a
double. -/
theorem next_above {r y : BitVec 32} (hr : isNaN f32 r = false) (hy : isNaN f32 y = false)
    (h : fval f32 r < fval f32 y) : ∃ z : BitVec 32, Adjacent f32 r z ∧ fval f32 z ≤ fval f32 y ∧
      ∃ m : BitVec 64, isFinite f64 m = true ∧ 2 * fval f64 m = (fval f32 r + fval f32 z) * 2 ^ 925 := by
  have hrM := nan_mag hr
  have hyM := nan_mag hy
  have hI : infMag f32 = 255 * 2 ^ 23 := by decide
  have key : ∀ (s : Bool) (M : Nat), M + 1 ≤ infMag f32 → ∀ z : BitVec 32,
      fval f32 r + fval f32 z = signed s (magVal f32 M + magVal f32 (M + 1)) →
      ∃ m : BitVec 64, isFinite f64 m = true ∧ 2 * fval f64 m = (fval f32 r + fval f32 z) * 2 ^ 925 := by
    intro s M hM z e
    obtain ⟨q, k, e1, hq, hk⟩ := magVal_sum f32 M
    have hk' : k ≤ 254 := by
      rw [hI] at hM
      rcases Nat.lt_or_ge 254 k with h | h
      · have := Nat.mul_le_mul_right (2 ^ 23) h
        have hm : f32.m = 23 := rfl
        rw [hm] at hk
        omega
      · exact h
    have h2048 : 2 ^ f64.e = 2048 := by decide
    obtain ⟨m, fm, vm⟩ := exists_val (F := f64) (w := 64) .double (r := 2 * q + 1) (j := k + 924)
      (Nat.le_trans hq (Nat.pow_le_pow_right (by decide) (by decide))) (by omega)
      (n := signed s ((2 * q + 1) * 2 ^ (k + 924))) (by
        unfold signed
        cases s
        · exact Int.natAbs_natCast _
        · exact (Int.natAbs_neg _).trans (Int.natAbs_natCast _))
    refine ⟨m, fm, ?_⟩
    rw [vm, e, e1]
    have e2 : (2 : Int) ^ 925 = ((2 ^ 924 : Nat) : Int) * 2 := by
      rw [Int.natCast_pow, Int.pow_succ 2 924]; rfl
    rw [e2, ← Int.mul_assoc, ← signed_mul, Int.mul_comm, Nat.pow_add, Nat.mul_assoc]
  have hrs : fval f32 r = signed (fneg f32 r) (magVal f32 (fmag f32 r)) := rfl
  have hys : fval f32 y = signed (fneg f32 y) (magVal f32 (fmag f32 y)) := rfl
  have hz0 := magVal_zero f32
  rcases Int.lt_or_le (fval f32 r) 0 with hneg | hpos
  · -- negative: towards zero
    have hs : fneg f32 r = true := by
      rw [hrs] at hneg
      cases hh : fneg f32 r
      · rw [hh] at hneg; unfold signed at hneg; simp at hneg; omega
      · rfl
    have hM : 0 < fmag f32 r := by
      rcases Nat.eq_zero_or_pos (fmag f32 r) with h0 | h0
      · rw [hrs, h0, hz0] at hneg; unfold signed at hneg; simp at hneg
      · exact h0
    obtain ⟨M, eM⟩ : ∃ M, fmag f32 r = M + 1 := ⟨fmag f32 r - 1, by omega⟩
    have hlt : M < 2 ^ (f32.e + f32.m) := Nat.lt_trans (by omega : M < infMag f32) (infMag_lt f32)
    obtain ⟨z1, z2⟩ := fneg_mk f32 (w := 32) FmtW.single.lt true hlt
    have hz : fval f32 (mkFloat f32 32 true M) = -(magVal f32 M : Int) := by
      rw [fval_signed, z1, z2]; rfl
    have hr' : fval f32 r = -(magVal f32 (M + 1) : Int) := by rw [hrs, hs, eM]; rfl
    have hinc : magVal f32 M < magVal f32 (M + 1) := magVal_lt f32 (Nat.lt_succ_self M)
    have hno : ∀ u : BitVec 32, fval f32 r < fval f32 u → -(magVal f32 M : Int) ≤ fval f32 u := by
      intro u hu
      rw [hr', fval_signed] at hu
      rw [fval_signed]
      cases hh : fneg f32 u
      · unfold signed
        simp only [Bool.false_eq_true, if_false]
        omega
      · rw [hh] at hu
        unfold signed at hu ⊢
        simp only [if_true] at hu ⊢
        have : magVal f32 (fmag f32 u) < magVal f32 (M + 1) := by omega
        have := (magVal_lt_iff f32).mp this
        have := magVal_le f32 (Nat.le_of_lt_succ this)
        omega
    refine ⟨mkFloat f32 32 true M, ⟨hr, isNaN_mk' f32 FmtW.single.lt true (by omega), by rw [hz, hr']; omega,
      fun u _ hu => ?_⟩, ?_, key true M (by omega) _ ?_⟩
    · have := hno u hu.1
      rw [hz] at hu
      omega
    · rw [hz]; exact hno y h
    · rw [hz, hr']; unfold signed; simp only [if_true]; omega
  · -- positive: away from zero
    have hr' : fval f32 r = (magVal f32 (fmag f32 r) : Int) := by
      rw [hrs] at hpos ⊢
      unfold signed at hpos ⊢
      cases hh : fneg f32 r
      · rfl
      · rw [hh] at hpos; simp only [if_true] at hpos ⊢; omega
    have hno : ∀ u : BitVec 32, fval f32 r < fval f32 u → fneg f32 u = false ∧ fmag f32 r < fmag f32 u := by
      intro u hu
      rw [hr', fval_signed] at hu
      unfold signed at hu
      cases hh : fneg f32 u
      · rw [hh] at hu
        simp only [Bool.false_eq_true, if_false] at hu
        exact ⟨rfl, (magVal_lt_iff f32).mp (by omega)⟩
      · rw [hh] at hu; simp only [if_true] at hu; omega
    obtain ⟨y1, y2⟩ := hno y h
    have hlt : fmag f32 r + 1 < 2 ^ (f32.e + f32.m) :=
      Nat.lt_of_le_of_lt (by omega : fmag f32 r + 1 ≤ infMag f32) (infMag_lt f32)
    obtain ⟨z1, z2⟩ := fneg_mk f32 (w := 32) FmtW.single.lt false hlt
    have hz : fval f32 (mkFloat f32 32 false (fmag f32 r + 1)) = (magVal f32 (fmag f32 r + 1) : Int) := by
      rw [fval_signed, z1, z2]; rfl
    have hinc := magVal_lt f32 (Nat.lt_succ_self (fmag f32 r))
    have hle : ∀ u : BitVec 32, fval f32 r < fval f32 u → (magVal f32 (fmag f32 r + 1) : Int) ≤ fval f32 u := by
      intro u hu
      obtain ⟨u1, u2⟩ := hno u hu
      rw [fval_signed, u1]
      have := magVal_le f32 u2
      unfold signed
      simp only [Bool.false_eq_true, if_false]
      exact Int.ofNat_le.mpr this
    refine ⟨mkFloat f32 32 false (fmag f32 r + 1), ⟨hr, isNaN_mk' f32 FmtW.single.lt false (by omega),
      by rw [hz, hr']; exact Int.ofNat_lt.mpr hinc, fun u _ hu => ?_⟩, ?_, key false (fmag f32 r) (by omega) _ ?_⟩
    · have := hle u hu.1
      rw [hz] at hu
      omega
    · rw [hz]; exact hle y h
    · rw [hz, hr']; unfold signed; simp only [Bool.false_eq_true, if_false]; omega

theorem next_below {r y : BitVec 32} (hr : isNaN f32 r = false) (hy : isNaN f32 y = false)
    (h : fval f32 y < fval f32 r) : ∃ z : BitVec 32, Adjacent f32 z r ∧ fval f32 y ≤ fval f32 z ∧
      ∃ m : BitVec 64, isFinite f64 m = true ∧ 2 * fval f64 m = (fval f32 z + fval f32 r) * 2 ^ 925 := by
  obtain ⟨r1, r2, -⟩ := flip_spec .single r
  obtain ⟨y1, y2, -⟩ := flip_spec .single y
  obtain ⟨z, ⟨_, hz, hlt, hno⟩, hle, m, fm, vm⟩ := next_above (r := flip f32 r) (y := flip f32 y)
    (r2.trans hr) (y2.trans hy) (by rw [r1, y1]; omega)
  obtain ⟨z1, z2, -⟩ := flip_spec .single z
  obtain ⟨m1, -, m3⟩ := flip_spec .double m
  refine ⟨flip f32 z, ⟨z2.trans hz, hr, by rw [z1]; omega, fun u hu hh => ?_⟩, by rw [z1]; omega, flip f64 m,
    m3.trans fm, ?_⟩
  · obtain ⟨u1, u2, -⟩ := flip_spec .single u
    refine hno (flip f32 u) (u2.trans hu) ?_
    rw [u1, r1]
    rw [z1] at hh
    omega
  · rw [m1, z1, Int.mul_neg, vm, r1, ← Int.neg_mul]
    congr 1
    omega

/-- Rounding twice is rounding once unless the first result is inexact and in the middle of two floats. -/
theorem double_rounding {e : Int} {t : BitVec 64} {r : BitVec 32} (ht : NearestTo f64 e 1 t)
    (hr : NearestTo f32 (fval f64 t) (2 ^ 925) r)
    (hm : fval f64 t = e ∨ ∀ x z : BitVec 32, Adjacent f32 x z → 2 * fval f64 t ≠ (fval f32 x + fval f32 z) * 2 ^ 925) :
    NearestTo f32 e (2 ^ 925) r := by
  rcases hm with hm | hm
  · rw [← hm]; exact hr
  refine ⟨hr.1, fun y hy => ?_⟩
  have eD : ((2 ^ 925 : Nat) : Int) = 2 ^ 925 := by rw [Int.natCast_pow]; rfl
  rw [eD]
  have hD := ipow_pos 925
  rcases Int.lt_trichotomy (fval f32 r) (fval f32 y) with h | h | h
  · obtain ⟨z, hadj, hzy, m, fm, vm⟩ := next_above hr.1 hy h
    have hne := hm r z hadj
    have hz := (hr.2 z hadj.2.1).1
    rw [eD] at hz
    have h1 := mul_right_lt 925 hadj.2.2.1
    have h2 := mul_right_le 925 hzy
    have hge : fval f64 m * ((1 : Nat) : Int) ≤ e → fval f64 m ≤ fval f64 t :=
      nearest_ge (by decide) ht (isFinite_not fm).1
    rw [Int.add_mul] at vm hne
    generalize fval f32 r * 2 ^ 925 = R at *
    generalize fval f32 z * 2 ^ 925 = Z at *
    generalize fval f32 y * 2 ^ 925 = Y at *
    have : (R - e).natAbs < (Y - e).natAbs := by omega
    exact ⟨Nat.le_of_lt this, fun hh => by omega⟩
  · rw [h]; exact ⟨Nat.le_refl _, fun _ => .inl rfl⟩
  · obtain ⟨z, hadj, hzy, m, fm, vm⟩ := next_below hr.1 hy h
    have hne := hm z r hadj
    have hz := (hr.2 z hadj.1).1
    rw [eD] at hz
    have h1 := mul_right_lt 925 hadj.2.2.1
    have h2 := mul_right_le 925 hzy
    have hge : e ≤ fval f64 m * ((1 : Nat) : Int) → fval f64 t ≤ fval f64 m :=
      nearest_le (by decide) ht (isFinite_not fm).1
    rw [Int.add_mul] at vm hne
    generalize fval f32 r * 2 ^ 925 = R at *
    generalize fval f32 z * 2 ^ 925 = Z at *
    generalize fval f32 y * 2 ^ 925 = Y at *
    have : (R - e).natAbs < (Y - e).natAbs := by omega
    exact ⟨Nat.le_of_lt this, fun hh => by omega⟩

end Vc.Lemma
