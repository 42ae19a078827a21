import Verif.Model.Classify
import Verif.Spec.Classify
import Verif.Lemma.Where
import Verif.Prop.ExCfg
import Verif.Prop.FloatBits

/-!
# C105: fpclassify
-/

namespace Vc.Prop
open Vc.Model Vc.Spec Vc.Lemma

/-- The macro of a class. -/
def classCode : FpClass → Nat
  | .nan => 0
  | .infinite => 1
  | .zero => 2
  | .subnormal => 3
  | .normal => 4

private theorem natAbs_fval_eq (F : Fmt) {w : Nat} (x : BitVec w) : (fval F x).natAbs = magVal F (fmag F x) := by
  unfold fval
  split <;> simp

/-- The class by the fields is the class by value. -/
private theorem std_class (F : Fmt) (_hm : 1 ≤ F.m) (he : 1 ≤ F.e) {w : Nat} (x : BitVec w) (c : FpClass) :
    stdFpclassify F x = classCode c ↔ InClass F x c := by
  have hp : 0 < 2 ^ F.m := Nat.two_pow_pos _
  have hq : 1 < 2 ^ F.e := Nat.one_lt_two_pow (by omega)
  have hfe : x.toNat / 2 ^ F.m % 2 ^ F.e = fmag F x / 2 ^ F.m := by
    unfold fmag
    rw [Nat.add_comm F.e, Nat.pow_add, Nat.mod_mul_right_div_self]
  have hfm : x.toNat % 2 ^ F.m = fmag F x % 2 ^ F.m := by
    unfold fmag
    rw [Nat.add_comm F.e, Nat.pow_add, Nat.mod_mul_right_mod]
  have hlt : fmag F x < 2 ^ F.e * 2 ^ F.m := by
    unfold fmag
    rw [← Nat.pow_add]
    exact Nat.mod_lt _ (Nat.two_pow_pos _)
  have hE : fmag F x / 2 ^ F.m < 2 ^ F.e := Nat.div_lt_of_lt_mul (by rw [Nat.mul_comm]; exact hlt)
  have hd := Nat.div_add_mod (fmag F x) (2 ^ F.m)
  have hr := Nat.mod_lt (fmag F x) hp
  have hinf : infMag F = (2 ^ F.e - 1) * 2 ^ F.m := rfl
  unfold stdFpclassify
  simp only [hfe, hfm]
  generalize hM : fmag F x % 2 ^ F.m = M at *
  generalize hEE : fmag F x / 2 ^ F.m = E at *
  have nan : isNaN F x = decide (E = 2 ^ F.e - 1 ∧ M ≠ 0) := by
    unfold isNaN
    rw [decide_eq_decide, hinf, ← hd, Nat.mul_comm (2 ^ F.m)]
    constructor
    · intro h
      by_cases e : E = 2 ^ F.e - 1
      · exact ⟨e, by rw [e] at h; omega⟩
      · have : (E + 1) * 2 ^ F.m ≤ (2 ^ F.e - 1) * 2 ^ F.m := Nat.mul_le_mul_right _ (by omega)
        rw [Nat.add_mul] at this
        omega
    · rintro ⟨e, h⟩
      rw [e]; omega
  have inf : isInf F x = decide (E = 2 ^ F.e - 1 ∧ M = 0) := by
    unfold isInf
    rw [decide_eq_decide, hinf, ← hd, Nat.mul_comm (2 ^ F.m)]
    constructor
    · intro h
      by_cases e : E = 2 ^ F.e - 1
      · exact ⟨e, by rw [e] at h; omega⟩
      · have : (E + 1) * 2 ^ F.m ≤ (2 ^ F.e - 1) * 2 ^ F.m := Nat.mul_le_mul_right _ (by omega)
        rw [Nat.add_mul] at this
        omega
    · rintro ⟨e, h⟩
      rw [e]; omega
  have fin : isFinite F x = decide (E ≠ 2 ^ F.e - 1) := by
    unfold isFinite
    rw [decide_eq_decide, hinf, ← hd, Nat.mul_comm (2 ^ F.m)]
    constructor
    · intro h e
      rw [e] at h; omega
    · intro e
      have : (E + 1) * 2 ^ F.m ≤ (2 ^ F.e - 1) * 2 ^ F.m := Nat.mul_le_mul_right _ (by omega)
      rw [Nat.add_mul] at this
      omega
  have val : (fval F x).natAbs = if E = 0 then M else (2 ^ F.m + M) * 2 ^ (E - 1) := by
    rw [natAbs_fval_eq]
    unfold magVal
    rw [hEE, hM]
    by_cases e : E = 0
    · rw [if_pos e, if_pos e, ← hd, e]; omega
    · rw [if_neg e, if_neg e]
  have val0 : fval F x = 0 ↔ (E = 0 ∧ M = 0) := by
    rw [← Int.natAbs_eq_zero, val]
    by_cases e : E = 0
    · simp [e]
    · rw [if_neg e]
      have : 0 < (2 ^ F.m + M) * 2 ^ (E - 1) := Nat.mul_pos (by omega) (Nat.two_pow_pos _)
      constructor
      · intro h; omega
      · intro h; exact absurd h.1 e
  have big : E ≠ 0 → 2 ^ F.m ≤ (2 ^ F.m + M) * 2 ^ (E - 1) := fun _ =>
    Nat.le_trans (by omega) (Nat.le_mul_of_pos_right (2 ^ F.m + M) (Nat.two_pow_pos (E - 1)))
  have n0 : ¬ (0 = 2 ^ F.e - 1) := by omega
  have n1 : ¬ (2 ^ F.e - 1 = 0) := by omega
  cases c <;> simp only [InClass, nan, inf, fin, val, val0, classCode, fpNan, fpInfinite, fpZero, fpSubnormal, fpNormal,
    decide_eq_true_eq] <;>
    by_cases e : E = 2 ^ F.e - 1 <;> by_cases z : E = 0 <;> by_cases m0 : M = 0 <;>
    simp [e, z, m0, n0, n1] <;> first | omega | (intros; omega) | skip
  all_goals (have := big z; first | omega | (subst m0; rw [Nat.add_zero] at this; first | exact this | exact fun _ => this))

/-- Native vectors: entry `i` of the result is the class of entry `i`. -/
theorem C105_native {F : Fmt} (hF : F = f32 ∨ F = f64) {CI : Cfg} (hC : CI.Valid) {n w : Nat} (hn : 1 ≤ n / w) (x : BitVec n) :
    ∃ r, vFpclassify CI F w x = some r ∧ SA.WF CI (n / w) r ∧
      ∀ i : Nat, i < n / w → ∀ c, (r.get CI (i : Int) = some (classCode c) ↔ InClass F (lane w x i) c) := by
  obtain ⟨r, e, wr, t⟩ := gen_wf hC (n / w) hn (fun i => some (stdFpclassify F (lane w x i)))
    (fun i => stdFpclassify F (lane w x i)) (fun _ _ => rfl)
  refine ⟨r, e, wr, fun i hi c => ?_⟩
  rw [get_eq hC hn wr, t, List.getElem?_map, List.getElem?_range hi, Option.map_some, Option.some.injEq]
  exact std_class F (by rcases hF with rfl | rfl <;> decide) (by rcases hF with rfl | rfl <;> decide) _ c

/-- SimdArrays of any size. -/
theorem C105_simdarray {F : Fmt} (hF : F = f32 ∨ F = f64) {C CI : Cfg} (hC : C.Valid) (hCI : CI.Valid) (n : Nat)
    (hn : 1 ≤ n) {w : Nat} (x : SA (BitVec w)) (hx : SA.WF C n x) :
    ∃ r, SA.fpclassify C CI F n x = some r ∧ SA.WF CI n r ∧
      ∀ i : Nat, i < n → ∃ v, x.get C (i : Int) = some v ∧
        ∀ c, (r.get CI (i : Int) = some (classCode c) ↔ InClass F v c) := by
  have lx := WF.length hC hn hx
  obtain ⟨r, e, wr, t⟩ := gen_wf hCI n hn (fun i => (x.get C (i : Int)).map (stdFpclassify F))
    (fun i => stdFpclassify F (x.toList.getD i 0#w)) (fun i hi => by
      rw [get_eq hC hn hx, List.getElem?_eq_getElem (by omega), List.getD, List.getElem?_eq_getElem (by omega)]; rfl)
  refine ⟨r, e, wr, fun i hi => ⟨x.toList.getD i 0#w, ?_, fun c => ?_⟩⟩
  · rw [get_eq hC hn hx, List.getElem?_eq_getElem (by omega), List.getD, List.getElem?_eq_getElem (by omega)]; rfl
  · rw [get_eq hCI hn wr, t, List.getElem?_map, List.getElem?_range hi, Option.map_some, Option.some.injEq]
    exact std_class F (by rcases hF with rfl | rfl <;> decide) (by rcases hF with rfl | rfl <;> decide) _ c

/-- Every number belongs to exactly one class. -/
theorem C105_unique {F : Fmt} (hF : F = f32 ∨ F = f64) {w : Nat} (x : BitVec w) :
    ∃ c, InClass F x c ∧ ∀ d, InClass F x d → d = c := by
  have hc := std_class F (by rcases hF with rfl | rfl <;> decide) (by rcases hF with rfl | rfl <;> decide) x
  have : ∃ c, stdFpclassify F x = classCode c := by
    unfold stdFpclassify
    dsimp only
    split
    · split
      · exact ⟨.infinite, rfl⟩
      · exact ⟨.nan, rfl⟩
    · split
      · split
        · exact ⟨.zero, rfl⟩
        · exact ⟨.subnormal, rfl⟩
      · exact ⟨.normal, rfl⟩
  obtain ⟨c, e⟩ := this
  refine ⟨c, (hc c).mp e, fun d hd => ?_⟩
  have := (hc d).mpr hd
  rw [e] at this
  cases c <;> cases d <;> first | rfl | cases this

/-- `isnan`, `isinf` and `isfinite` of native vectors agree with `fpclassify`. -/
theorem C105_agree {F : Fmt} (hF : F = f32 ∨ F = f64) {n w : Nat} {K : FConst n} (h : Platform F n w K) (x : BitVec n)
    {i : Nat} (hi : w * (i + 1) ≤ n) :
    (lane w (vIsNaN F w x) i = boolLane w (stdFpclassify F (lane w x i) == classCode .nan)) ∧
    (lane w (vIsInf K w x) i = boolLane w (stdFpclassify F (lane w x i) == classCode .infinite)) ∧
    (lane w (vIsFinite F w x) i = boolLane w (decide (2 ≤ stdFpclassify F (lane w x i)))) := by
  have hc := std_class F (by rcases hF with rfl | rfl <;> decide) (by rcases hF with rfl | rfl <;> decide) (lane w x i)
  have e1 : (stdFpclassify F (lane w x i) == classCode .nan) = isNaN F (lane w x i) := by
    rw [Bool.eq_iff_iff, beq_iff_eq]; exact hc .nan
  have e2 : (stdFpclassify F (lane w x i) == classCode .infinite) = isInf F (lane w x i) := by
    rw [Bool.eq_iff_iff, beq_iff_eq]; exact hc .infinite
  rw [C46_isnan h x hi, C46_isinf h x hi, C46_isfinite h x hi, e1, e2]
  refine ⟨rfl, rfl, ?_⟩
  congr 1
  rw [Bool.eq_iff_iff, decide_eq_true_eq]
  have h0 := hc .nan
  have h1 := hc .infinite
  simp only [classCode, InClass] at h0 h1
  have tri : isFinite F (lane w x i) = true ↔ ¬ isNaN F (lane w x i) = true ∧ ¬ isInf F (lane w x i) = true := by
    unfold isFinite isNaN isInf
    simp only [decide_eq_true_eq]
    omega
  rw [tri, ← h0, ← h1]
  omega

/-- Four floats: 1, a NaN, minus zero and a subnormal number. -/
example : (List.range 4).map (fun i => stdFpclassify f32 (lane 32 (0x00000001800000007fc000003f800000#128) i)) =
    [4, 0, 2, 3] := by decide +kernel

/-- The hypotheses hold for a SimdArray of seven floats; the result has seven entries. -/
example : ∃ x, SA.gen exCfg 7 (fun i => some (BitVec.ofNat 32 (0x3f800000 + i))) = some x ∧ SA.WF exCfg 7 x ∧
    ∃ r, SA.fpclassify exCfg exCfg f32 7 x = some r ∧ SA.WF exCfg 7 r := by
  obtain ⟨x, e, wx, _⟩ := gen_wf exCfg_valid 7 (by decide) (fun i => some (BitVec.ofNat 32 (0x3f800000 + i)))
    (fun i => BitVec.ofNat 32 (0x3f800000 + i)) (fun _ _ => rfl)
  obtain ⟨r, er, wr, _⟩ := C105_simdarray (.inl rfl) exCfg_valid exCfg_valid 7 (by decide) x wx
  exact ⟨x, e, wx, r, er, wr⟩

end Vc.Prop
