import Verif.Lemma.Fma
import Verif.Lemma.Interleave
import Verif.Lemma.Masked
import Verif.Model.Fma
import Verif.Lemma.SortNet2
import Verif.Lemma.SseInt2

/-! `fma` with operands that are not finite, and lane by lane. -/

namespace Vc.Lemma

open Vc.Model Vc.Spec

theorem isInf_mk (F : Fmt) {w : Nat} (hw : F.e + F.m < w) (s : Bool) :
    isInf F (mkFloat F w s (infMag F)) = true ∧ fneg F (mkFloat F w s (infMag F)) = s ∧
      isNaN F (mkFloat F w s (infMag F)) = false := by
  obtain ⟨a, b⟩ := fneg_mk F hw s (infMag_lt F)
  refine ⟨?_, a, isNaN_mk' F hw s (Nat.le_refl _)⟩
  unfold isInf
  rw [b]
  exact decide_eq_true rfl

theorem isNaN_default {F : Fmt} {w : Nat} (h : FmtW F w) : isNaN F (defaultNaN F w) = true := by
  cases h <;> decide +kernel

theorem isInf_not_nan {F : Fmt} {w : Nat} {x : BitVec w} (h : isInf F x = true) :
    isNaN F x = false ∧ isFinite F x = false := by
  unfold isNaN isInf isFinite at *
  have := of_decide_eq_true h
  exact ⟨decide_eq_false (by omega), decide_eq_false (by omega)⟩

theorem isNaN_not_inf {F : Fmt} {w : Nat} {x : BitVec w} (h : isNaN F x = true) :
    isInf F x = false ∧ isFinite F x = false := by
  unfold isNaN isInf isFinite at *
  have := of_decide_eq_true h
  exact ⟨decide_eq_false (by omega), decide_eq_false (by omega)⟩

theorem inf_fval_ne {F : Fmt} {w : Nat} (hw : FmtW F w) {x : BitVec w} (h : isInf F x = true) : fval F x ≠ 0 := by
  intro h0
  have e := natAbs_fval F x
  rw [h0, of_decide_eq_true h] at e
  have hp : 0 < infMag F := by cases hw <;> decide +kernel
  have := magVal_lt F hp
  simp only [Int.natAbs_zero] at e
  omega

theorem fMul_nan {F : Fmt} {w : Nat} {a b : BitVec w} (h : isNaN F a = true ∨ isNaN F b = true) :
    isNaN F (fMul F a b) = true := by
  unfold fMul
  by_cases ha : isNaN F a = true
  · rw [if_pos ha]; exact isNaN_quiet ha
  · rw [if_neg ha]
    have hb : isNaN F b = true := h.resolve_left ha
    rw [if_pos hb]; exact isNaN_quiet hb

theorem fAdd_nan {F : Fmt} {w : Nat} {a b : BitVec w} (h : isNaN F a = true ∨ isNaN F b = true) :
    isNaN F (fAdd F a b) = true := by
  unfold fAdd
  by_cases ha : isNaN F a = true
  · rw [if_pos ha]; exact isNaN_quiet ha
  · rw [if_neg ha]
    have hb : isNaN F b = true := h.resolve_left ha
    rw [if_pos hb]; exact isNaN_quiet hb

theorem mulAdd_special {F : Fmt} {w : Nat} (hw : FmtW F w) {a b c : BitVec w}
    (hp : isFinite F a = true → isFinite F b = true → isFinite F (fMul F a b) = true) :
    FmaSpecial F a b c (fAdd F (fMul F a b) c) := by
  refine ⟨fun h => ?_, fun h => ?_, fun na nb za zb hi => ?_, fun fa fb ic => ?_⟩
  · rcases h with h | h | h
    · exact fAdd_nan (.inl (fMul_nan (.inl h)))
    · exact fAdd_nan (.inl (fMul_nan (.inr h)))
    · exact fAdd_nan (.inr h)
  · refine fAdd_nan (.inl ?_)
    by_cases hn : isNaN F a = true ∨ isNaN F b = true
    · exact fMul_nan hn
    · unfold fMul
      rw [if_neg (fun h => hn (.inl h)), if_neg (fun h => hn (.inr h)), if_pos, if_pos]
      · exact isNaN_default hw
      · rcases h with ⟨_, h⟩ | ⟨h, _⟩
        · exact .inr h
        · exact .inl h
      · rw [Bool.or_eq_true]
        rcases h with ⟨h, _⟩ | ⟨_, h⟩
        · exact .inl h
        · exact .inr h
  · have e : fMul F a b = mkFloat F w (fneg F a != fneg F b) (infMag F) := by
      unfold fMul
      simp only []
      rw [if_neg (by rw [na]; decide), if_neg (by rw [nb]; decide), if_pos (Bool.or_eq_true _ _ ▸ hi),
        if_neg (by rintro (h | h); exact za h; exact zb h)]
    obtain ⟨i1, i2, i3⟩ := isInf_mk F hw.lt (fneg F a != fneg F b)
    rw [← e] at i1 i2 i3
    generalize fMul F a b = p at *
    generalize (fneg F a != fneg F b) = s at *
    refine ⟨fun fc => ?_, fun ic => ?_⟩
    · obtain ⟨c1, c2⟩ := isFinite_not fc
      unfold fAdd
      rw [i3, c1, i1, c2]
      exact ⟨i1, i2⟩
    · obtain ⟨c1, -⟩ := isInf_not_nan ic
      unfold fAdd
      rw [i3, c1, i1, ic, i2]
      by_cases hs : fneg F c = s
      · rw [if_pos hs, hs]
        have : (s != s) = false := by cases s <;> rfl
        rw [this]
        exact ⟨i1, i2⟩
      · rw [if_neg hs]
        have : (s != fneg F c) = true := by
          cases s <;> cases h : fneg F c <;> first | rfl | exact absurd h hs
        rw [this]
        exact isNaN_default hw
  · obtain ⟨p1, p2⟩ := isFinite_not (hp fa fb)
    obtain ⟨c1, -⟩ := isInf_not_nan ic
    unfold fAdd
    rw [p1, c1, p2, ic]
    exact ⟨ic, rfl⟩

/-- Conversion to double keeps what kind of number it is. -/
theorem up_kind (x : BitVec 32) : isNaN f64 (up x) = isNaN f32 x ∧ isInf f64 (up x) = isInf f32 x ∧
    isFinite f64 (up x) = isFinite f32 x ∧ fneg f64 (up x) = fneg f32 x ∧ (fval f64 (up x) = 0 ↔ fval f32 x = 0) := by
  obtain ⟨h1, h2, h3, -⟩ := cvtF2F_spec (F := f32) (G := f64) (v := 64) .double x
  have hk : ∀ {F : Fmt} {w : Nat} {x : BitVec w}, isNaN F x = true ∧ isInf F x = false ∧ isFinite F x = false ∨
      isNaN F x = false ∧ isInf F x = true ∧ isFinite F x = false ∨
      isNaN F x = false ∧ isInf F x = false ∧ isFinite F x = true := by
    intro F w x
    by_cases hn : isNaN F x = true
    · exact .inl ⟨hn, isNaN_not_inf hn⟩
    · by_cases hi : isInf F x = true
      · exact .inr (.inl ⟨(isInf_not_nan hi).1, hi, (isInf_not_nan hi).2⟩)
      · rw [Bool.not_eq_true] at hn hi
        exact .inr (.inr ⟨hn, hi, cases_inf hn hi⟩)
  change fneg f64 (up x) = _ at h1
  change isNaN f64 (up x) = _ at h2
  change _ → isInf f64 (up x) = true at h3
  refine ⟨h2, ?_⟩
  rcases hk (F := f32) (x := x) with ⟨a, b, c⟩ | ⟨a, b, c⟩ | ⟨a, b, c⟩
  · rw [a] at h2
    obtain ⟨i, j⟩ := isNaN_not_inf h2
    refine ⟨by rw [i, b], by rw [j, c], h1, ?_⟩
    have z : ∀ {F : Fmt} {w : Nat} (hw : FmtW F w) {x : BitVec w}, isNaN F x = true → fval F x ≠ 0 := by
      intro F w hw x hn h0
      have e := natAbs_fval F x
      rw [h0] at e
      have hp : 0 < infMag F := by cases hw <;> decide +kernel
      have := magVal_lt F (Nat.lt_trans hp (of_decide_eq_true hn))
      simp only [Int.natAbs_zero] at e
      omega
    exact ⟨fun h => absurd h (z .double h2), fun h => absurd h (z .single a)⟩
  · have h3 := h3 b
    refine ⟨by rw [h3, b], by rw [(isInf_not_nan h3).2, c], h1, ?_⟩
    exact ⟨fun h => absurd h (inf_fval_ne .double h3), fun h => absurd h (inf_fval_ne .single b)⟩
  · obtain ⟨u, v⟩ := fval_up c
    refine ⟨by rw [(isFinite_not u).2, b], by rw [u, c], h1, ?_⟩
    rw [v]
    constructor
    · intro h
      rcases Int.mul_eq_zero.mp h with h | h
      · exact h
      · exact absurd h (Int.ne_of_gt (ipow_pos 925))
    · intro h; rw [h, Int.zero_mul]

theorem fmaLane32_special (a b c : BitVec 32) : FmaSpecial f32 a b c (fmaLane32 a b c) := by
  obtain ⟨a1, a2, a3, a4, a5⟩ := up_kind a
  obtain ⟨b1, b2, b3, b4, b5⟩ := up_kind b
  obtain ⟨c1, c2, c3, c4, c5⟩ := up_kind c
  have h := mulAdd_special (F := f64) .double (a := up a) (b := up b) (c := up c)
    (fun ha hb => (mul_up (a3 ▸ ha) (b3 ▸ hb)).1)
  change FmaSpecial f64 (up a) (up b) (up c) (wide a b c) at h
  obtain ⟨r1, r2, r3, -⟩ := cvtF2F_spec (F := f64) (G := f32) (v := 32) .single (wide a b c)
  change fneg f32 (fmaLane32 a b c) = _ at r1
  change isNaN f32 (fmaLane32 a b c) = _ at r2
  change _ → isInf f32 (fmaLane32 a b c) = true at r3
  unfold FmaSpecial at h ⊢
  rw [a1, a2, a3, a4, a5, b1, b2, b3, b4, b5, c1, c2, c3, c4] at h
  obtain ⟨h1, h2, h3, h4⟩ := h
  rw [r1, r2]
  refine ⟨h1, h2, fun na nb za zb hi => ?_, fun fa fb ic => ?_⟩
  · obtain ⟨k1, k2⟩ := h3 na nb (fun h => za (a5.mp h)) (fun h => zb (b5.mp h)) hi
    refine ⟨fun fc => ?_, fun ic => ?_⟩
    · obtain ⟨x, y⟩ := k1 fc
      exact ⟨r3 x, y⟩
    · have := k2 ic
      by_cases hs : fneg f32 c = (fneg f32 a != fneg f32 b)
      · rw [if_pos hs] at this ⊢
        exact ⟨r3 this.1, this.2⟩
      · rw [if_neg hs] at this ⊢
        exact this
  · obtain ⟨x, y⟩ := h4 fa fb ic
    exact ⟨r3 x, y⟩

/-! ### Lanes -/

theorem lane_mulAddPd {n : Nat} (a b c : BitVec n) {i : Nat} (h : 64 * (i + 1) ≤ n) :
    lane 64 (mulAddPd a b c) i = fAdd f64 (fMul f64 (lane 64 a i) (lane 64 b i)) (lane 64 c i) := by
  unfold mulAddPd
  rw [lane_map2 _ _ _ h, lane_map2 _ _ _ h]

theorem lane_cvtpsPd (x : M128) {i : Nat} (h : i < 2) : lane 64 (cvtpsPd x) i = up (lane 32 x i) := by
  unfold cvtpsPd
  rw [lane_ofLanes _ (by omega)]
  rfl

theorem lane_cvtpsPd256 (x : M128) {i : Nat} (h : i < 4) : lane 64 (cvtpsPd256 x) i = up (lane 32 x i) := by
  unfold cvtpsPd256
  rw [lane_ofLanes _ (by omega)]
  rfl

theorem lane_cvtpdPs (x : M128) {i : Nat} (h : i < 2) :
    lane 32 (cvtpdPs x) i = cvtF2F f64 f32 32 (lane 64 x i) := by
  unfold cvtpdPs
  rw [lane_ofLanes _ (by omega), if_pos h]

theorem lane_cvtpdPs256 (x : M256) {i : Nat} (h : i < 4) :
    lane 32 (cvtpdPs256 x) i = cvtF2F f64 f32 32 (lane 64 x i) := by
  unfold cvtpdPs256
  rw [lane_ofLanes _ (by omega)]

theorem lane_sseFmaPs (a b c : M128) {i : Nat} (hi : i < 4) :
    lane 32 (sseFmaPs a b c) i = fmaLane32 (lane 32 a i) (lane 32 b i) (lane 32 c i) := by
  unfold sseFmaPs fmaLane32 wide
  simp only []
  rw [lane_movelh32 _ _ hi]
  by_cases h : i < 2
  · rw [if_pos h, lane_cvtpdPs _ h, lane_mulAddPd _ _ _ (by omega), lane_cvtpsPd _ h, lane_cvtpsPd _ h,
      lane_cvtpsPd _ h]
  · have h' : i - 2 < 2 := by omega
    have e : ∀ x : M128, lane 32 (movehl x x) (i - 2) = lane 32 x i := by
      intro x
      rw [lane_movehl32 _ _ (by omega), if_pos h']
      congr 1
      omega
    rw [if_neg h, lane_cvtpdPs _ h', lane_mulAddPd _ _ _ (by omega), lane_cvtpsPd _ h', lane_cvtpsPd _ h',
      lane_cvtpsPd _ h', e, e, e]

theorem lane_avxFmaPs (a b c : M256) {i : Nat} (hi : i < 8) :
    lane 32 (avxFmaPs a b c) i = fmaLane32 (lane 32 a i) (lane 32 b i) (lane 32 c i) := by
  unfold avxFmaPs fmaLane32 wide
  simp only []
  rw [lane_concat128 (k := 4) rfl _ _ hi]
  by_cases h : i < 4
  · rw [if_pos h, lane_cvtpdPs256 _ h, lane_mulAddPd _ _ _ (by omega), lane_cvtpsPd256 _ h, lane_cvtpsPd256 _ h,
      lane_cvtpsPd256 _ h, lane_lo128 (k := 4) rfl _ h, lane_lo128 (k := 4) rfl _ h, lane_lo128 (k := 4) rfl _ h]
  · have h' : i - 4 < 4 := by omega
    have e : ∀ x : M256, lane 32 (hi128 x) (i - 4) = lane 32 x i := by
      intro x
      rw [lane_hi128 (k := 4) rfl _ h']
      congr 1
      omega
    rw [if_neg h, lane_cvtpdPs256 _ h', lane_mulAddPd _ _ _ (by omega), lane_cvtpsPd256 _ h', lane_cvtpsPd256 _ h',
      lane_cvtpsPd256 _ h', e, e, e]

/-- The emulation for one double. -/
def fmaLane64 (v1 v2 v3 : BitVec 64) : BitVec 64 :=
  let h1 := v1 &&& highMaskDouble
  let h2 := v2 &&& highMaskDouble
  let l1 := fSub f64 v1 h1
  let l2 := fSub f64 v2 h2
  let lh := fAdd f64 (fMul f64 l1 h2) (fMul f64 h1 l2)
  let lt := fLt f64 (lh &&& BitVec.ofNat 64 (2 ^ (f64.e + f64.m) - 1)) (v3 &&& BitVec.ofNat 64 (2 ^ (f64.e + f64.m) - 1))
  fAdd f64 (fAdd f64 (fMul f64 l1 l2) (if lt then lh else v3)) (fAdd f64 (if lt then v3 else lh) (fMul f64 h1 h2))

theorem lane_fmaPd {n : Nat} {K : FConst n} (hP : Platform f64 n 64 K)
    {blend : BitVec n → BitVec n → BitVec n → BitVec n} {i : Nat} (hi : 64 * (i + 1) ≤ n)
    (hb : ∀ x y m p, lane 64 m i = laneMask p → lane 64 (blend x y m) i = if p then lane 64 y i else lane 64 x i)
    (a b c : BitVec n) :
    lane 64 (fmaPd K blend a b c) i = fmaLane64 (lane 64 a i) (lane 64 b i) (lane 64 c i) := by
  unfold fmaPd fmaLane64 vFLt vFAbs
  simp only []
  have hm := hP.absMask hi
  have hb' : ∀ x y u v, lane 64 (blend x y (map2 64 (fun a b => laneMask (fLt f64 a b)) u v)) i =
      if fLt f64 (lane 64 u i) (lane 64 v i) then lane 64 y i else lane 64 x i :=
    fun x y u v => hb x y _ _ (lane_map2 _ _ _ hi)
  simp only [lane_map2 _ _ _ hi, hb', lane_and, lane_set1 _ hi, hm]

theorem lane_sseFmaPd (I : Isa) (a b c : M128) {i : Nat} (hi : i < 2) :
    lane 64 (sseFmaPd I a b c) i = fmaLane64 (lane 64 a i) (lane 64 b i) (lane 64 c i) :=
  lane_fmaPd .sseDouble (by omega) (fun x y m p h =>
    lane_blendv I (w := 64) (v := 64) (c := 1) rfl (by decide) (by omega) x y m h) a b c

theorem lane_avxFmaPd (a b c : M256) {i : Nat} (hi : i < 4) :
    lane 64 (avxFmaPd a b c) i = fmaLane64 (lane 64 a i) (lane 64 b i) (lane 64 c i) :=
  lane_fmaPd .avxDouble (by omega) (fun x y m p h => by
    rw [lane_blendvIntr _ _ _ (by omega), h, laneMask_msb (by decide)]) a b c

/-! ### The emulation of double precision -/

theorem nearest_congr {F : Fmt} {w : Nat} {num : Int} {den : Nat} {r r' : BitVec w} (h : NearestTo F num den r)
    (hn : isNaN F r' = false) (hv : fval F r' = fval F r) : NearestTo F num den r' := by
  have e : fmag F r' = fmag F r := by
    apply magVal_inj F
    rw [← natAbs_fval, ← natAbs_fval, hv]
  refine ⟨hn, fun y hy => ?_⟩
  rw [hv, e]
  exact h.2 y hy

/-- A zero of either sign. -/
def IsZ (x : BitVec 64) : Prop := isFinite f64 x = true ∧ fval f64 x = 0

theorem fAdd_val {x y : BitVec 64} (hx : isFinite f64 x = true) (hy : isFinite f64 y = true) {z : BitVec 64}
    (hz : isFinite f64 z = true) (e : fval f64 z = fval f64 x + fval f64 y) :
    isFinite f64 (fAdd f64 x y) = true ∧ fval f64 (fAdd f64 x y) = fval f64 z := by
  have h := nearest_eq (by decide) (fAdd_nearest .double hx hy) (isFinite_not hz).1
    (by rw [Int.natCast_one, Int.mul_one, e])
  exact ⟨finite_of_val hz h, h⟩

/-- Adding a zero keeps the value, also of an infinity. -/
theorem zero_fAdd {x y : BitVec 64} (hx : IsZ x) (hy : isNaN f64 y = false) :
    isNaN f64 (fAdd f64 x y) = false ∧ fval f64 (fAdd f64 x y) = fval f64 y := by
  by_cases hi : isInf f64 y = true
  · obtain ⟨a, b⟩ := isFinite_not hx.1
    unfold fAdd
    rw [a, b, hy, hi]
    exact ⟨hy, rfl⟩
  · rw [Bool.not_eq_true] at hi
    have hf := cases_inf hy hi
    obtain ⟨a, b⟩ := fAdd_val hx.1 hf (z := y) hf (by rw [hx.2, Int.zero_add])
    exact ⟨(isFinite_not a).1, b⟩

theorem isZ_zero : IsZ 0#64 := ⟨by decide +kernel, by decide +kernel⟩

theorem isZ_fMul {x y : BitVec 64} (h : IsZ x ∧ isFinite f64 y = true ∨ isFinite f64 x = true ∧ IsZ y) :
    IsZ (fMul f64 x y) := by
  have hx : isFinite f64 x = true := by rcases h with h | h; exact h.1.1; exact h.1
  have hy : isFinite f64 y = true := by rcases h with h | h; exact h.2; exact h.2.1
  have h0 : fval f64 x * fval f64 y = 0 := by
    rcases h with h | h
    · rw [h.1.2, Int.zero_mul]
    · rw [h.2.2, Int.mul_zero]
  have h := nearest_eq (y := 0#64) (pow_pos2 _) (fMul_nearest .double hx hy) (isFinite_not isZ_zero.1).1
    (by rw [h0, isZ_zero.2, Int.zero_mul])
  exact ⟨finite_of_val isZ_zero.1 h, h.trans isZ_zero.2⟩

theorem isZ_fAdd {x y : BitVec 64} (hx : IsZ x) (hy : IsZ y) : IsZ (fAdd f64 x y) := by
  obtain ⟨a, b⟩ := fAdd_val hx.1 hy.1 (z := y) hy.1 (by rw [hx.2, Int.zero_add])
  exact ⟨a, b.trans hy.2⟩

theorem isZ_fSub {x : BitVec 64} (hx : isFinite f64 x = true) : IsZ (fSub f64 x x) := by
  have h := nearest_eq (y := 0#64) (by decide) (fSub_nearest .double hx hx) (isFinite_not isZ_zero.1).1
    (by rw [Int.sub_self, isZ_zero.2, Int.zero_mul])
  exact ⟨finite_of_val isZ_zero.1 h, h.trans isZ_zero.2⟩

theorem fAdd_zero_right {x y : BitVec 64} (hy : IsZ y) (hx : isFinite f64 x = true) :
    isFinite f64 (fAdd f64 x y) = true ∧ fval f64 (fAdd f64 x y) = fval f64 x :=
  fAdd_val hx hy.1 hx (by rw [hy.2, Int.add_zero])

theorem and_high {x : BitVec 64} (h : x.toNat % 2 ^ 27 = 0) : x &&& highMaskDouble = x := by
  apply BitVec.eq_of_getLsbD_eq
  intro j hj
  have hm : ∀ j, j < 64 → highMaskDouble.getLsbD j = decide (27 ≤ j) := by decide +kernel
  rw [BitVec.getLsbD_and, hm j hj]
  by_cases h27 : 27 ≤ j
  · rw [decide_eq_true h27, Bool.and_true]
  · rw [decide_eq_false h27, Bool.and_false]
    have : (x.toNat % 2 ^ 27).testBit j = false := by rw [h, Nat.zero_testBit]
    rw [Nat.testBit_mod_two_pow, decide_eq_true (by omega), Bool.true_and] at this
    exact this.symm

theorem fmaLane64_fused {a b c p : BitVec 64} (ha : a.toNat % 2 ^ 27 = 0) (hb : b.toNat % 2 ^ 27 = 0)
    (fa : isFinite f64 a = true) (fb : isFinite f64 b = true) (fc : isFinite f64 c = true)
    (fp : isFinite f64 p = true) (hp : fval f64 p * 2 ^ oneExp f64 = fval f64 a * fval f64 b) :
    FusedMulAdd f64 a b c (fmaLane64 a b c) := by
  unfold fmaLane64
  simp only []
  rw [and_high ha, and_high hb]
  have z1 := isZ_fSub fa
  have z2 := isZ_fSub fb
  have zll := isZ_fMul (.inl ⟨z1, z2.1⟩)
  have zlh := isZ_fAdd (isZ_fMul (.inl ⟨z1, fb⟩)) (isZ_fMul (.inr ⟨fa, z2⟩))
  generalize fSub f64 a a = l1 at *
  generalize fSub f64 b b = l2 at *
  generalize fMul f64 l1 l2 = ll at *
  generalize fAdd f64 (fMul f64 l1 b) (fMul f64 a l2) = lh at *
  have eD : ((2 ^ oneExp f64 : Nat) : Int) = 2 ^ oneExp f64 := by rw [Int.natCast_pow]; rfl
  have hh := nearest_eq (pow_pos2 _) (fMul_nearest .double fa fb) (isFinite_not fp).1 (by rw [eD, hp])
  have fh := finite_of_val fp hh
  generalize fMul f64 a b = h at *
  have hs : NearestTo f64 (fmaExact f64 a b c) (2 ^ oneExp f64) (fAdd f64 c h) := by
    have hn := fAdd_nearest .double fc fh
    rw [← nearest_scale (k := 2 ^ oneExp f64) (pow_pos2 _), Nat.one_mul, eD] at hn
    unfold fmaExact
    rw [hh, Int.add_mul, hp, Int.add_comm] at hn
    exact hn
  by_cases hlt : fLt f64 (lh &&& BitVec.ofNat 64 (2 ^ (f64.e + f64.m) - 1))
      (c &&& BitVec.ofNat 64 (2 ^ (f64.e + f64.m) - 1)) = true
  · rw [if_pos hlt, if_pos hlt]
    obtain ⟨k1, k2⟩ := zero_fAdd (isZ_fAdd zll zlh) hs.1
    exact nearest_congr hs k1 k2
  · rw [if_neg hlt, if_neg hlt]
    -- then `c` is a zero
    have hc0 : fval f64 c = 0 := by
      have abs : ∀ x : BitVec 64, isNaN f64 (x &&& BitVec.ofNat 64 (2 ^ (f64.e + f64.m) - 1)) = isNaN f64 x ∧
          fval f64 (x &&& BitVec.ofNat 64 (2 ^ (f64.e + f64.m) - 1)) = ((fval f64 x).natAbs : Int) := by
        intro x
        obtain ⟨u, v⟩ := sm_abs (F := f64) (w := 64) rfl x
        rw [natAbs_fval]
        unfold isNaN fval
        rw [u, v]
        exact ⟨rfl, rfl⟩
      unfold fLt at hlt
      rw [(abs lh).1, (abs c).1, (abs lh).2, (abs c).2, (isFinite_not zlh.1).1, (isFinite_not fc).1, zlh.2] at hlt
      simp only [Bool.not_false, Bool.true_and, decide_eq_true_eq, Int.natAbs_zero] at hlt
      omega
    have zc : IsZ c := ⟨fc, hc0⟩
    have e1 := zero_fAdd zlh (isFinite_not fh).1
    have e2 := zero_fAdd (isZ_fAdd zll zc) e1.1
    have e3 := zero_fAdd zc (isFinite_not fh).1
    exact nearest_congr hs e2.1 (by rw [e2.2, e1.2, e3.2])

theorem fmaLane64_nan {a b c : BitVec 64} (h : isNaN f64 a = true ∨ isNaN f64 b = true ∨ isNaN f64 c = true) :
    isNaN f64 (fmaLane64 a b c) = true := by
  unfold fmaLane64
  simp only []
  rcases h with h | h | h
  · exact fAdd_nan (.inl (fAdd_nan (.inl (fMul_nan (.inl (isNaN_fSub_left h _))))))
  · exact fAdd_nan (.inl (fAdd_nan (.inl (fMul_nan (.inr (isNaN_fSub_left h _))))))
  · split
    · exact fAdd_nan (.inr (fAdd_nan (.inl h)))
    · exact fAdd_nan (.inl (fAdd_nan (.inr h)))

end Vc.Lemma
