import Verif.Model.AvxDiv
import Verif.Lemma.FloatDiv
import Verif.Lemma.SseDiv

namespace Vc.Lemma

open Vc.Model Vc.Spec

theorem intOr_ofInt {q : Int} (h1 : -2147483648 ≤ q) (h2 : q ≤ 2147483648) : intOrIndefinite q = BitVec.ofInt 32 q := by
  unfold intOrIndefinite
  by_cases h : -2 ^ 31 ≤ q ∧ q < 2 ^ 31
  · rw [if_pos h]
  · rw [if_neg h]
    have : q = 2147483648 := by omega
    subst this; decide

theorem setWidth_ofInt16 (q : Int) : (BitVec.ofInt 32 q).setWidth 16 = BitVec.ofInt 16 q := by
  apply BitVec.eq_of_toNat_eq
  rw [BitVec.toNat_setWidth, BitVec.toNat_ofInt, BitVec.toNat_ofInt]
  omega

theorem natAbs_tdiv_le (a b : Int) : (a.tdiv b).natAbs ≤ a.natAbs := by
  rw [Int.natAbs_tdiv]; exact Nat.div_le_self _ _

theorem f64_m : f64.m ≤ oneExp f64 ∧ oneExp f64 + 2 < 2 ^ f64.e ∧ (2 : Nat) ^ f64.m = 4503599627370496 := by decide
theorem f32_m : f32.m ≤ oneExp f32 ∧ oneExp f32 + 2 < 2 ^ f32.e ∧ (2 : Nat) ^ f32.m = 8388608 := by decide

/-- Division of 32-bit integers through double precision. -/
theorem cvtt_div64 {A B : Int} {x y : BitVec 64} (hx : ExactInt f64 A x) (hy : ExactInt f64 B y)
    (ha : A.natAbs < 4503599627370496) (hb : B.natAbs < 4503599627370496) (hb0 : B ≠ 0)
    (h1 : -2147483648 ≤ A.tdiv B) (h2 : A.tdiv B ≤ 2147483648) :
    cvttF2I f64 (fDiv f64 x y) = BitVec.ofInt 32 (A.tdiv B) := by
  obtain ⟨hf, hv⟩ := fDiv_ints FmtW.double f64_m.1 f64_m.2.1 hx hy (by rw [f64_m.2.2]; exact ha)
    (by rw [f64_m.2.2]; exact hb) hb0
  unfold cvttF2I
  rw [if_pos hf, hv, intOr_ofInt h1 h2]

/-- Division of 16-bit integers through single precision. -/
theorem cvtt_div32 {A B : Int} {x y : BitVec 32} (hx : ExactInt f32 A x) (hy : ExactInt f32 B y)
    (ha : A.natAbs < 65536) (hb : B.natAbs < 65536) (hb0 : B ≠ 0) :
    isFinite f32 (fDiv f32 x y) = true ∧ (fval f32 (fDiv f32 x y)).tdiv (2 ^ oneExp f32) = A.tdiv B ∧
    cvttF2I f32 (fDiv f32 x y) = BitVec.ofInt 32 (A.tdiv B) := by
  obtain ⟨hf, hv⟩ := fDiv_ints FmtW.single f32_m.1 f32_m.2.1 hx hy (by rw [f32_m.2.2]; omega)
    (by rw [f32_m.2.2]; omega) hb0
  have := natAbs_tdiv_le A B
  refine ⟨hf, hv, ?_⟩
  unfold cvttF2I
  rw [if_pos hf, hv, intOr_ofInt (by omega) (by omega)]

theorem isTrunc_fval (F : Fmt) {w : Nat} (x : BitVec w) :
    IsTrunc (fval F x) (2 ^ oneExp F) ((fval F x).tdiv (2 ^ oneExp F)) := by
  rw [pow_cast, fval_signed, signed_tdiv]
  exact isTrunc_div _ _ (pow_pos2 _)

theorem bound32 (x : BitVec 32) : -2147483648 ≤ x.toInt ∧ x.toInt < 2147483648 := by
  have := x.isLt
  rw [BitVec.toInt_eq_toNat_cond]
  split <;> omega

theorem bound16 (x : BitVec 16) : -32768 ≤ x.toInt ∧ x.toInt < 32768 := by
  have := x.isLt
  rw [BitVec.toInt_eq_toNat_cond]
  split <;> omega

theorem lane_cvtepi32Pd256 (x : M128) {i : Nat} (h : i < 4) :
    Model.lane 64 (cvtepi32Pd256 x) i = cvtI2F f64 64 (Model.lane 32 x i) := by
  unfold cvtepi32Pd256; rw [lane_ofLanes _ (by omega)]

theorem lane_avxDivInt (a b : M256) {i : Nat} (h : i < 8) (hb : (Model.lane 32 b i).toInt ≠ 0) :
    Model.lane 32 (avxDivInt a b) i = BitVec.ofInt 32 ((Model.lane 32 a i).toInt.tdiv (Model.lane 32 b i).toInt) := by
  have key : ∀ x y : BitVec 32, y.toInt ≠ 0 →
      cvttF2I f64 (fDiv f64 (cvtI2F f64 64 x) (cvtI2F f64 64 y)) = BitVec.ofInt 32 (x.toInt.tdiv y.toInt) := by
    intro x y hy
    have hx := bound32 x
    have hy2 := bound32 y
    have := natAbs_tdiv_le x.toInt y.toInt
    exact cvtt_div64 (cvtI2F_double x) (cvtI2F_double y) (by omega) (by omega) hy (by omega) (by omega)
  unfold avxDivInt divPd256
  simp only []
  rw [concat128_32 _ _ h]
  by_cases h4 : i < 4
  · rw [if_pos h4, lane_cvttpd256 _ h4, lane_map2 _ _ _ (by omega), lane_cvtepi32Pd256 _ h4, lane_cvtepi32Pd256 _ h4,
      lo128_32 _ h4, lo128_32 _ h4, key _ _ hb]
  · rw [if_neg h4, lane_cvttpd256 _ (by omega), lane_map2 _ _ _ (by omega), lane_cvtepi32Pd256 _ (by omega),
      lane_cvtepi32Pd256 _ (by omega), hi128_32 _ (by omega), hi128_32 _ (by omega), show 4 + (i - 4) = i by omega,
      key _ _ hb]

theorem lane_avxDivUint (avx2 : Bool) (a b : M256) {i : Nat} (h : i < 8) (hb : (Model.lane 32 b i).toNat ≠ 0) :
    Model.lane 32 (avxDivUint avx2 a b) i =
      BitVec.ofNat 32 ((Model.lane 32 a i).toNat / (Model.lane 32 b i).toNat) := by
  have key : ∀ x y : BitVec 32, y.toNat ≠ 0 → y.toNat ≠ 1 →
      cvttF2I f64 (fDiv f64 (u2dLane x) (u2dLane y)) = BitVec.ofNat 32 (x.toNat / y.toNat) := by
    intro x y hy hy1
    have hx := x.isLt
    have hy2 := y.isLt
    have e : ((x.toNat : Int)).tdiv (y.toNat : Int) = ((x.toNat / y.toNat : Nat) : Int) := rfl
    have hq : x.toNat / y.toNat < 2147483648 := by
      apply Nat.div_lt_of_lt_mul
      have : 2 * 2147483648 ≤ y.toNat * 2147483648 := Nat.mul_le_mul_right _ (by omega)
      omega
    rw [cvtt_div64 (u2d_spec x) (u2d_spec y) (by omega) (by omega) (by omega) (by rw [e]; exact Int.le_trans (by decide) (Int.natCast_nonneg _)) (by rw [e]; omega), e,
      BitVec.ofInt_natCast]
  have h256 : 32 * (i + 1) ≤ 256 := by omega
  have eadd : ∀ x : M256, Model.lane 32 (avx2op avx2 (addEpi 32) (addEpi 32) x (set1 32 0x80000000#32)) i =
      Model.lane 32 x i ^^^ 0x80000000#32 := by
    intro x
    rw [show Model.lane 32 (avx2op avx2 (addEpi 32) (addEpi 32) x (set1 32 0x80000000#32)) i = _ from
      lane_avx2op (k := 4) rfl (fun a b => a + b) avx2 _ _ h, lane_set1 _ h256, add_sign]
  unfold avxDivUint divPd256
  simp only []
  rw [lane_blendvIntr _ _ _ h256, show Model.lane 32 (avx2op avx2 (cmpeqEpi 32) (cmpeqEpi 32) b (set1 32 1#32)) i = _
    from lane_avx2op (k := 4) rfl (fun a b => laneMask (decide (a = b))) avx2 _ _ h, laneMask_msb (by decide),
    lane_set1 _ h256]
  by_cases h1 : Model.lane 32 b i = 1#32
  · rw [decide_eq_true h1, if_pos rfl, h1]
    apply BitVec.eq_of_toNat_eq
    simp
  have hb1 : (Model.lane 32 b i).toNat ≠ 1 := fun e => h1 (BitVec.eq_of_toNat_eq (by simpa using e))
  rw [decide_eq_false h1, if_neg (by decide), concat128_32 _ _ h, ← key _ _ hb hb1]
  unfold u2dLane
  by_cases h4 : i < 4
  · rw [if_pos h4, lane_cvttpd256 _ h4, lane_map2 _ _ _ (by omega), lane_map2 _ _ _ (by omega),
      lane_map2 _ _ _ (by omega), lane_cvtepi32Pd256 _ h4, lane_cvtepi32Pd256 _ h4,
      lo128_32 _ h4, lo128_32 _ h4, eadd, eadd, lane_set1 _ (by omega)]
  · rw [if_neg h4, lane_cvttpd256 _ (by omega), lane_map2 _ _ _ (by omega), lane_map2 _ _ _ (by omega),
      lane_map2 _ _ _ (by omega), lane_cvtepi32Pd256 _ (by omega), lane_cvtepi32Pd256 _ (by omega),
      hi128_32 _ (by omega), hi128_32 _ (by omega), show 4 + (i - 4) = i by omega, eadd, eadd, lane_set1 _ (by omega)]

theorem cvtI2F_single {a : BitVec 32} (h : a.toInt.natAbs < 65536) : ExactInt f32 a.toInt (cvtI2F f32 32 a) := by
  have := cvtI2F_exact f32 (w := 32) (by decide) (a := a) (r := a.toInt.natAbs) (j := 0)
    (by have : (2 : Nat) ^ (f32.m + 1) = 16777216 := by decide
        rw [this]; omega) (by decide) (by rw [Nat.pow_zero, Nat.mul_one])
  exact ⟨this.2.1, this.1⟩

theorem toInt_sext16 (x : BitVec 16) : (x.signExtend 32).toInt = x.toInt :=
  BitVec.toInt_signExtend_of_le (by decide)

theorem toInt_zext16 (x : BitVec 16) : (x.zeroExtend 32).toInt = (x.toNat : Int) := by
  have := x.isLt
  rw [BitVec.toInt_eq_toNat_of_lt]
  · simp [BitVec.toNat_setWidth]; omega
  · simp [BitVec.toNat_setWidth]; omega

theorem lane_cvtepi32PsN (x : M256) {i : Nat} (h : i < 8) :
    Model.lane 32 (cvtepi32PsN x) i = cvtI2F f32 32 (Model.lane 32 x i) := by
  unfold cvtepi32PsN; rw [lane_map1 _ _ (by omega)]

theorem lane_avxDivShort (avx2 : Bool) (a b : M256) {i : Nat} (h : i < 16) (hb : (Model.lane 16 b i).toInt ≠ 0) :
    Model.lane 16 (avxDivShort avx2 a b) i =
      BitVec.ofInt 16 ((Model.lane 16 a i).toInt.tdiv (Model.lane 16 b i).toInt) := by
  have key : ∀ (x y : M128) (j : Nat), j < 8 → (Model.lane 16 y j).toInt ≠ 0 →
      Model.lane 16 (cvtFloatShortAvx avx2 (divPs256 (cvtShortFloatAvx avx2 x) (cvtShortFloatAvx avx2 y))) j =
        BitVec.ofInt 16 ((Model.lane 16 x j).toInt.tdiv (Model.lane 16 y j).toInt) := by
    intro x y j hj hy
    have b1 := bound16 (Model.lane 16 x j)
    have b2 := bound16 (Model.lane 16 y j)
    unfold cvtFloatShortAvx divPs256 cvtShortFloatAvx
    rw [lane_cvtIntShortAvx _ _ hj, lane_cvttps _ (by omega), lane_map2 _ _ _ (by omega), lane_cvtepi32PsN _ hj,
      lane_cvtepi32PsN _ hj, (lane_cvtShortIntAvx _ _ hj).1, (lane_cvtShortIntAvx _ _ hj).1,
      (cvtt_div32 (cvtI2F_single (by rw [toInt_sext16]; omega)) (cvtI2F_single (by rw [toInt_sext16]; omega))
        (by rw [toInt_sext16]; omega) (by rw [toInt_sext16]; omega) (by rw [toInt_sext16]; exact hy)).2.2,
      setWidth_ofInt16, toInt_sext16, toInt_sext16]
  unfold avxDivShort
  simp only []
  rw [concat128_16 _ _ h]
  by_cases h8 : i < 8
  · rw [if_pos h8, key _ _ _ h8 (by rw [lo128_16 _ h8]; exact hb), lo128_16 _ h8, lo128_16 _ h8]
  · have e : 8 + (i - 8) = i := by omega
    rw [if_neg h8, key _ _ _ (by omega) (by rw [hi128_16 _ (by omega), e]; exact hb), hi128_16 _ (by omega),
      hi128_16 _ (by omega), e]

theorem lane_avxDivUshort (avx2 : Bool) (B : CmpBuild) (a b : M256) {i : Nat} (h : i < 16)
    (hb : (Model.lane 16 b i).toNat ≠ 0) :
    Model.lane 16 (avxDivUshort avx2 B a b) i =
      BitVec.ofNat 16 ((Model.lane 16 a i).toNat / (Model.lane 16 b i).toNat) := by
  have key : ∀ (x y : M128) (j : Nat) (P : Prop) [Decidable P], j < 8 → (Model.lane 16 y j).toNat ≠ 0 →
      Model.lane 16 (if P then cvtFloatUshortAvx avx2 B (divPs256 (cvtUshortFloatAvx avx2 x) (cvtUshortFloatAvx avx2 y))
        else cvtFloatShortAvx avx2 (divPs256 (cvtUshortFloatAvx avx2 x) (cvtUshortFloatAvx avx2 y))) j =
        BitVec.ofNat 16 ((Model.lane 16 x j).toNat / (Model.lane 16 y j).toNat) := by
    intro x y j P _ hj hy
    have b1 := (Model.lane 16 x j).isLt
    have b2 := (Model.lane 16 y j).isLt
    have hd : Model.lane 32 (divPs256 (cvtUshortFloatAvx avx2 x) (cvtUshortFloatAvx avx2 y)) j =
        fDiv f32 (cvtI2F f32 32 ((Model.lane 16 x j).zeroExtend 32)) (cvtI2F f32 32 ((Model.lane 16 y j).zeroExtend 32)) := by
      unfold divPs256 cvtUshortFloatAvx
      rw [lane_map2 _ _ _ (by omega), lane_cvtepi32PsN _ hj, lane_cvtepi32PsN _ hj, (lane_cvtShortIntAvx _ _ hj).2,
        (lane_cvtShortIntAvx _ _ hj).2]
    obtain ⟨q1, q2, q3⟩ := cvtt_div32 (A := (Model.lane 16 x j).toNat) (B := (Model.lane 16 y j).toNat)
      (by rw [← toInt_zext16]; exact cvtI2F_single (by rw [toInt_zext16]; omega))
      (by rw [← toInt_zext16]; exact cvtI2F_single (by rw [toInt_zext16]; omega)) (by omega) (by omega) (by omega)
    rw [← hd] at q1 q2 q3
    have hle : (Model.lane 16 x j).toNat / (Model.lane 16 y j).toNat ≤ (Model.lane 16 x j).toNat := Nat.div_le_self _ _
    have e : (((Model.lane 16 x j).toNat : Int)).tdiv ((Model.lane 16 y j).toNat : Int) =
      (((Model.lane 16 x j).toNat / (Model.lane 16 y j).toNat : Nat) : Int) := rfl
    rw [e] at q2 q3
    clear e
    generalize (Model.lane 16 x j).toNat / (Model.lane 16 y j).toNat = Q at *
    by_cases hP : P
    · rw [if_pos hP]
      unfold cvtFloatUshortAvx
      rw [lane_cvtIntUshortAvx _ hj, lane_cvtFloatUintAvx _ _ _ hj q1]
      have hs := f2u_spec FmtW.single isTwo31f
        (Model.lane 32 (divPs256 (cvtUshortFloatAvx avx2 x) (cvtUshortFloatAvx avx2 y)) j)
        q1 _ (isTrunc_fval f32 _) (by rw [q2]; simp only [InRange, Bool.false_eq_true, if_false]; omega)
      rw [q2] at hs
      unfold val at hs
      simp only [Bool.false_eq_true, if_false] at hs
      apply BitVec.eq_of_toNat_eq
      rw [BitVec.toNat_setWidth, BitVec.toNat_ofNat]
      omega
    · rw [if_neg hP]
      unfold cvtFloatShortAvx
      rw [lane_cvtIntShortAvx _ _ hj, lane_cvttps _ (by omega), q3, setWidth_ofInt16, BitVec.ofInt_natCast]
  unfold avxDivUshort
  simp only []
  rw [concat128_16 _ _ h]
  by_cases h8 : i < 8
  · rw [if_pos h8, key _ _ _ _ h8 (by rw [lo128_16 _ h8]; exact hb), lo128_16 _ h8, lo128_16 _ h8]
  · have e : 8 + (i - 8) = i := by omega
    rw [if_neg h8, key _ _ _ _ (by omega) (by rw [hi128_16 _ (by omega), e]; exact hb), hi128_16 _ (by omega),
      hi128_16 _ (by omega), e]

theorem ofInt_val (sgn : Bool) {w : Nat} (x : BitVec w) : BitVec.ofInt w (Spec.val sgn x) = x := by
  cases sgn
  · simp only [Spec.val, Bool.false_eq_true, if_false, BitVec.ofInt_natCast]; simp
  · simp only [Spec.val, if_true]; simp

theorem val_ne_zero {sgn : Bool} {w : Nat} {x : BitVec w} (h : x ≠ 0#w) : Spec.val sgn x ≠ 0 := by
  intro h0
  apply h
  rw [← ofInt_val sgn x, h0]
  simp

end Vc.Lemma
