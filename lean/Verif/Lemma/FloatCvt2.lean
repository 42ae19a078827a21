import Verif.Lemma.FloatCvt
import Verif.Lemma.Avx
import Verif.Lemma.Interleave

/-! Narrowing, change of format, and the lanes of the conversions of vectors. -/

namespace Vc.Lemma

open Vc.Model Vc.Spec

/-! ### Narrowing -/

theorem val_setWidth {sgn sgn' : Bool} {b : BitVec 32} (hr : InRange sgn' 16 (val sgn b)) :
    val sgn' (b.setWidth 16) = val sgn b := by
  unfold InRange at hr
  unfold val at hr ⊢
  have hb := b.isLt
  rw [BitVec.toInt_eq_toNat_cond] at hr ⊢
  rw [BitVec.toInt_eq_toNat_cond, BitVec.toNat_setWidth]
  cases sgn <;> cases sgn' <;> simp at hr ⊢ <;> (repeat' split at hr) <;> (repeat' split) <;> omega

theorem val_satSigned {b : BitVec 32} (hr : InRange true 16 (val true b)) :
    val true (satSigned 16 b) = val true b := by
  unfold InRange at hr
  unfold val at hr ⊢
  simp only [if_true] at hr ⊢
  have h16 : (2 : Int) ^ (16 - 1) = 32768 := by decide
  unfold satSigned
  rw [h16] at hr ⊢
  rw [if_neg (by omega), if_neg (by omega), BitVec.toInt_ofInt]
  apply Int.bmod_eq_of_le <;> simp <;> omega

theorem val_satUnsigned {b : BitVec 32} (hr : InRange false 16 (val true b)) :
    val false (satUnsigned 16 b) = val true b := by
  unfold InRange at hr
  unfold val at hr ⊢
  simp only [if_true, Bool.false_eq_true, if_false] at hr ⊢
  have h16 : (2 : Int) ^ 16 = 65536 := by decide
  unfold satUnsigned
  rw [h16] at hr ⊢
  rw [if_neg (by omega), if_neg (by omega), BitVec.toNat_ofInt]
  simp only [Nat.reducePow]
  omega

theorem inRange_wider {sgn : Bool} {n : Int} (h : InRange sgn 16 n) : InRange sgn 32 n ∧ InRange true 32 n := by
  unfold InRange at *
  cases sgn <;> simp at * <;> omega

theorem cvtt_spec {F : Fmt} {w : Nat} (x : BitVec w) : ConvertsToInt F true x (cvttF2I F x) := by
  intro hx n hn hr
  unfold InRange at hr
  simp only [if_true] at hr
  have h31 : (2 : Int) ^ (32 - 1) = 2147483648 := by decide
  rw [h31] at hr
  exact cvtt_conv hx hn (by omega) (by omega)

theorem conv_setWidth {F : Fmt} {w : Nat} {sgn sgn' : Bool} {x : BitVec w} {b : BitVec 32} (hs : sgn = true ∨ sgn = sgn')
    (h : ConvertsToInt F sgn x b) : ConvertsToInt F sgn' x (b.setWidth 16) := by
  intro hx n hn hr
  have e := h hx n hn (by rcases hs with rfl | rfl; exact (inRange_wider hr).2; exact (inRange_wider hr).1)
  rw [← e]; rw [← e] at hr
  exact val_setWidth hr

theorem conv_satSigned {F : Fmt} {w : Nat} {x : BitVec w} {b : BitVec 32}
    (h : ConvertsToInt F true x b) : ConvertsToInt F true x (satSigned 16 b) := by
  intro hx n hn hr
  have e := h hx n hn (inRange_wider hr).2
  rw [← e]; rw [← e] at hr
  exact val_satSigned hr

theorem conv_satUnsigned {F : Fmt} {w : Nat} {x : BitVec w} {b : BitVec 32}
    (h : ConvertsToInt F true x b) : ConvertsToInt F false x (satUnsigned 16 b) := by
  intro hx n hn hr
  have e := h hx n hn (inRange_wider hr).2
  rw [← e]; rw [← e] at hr
  exact val_satUnsigned hr

/-! ### Float and double -/

theorem fneg_quiet {G : Fmt} {v : Nat} (h : FmtW G v) (x : BitVec v) : fneg G (quiet G x) = fneg G x := by
  unfold fneg quiet
  rw [BitVec.toNat_or, Nat.testBit_or]
  have : (BitVec.ofNat v (2 ^ (G.m - 1))).toNat.testBit (G.e + G.m) = false := by
    cases h <;> decide +kernel
  rw [this, Bool.or_false]

theorem quiet_nan {G : Fmt} {v : Nat} (h : FmtW G v) (s : Bool) {p : Nat} (hp : p < 2 ^ G.m) :
    isNaN G (quiet G (mkFloat G v s (infMag G + p))) = true := by
  by_cases h0 : p = 0
  · subst h0
    cases h <;> cases s <;> decide +kernel
  · apply isNaN_quiet
    rw [isNaN_mk h.lt s]
    · exact decide_eq_true (by omega)
    · unfold infMag
      have := pow_pos2 G.m
      have e : 2 ^ (G.e + G.m) = 2 ^ G.e * 2 ^ G.m := Nat.pow_add _ _ _
      have e2 : (2 ^ G.e - 1) * 2 ^ G.m + 2 ^ G.m = 2 ^ G.e * 2 ^ G.m := by
        rw [Nat.sub_mul, Nat.one_mul, Nat.sub_add_cancel (Nat.le_mul_of_pos_left _ (pow_pos2 _))]
      omega

theorem fmag_lt_pow (F : Fmt) {w : Nat} (x : BitVec w) : fmag F x < 2 ^ (F.e + F.m) := Nat.mod_lt _ (pow_pos2 _)

theorem cvtF2F_spec {F G : Fmt} {w v : Nat} (hG : FmtW G v) (x : BitVec w) :
    Reformatted F G x (cvtF2F F G v x) := by
  unfold Reformatted cvtF2F
  by_cases hn : isNaN F x = true
  · rw [if_pos hn]
    have hp : fmag F x % 2 ^ F.m * 2 ^ G.m / 2 ^ F.m < 2 ^ G.m := by
      apply Nat.div_lt_of_lt_mul
      exact Nat.mul_lt_mul_of_pos_right (Nat.mod_lt _ (pow_pos2 _)) (pow_pos2 _)
    have hk : infMag G + fmag F x % 2 ^ F.m * 2 ^ G.m / 2 ^ F.m < 2 ^ (G.e + G.m) := by
      unfold infMag
      have e : 2 ^ (G.e + G.m) = 2 ^ G.e * 2 ^ G.m := Nat.pow_add _ _ _
      have e2 : (2 ^ G.e - 1) * 2 ^ G.m + 2 ^ G.m = 2 ^ G.e * 2 ^ G.m := by
        rw [Nat.sub_mul, Nat.one_mul, Nat.sub_add_cancel (Nat.le_mul_of_pos_left _ (pow_pos2 _))]
      omega
    have hni : isInf F x = false ∧ isFinite F x = false := by
      unfold isNaN at hn
      have := of_decide_eq_true hn
      exact ⟨decide_eq_false (by omega), decide_eq_false (by omega)⟩
    refine ⟨?_, ?_, fun h => ?_, fun h => ?_⟩
    · rw [fneg_quiet hG, (fneg_mk G hG.lt _ hk).1]
    · rw [quiet_nan hG _ hp, hn]
    · rw [hni.1] at h; cases h
    · rw [hni.2] at h; cases h
  · have hn : isNaN F x = false := by simpa using hn
    rw [if_neg (by rw [hn]; decide)]
    have hinf := infMag_lt G
    by_cases hi : isInf F x = true
    · rw [if_pos hi]
      refine ⟨(fneg_mk G hG.lt _ hinf).1, ?_, fun _ => ?_, fun h => ?_⟩
      · rw [isNaN_mk hG.lt _ hinf, hn]; exact decide_eq_false (by omega)
      · unfold isInf; rw [(fneg_mk G hG.lt _ hinf).2]; exact decide_eq_true rfl
      · rw [(isFinite_not h).2] at hi; cases hi
    · rw [if_neg hi]
      have key := mk_nearest hG (fneg F x) (magVal F (fmag F x) * 2 ^ oneExp G) (den := 2 ^ oneExp F) (pow_pos2 _)
      refine ⟨?_, ?_, fun h => absurd h hi, fun _ => ?_⟩
      · apply (fneg_mk G hG.lt _ _).1
        exact Nat.lt_of_le_of_lt (Nat.min_le_right _ _) hinf
      · rw [key.1, hn]
      · rw [signed_mul, ← fval_signed, ← pow_cast] at key
        exact key

/-- Float to double is exact. -/
theorem cvtF2F_exact {x : BitVec 32} (hx : isFinite f32 x = true) :
    isFinite f64 (cvtF2F f32 f64 64 x) = true ∧
    fval f64 (cvtF2F f32 f64 64 x) * 2 ^ oneExp f32 = fval f32 x * 2 ^ oneExp f64 := by
  have hk : fmag f32 x < infMag f32 := of_decide_eq_true hx
  obtain ⟨hn, hi⟩ := isFinite_not hx
  have split : ∃ r j, magVal f32 (fmag f32 x) = r * 2 ^ j ∧ r ≤ 2 ^ (f64.m + 1) ∧ j ≤ 253 := by
    have e : infMag f32 = 255 * 2 ^ 23 := by decide
    have e' : f32.m = 23 := rfl
    have e'' : 2 ^ (f64.m + 1) = 9007199254740992 := by decide
    rw [e] at hk
    rw [e'']
    unfold magVal
    rw [e']
    by_cases h0 : fmag f32 x / 2 ^ 23 = 0
    · refine ⟨fmag f32 x, 0, ?_, ?_, by omega⟩
      · rw [if_pos h0, Nat.pow_zero, Nat.mul_one]
      · omega
    · refine ⟨2 ^ 23 + fmag f32 x % 2 ^ 23, fmag f32 x / 2 ^ 23 - 1, if_neg h0, by omega, by omega⟩
  obtain ⟨r, j, e, hr, hj⟩ := split
  obtain ⟨M, hM, hM'⟩ := representable f64 (j + 925) r hr
  have h2048 : 2 ^ f64.e = 2048 := by decide
  have hMi := inf_bound f64 (j := j + 925) (M := M) (by omega) hM'
  have ee : magVal f32 (fmag f32 x) * 2 ^ oneExp f64 = magVal f64 M * 2 ^ oneExp f32 := by
    rw [e, hM, Nat.mul_assoc, Nat.mul_assoc, ← Nat.pow_add, ← Nat.pow_add]
    have a : oneExp f64 = 1074 := by decide
    have b : oneExp f32 = 149 := by decide
    rw [a, b, show j + 1074 = j + 925 + 149 by omega]
  have hc : cvtF2F f32 f64 64 x = mkFloat f64 64 (fneg f32 x) M := by
    unfold cvtF2F
    rw [if_neg (by rw [hn]; decide), if_neg (by rw [hi]; decide), ee,
      roundMag_exact f64 (pow_pos2 _) (Nat.le_of_lt hMi)]
  rw [hc]
  refine ⟨isFinite_mk f64 (by decide) _ hMi, ?_⟩
  have ev : fval f64 (mkFloat f64 64 (fneg f32 x) M) = signed (fneg f32 x) (magVal f64 M) :=
    fval_mk f64 (by decide) _ (Nat.lt_trans hMi (infMag_lt _))
  rw [ev, fval_signed, pow_cast, pow_cast, ← signed_mul, ← signed_mul, ee]

/-! ### Lanes -/

theorem lane_cvttps {n : Nat} (x : BitVec n) {i : Nat} (h : 32 * (i + 1) ≤ n) :
    Model.lane 32 (cvttps x) i = cvttF2I f32 (Model.lane 32 x i) := lane_map1 _ _ h

theorem lane_cvttpd (x : M128) {i : Nat} (h : i < 2) :
    Model.lane 32 (cvttpd x) i = cvttF2I f64 (Model.lane 64 x i) := by
  unfold cvttpd; rw [lane_ofLanes _ (by omega), if_pos h]

theorem lane_cvttpd256 (x : M256) {i : Nat} (h : i < 4) :
    Model.lane 32 (cvttpd256 x) i = cvttF2I f64 (Model.lane 64 x i) := by
  unfold cvttpd256; rw [lane_ofLanes _ (by omega)]

theorem lane_cvtFloatUint (I : Isa) (x : M128) {i : Nat} (h : i < 4) :
    Model.lane 32 (cvtFloatUint I x) i = f2uLane f32 two31f (Model.lane 32 x i) := by
  unfold cvtFloatUint f2uLane
  rw [lane_blendv I (w := 32) (v := 32) (c := 1) rfl (by decide) (by omega) _ _ _ (lane_map2 _ _ _ (by omega)), lane_xor,
    lane_cvttps _ (by omega), lane_cvttps _ (by omega), lane_map2 _ _ _ (by omega), lane_set1 _ (by omega),
    lane_set1 _ (by omega)]

theorem lane_signs2 {i : Nat} (h : i < 2) : Model.lane 32 signs2 i = 0x80000000#32 := by
  unfold signs2
  match i, h with
  | 0, _ => exact lane_setEpi32 _ _ _ _ (by decide)
  | 1, _ => exact lane_setEpi32 _ _ _ _ (by decide)

/-- The conversion double to uint of SSE: with SSE4.1 every lane by itself; without, the mask is not
narrowed, so that lane 0 decides for both. -/
theorem lane_cvtDoubleUint (I : Isa) (x : M128) {i : Nat} (h : i < 2) :
    Model.lane 32 (cvtDoubleUint I x) i =
      if I.sse41 then d2uLane (Model.lane 64 x i)
      else if fLe f64 two31d (Model.lane 64 x 0) then
        cvttF2I f64 (fSub f64 (Model.lane 64 x i) two31d) ^^^ 0x80000000#32
      else cvttF2I f64 (Model.lane 64 x i) := by
  unfold cvtDoubleUint
  by_cases h41 : I.sse41 = true
  · rw [if_pos h41, if_pos h41, lane_xor, lane_signs2 h, lane_cvttpd _ h, lane_map2 _ _ _ (by omega),
      lane_set1 _ (by omega)]
    unfold vRoundIntr d2uLane
    rw [lane_map1 _ _ (by omega)]
  · rw [if_neg h41, if_neg h41]
    have hm : Model.lane 32 (map2 64 (fun a b => laneMask (fLe f64 b a)) x (set1 64 two31d) : M128) i =
        laneMask (fLe f64 two31d (Model.lane 64 x 0)) := by
      have := lane_lane 32 2 (map2 64 (fun a b => laneMask (fLe f64 b a)) x (set1 64 two31d) : M128) 0 h
      rw [Nat.mul_zero, Nat.zero_add] at this
      rw [← this]
      have e : Model.lane (32 * 2) (map2 64 (fun a b => laneMask (fLe f64 b a)) x (set1 64 two31d) : M128) 0 =
          laneMask (fLe f64 two31d (Model.lane 64 x 0)) := by
        refine (lane_map2 (w := 64) _ _ _ (by decide)).trans ?_
        rw [lane_set1 _ (by decide)]
      rw [e]
      exact lane_laneMask h _
    rw [lane_blendv I (v := 8) (c := 4) rfl (by decide) (by omega) _ _ _ hm, lane_xor, lane_signs2 h,
      lane_cvttpd _ h, lane_cvttpd _ h, lane_map2 _ _ _ (by omega), lane_set1 _ (by omega)]

theorem lane_unpacklo64 (x y : M128) {i : Nat} (h : i < 4) :
    Model.lane 32 (unpacklo 64 x y) i = if i < 2 then Model.lane 32 x i else Model.lane 32 y (i - 2) := by
  have h0 : Model.lane 64 (unpacklo 64 x y) 0 = Model.lane 64 x 0 := lane_unpacklo x y (by decide)
  have h1 : Model.lane 64 (unpacklo 64 x y) 1 = Model.lane 64 y 0 := lane_unpacklo x y (by decide)
  by_cases h2 : i < 2
  · rw [if_pos h2, lane_of_wide 32 2 (by decide) (by omega : i / 2 = 0) h0]
    congr 1; omega
  · rw [if_neg h2, lane_of_wide 32 2 (by decide) (by omega : i / 2 = 1) h1]
    congr 1; omega

theorem lane_cvtDoubleInt2 (avx : Bool) (x0 x1 : M128) {i : Nat} (h : i < 4) :
    Model.lane 32 (cvtDoubleInt2 avx x0 x1) i =
      cvttF2I f64 (if i < 2 then Model.lane 64 x0 i else Model.lane 64 x1 (i - 2)) := by
  unfold cvtDoubleInt2
  cases avx
  · rw [if_neg (by decide), lane_unpacklo64 _ _ h]
    by_cases h2 : i < 2
    · rw [if_pos h2, if_pos h2, lane_cvttpd _ h2]
    · rw [if_neg h2, if_neg h2, lane_cvttpd _ (by omega)]
  · rw [if_pos rfl, lane_cvttpd256 _ h, concat128_64 _ _ h]

theorem lane_cvtDoubleUintAvx (x : M256) {i : Nat} (h : i < 4) :
    Model.lane 32 (cvtDoubleUintAvx x) i = d2uLane (Model.lane 64 x i) := by
  unfold cvtDoubleUintAvx vRoundIntr d2uLane
  rw [lane_xor, lane_set1 _ (by omega), lane_cvttpd256 _ h, lane_map2 _ _ _ (by omega), lane_map1 _ _ (by omega),
    lane_set1 _ (by omega)]

theorem lane_convertInt32ToInt16 (a b : M128) {i : Nat} (hi : i < 8) :
    Model.lane 16 (convertInt32ToInt16 a b) i =
      (if i < 4 then Model.lane 32 a i else Model.lane 32 b (i - 4)).setWidth 16 := by
  unfold convertInt32ToInt16
  rw [lane_unpack3 a b hi, lane_low_half, lane_low_half]
  split <;> rfl

theorem lane_packs16 (a b : M128) {i : Nat} (hi : i < 8) :
    Model.lane 16 (packs 16 a b) i =
      satSigned 16 (if i < 4 then Model.lane 32 a i else Model.lane 32 b (i - 4)) := by
  rw [lane_packs _ _ (by omega)]
  show (if i < 4 then _ else _) = _
  split <;> rfl

theorem lane_packus16 (a b : M128) {i : Nat} (hi : i < 8) :
    Model.lane 16 (packus 16 a b) i =
      satUnsigned 16 (if i < 4 then Model.lane 32 a i else Model.lane 32 b (i - 4)) := by
  rw [lane_packus _ _ (by omega)]
  show (if i < 4 then _ else _) = _
  split <;> rfl

/-- The two ways to compare: equal unless NaN takes part. -/
theorem lane_vFGe {n : Nat} (B : CmpBuild) (x y : BitVec n) {i : Nat} (h : 32 * (i + 1) ≤ n)
    (hx : isFinite f32 (Model.lane 32 x i) = true) (hy : isFinite f32 (Model.lane 32 y i) = true) :
    Model.lane 32 (vFGe B f32 32 x y) i = laneMask (fLe f32 (Model.lane 32 y i) (Model.lane 32 x i)) := by
  have e : (!fLt f32 (Model.lane 32 x i) (Model.lane 32 y i)) = fLe f32 (Model.lane 32 y i) (Model.lane 32 x i) := by
    rw [fLt_fin hx hy, fLe_fin hy hx]
    by_cases hh : fval f32 (Model.lane 32 x i) < fval f32 (Model.lane 32 y i)
    · rw [decide_eq_true hh, decide_eq_false (by omega)]; rfl
    · rw [decide_eq_false hh, decide_eq_true (by omega)]; rfl
  cases B <;> unfold vFGe <;> rw [lane_map2 _ _ _ h]
  · rw [e]
  · rw [e]

theorem lane_cvtFloatUintAvx (avx2 : Bool) (B : CmpBuild) (x : M256) {i : Nat} (h : i < 8)
    (hx : isFinite f32 (Model.lane 32 x i) = true) :
    Model.lane 32 (cvtFloatUintAvx avx2 B x) i = f2uLane f32 two31f (Model.lane 32 x i) := by
  unfold cvtFloatUintAvx f2uLane
  have h256 : 32 * (i + 1) ≤ 256 := by omega
  have hs : Model.lane 32 (set1 32 two31f : M256) i = two31f := lane_set1 _ h256
  rw [lane_blendvIntr _ _ _ h256, lane_vFGe B _ _ h256 hx (by rw [hs]; exact isTwo31f.fin), laneMask_msb (by decide), hs]
  have e : Model.lane 32 (avx2op avx2 (addEpi 32) (addEpi 32) (cvttps (map2 32 (fSub f32) x (set1 32 two31f)))
      (set1 32 0x80000000#32)) i = _ := lane_avx2op (k := 4) rfl (fun a b => a + b) avx2 _ _ h
  rw [e, lane_cvttps _ h256, lane_cvttps _ h256, lane_map2 _ _ _ h256, hs, lane_set1 _ h256, add_sign]

theorem lane_simdCastFloatUintAvx2 (B : CmpBuild) (x : M256) {i : Nat} (h : i < 8)
    (hx : isFinite f32 (Model.lane 32 x i) = true) :
    Model.lane 32 (simdCastFloatUintAvx2 B x) i = f2uLane f32 two31f (Model.lane 32 x i) := by
  have h256 : 32 * (i + 1) ≤ 256 := by omega
  have hs : Model.lane 32 (set1 32 two31f : M256) i = two31f := lane_set1 _ h256
  have hm := lane_vFGe B x (set1 32 two31f) h256 hx (by rw [hs]; exact isTwo31f.fin)
  rw [hs] at hm
  unfold simdCastFloatUintAvx2 f2uLane
  have e : ∀ (a b m : M256) (p : Bool), Model.lane 32 m i = laneMask p →
      Model.lane 32 (blendvIntr 8 a b m) i = if p then Model.lane 32 b i else Model.lane 32 a i := by
    intro a b m p hp
    refine reg_ext 8 (by decide) (by decide) fun j hj => ?_
    have hj4 : j < 4 := by omega
    have key := lane_lane 8 4 (blendvIntr 8 a b m) i hj4
    have ka := lane_lane 8 4 a i hj4
    have kb := lane_lane 8 4 b i hj4
    have km := lane_lane 8 4 m i hj4
    rw [show (8 * 4) = 32 from rfl] at key ka kb km
    rw [key, lane_blendvIntr _ _ _ (by omega), ← km, hp, show Model.lane 8 (laneMask p : BitVec 32) j = laneMask p from
      lane_laneMask (v := 8) (c := 4) hj4 p, laneMask_msb (by decide), ← ka, ← kb]
    cases p <;> rfl
  rw [e _ _ _ _ hm, show Model.lane 32 (addEpi 32 (cvttps (map2 32 (fSub f32) x (set1 32 two31f)))
      (set1 32 0x80000000#32)) i = _ from lane_map2 _ _ _ h256, lane_cvttps _ h256, lane_cvttps _ h256,
    lane_map2 _ _ _ h256, hs, lane_set1 _ h256, add_sign]

/-- The byte shuffle of `convert<int, short>`: the low halves of the ints of each half. -/
theorem lane_shortBytes (x : M256) {i : Nat} (h : i < 16) (h4 : i % 8 < 4) :
    Model.lane 16 (shuffleEpi8 x shortBytes) i = (Model.lane 32 x (i / 8 * 4 + i % 8)).setWidth 16 := by
  have low : (Model.lane 32 x (i / 8 * 4 + i % 8)).setWidth 16 = Model.lane 16 x (2 * (i / 8 * 4 + i % 8)) := by
    have := lane16_of32 x (i / 8 * 4 + i % 8) (j := 0) (by decide)
    rw [Nat.add_zero] at this
    rw [← this]
    apply BitVec.eq_of_getLsbD_eq
    intro k hk
    unfold Model.lane
    simp [hk]
  rw [low]
  refine reg_ext 8 (by decide) (by decide) fun j hj => ?_
  have hj2 : j < 2 := by omega
  have k1 := lane_lane 8 2 (shuffleEpi8 x shortBytes) i hj2
  have k2 := lane_lane 8 2 x (2 * (i / 8 * 4 + i % 8)) hj2
  rw [show (8 * 2) = 16 from rfl] at k1 k2
  rw [k1, k2]
  unfold shuffleEpi8 shortBytes
  rw [lane_ofLanes _ (by omega), lane_setr _ (by omega)]
  have tab : ∀ k : Fin 32, k.1 % 16 < 8 → ([0, 1, 4, 5, 8, 9, 12, 13, 128, 128, 128, 128, 128, 128, 128, 128,
      0, 1, 4, 5, 8, 9, 12, 13, 128, 128, 128, 128, 128, 128, 128, 128] : List (BitVec 8)).getD k 0 =
      BitVec.ofNat 8 (4 * (k.1 % 16 / 2) + k.1 % 2) := by decide
  have t := tab ⟨2 * i + j, by omega⟩ (by simp only; omega)
  simp only at t
  rw [t]
  have hm : (BitVec.ofNat 8 (4 * ((2 * i + j) % 16 / 2) + (2 * i + j) % 2)).toNat =
      4 * ((2 * i + j) % 16 / 2) + (2 * i + j) % 2 := by
    rw [BitVec.toNat_ofNat]; omega
  rw [if_neg, hm]
  · congr 1; omega
  · rw [BitVec.msb_eq_decide, hm]
    simp only [decide_eq_true_eq]; omega

theorem lane_cvtIntUshortAvx (x : M256) {i : Nat} (h : i < 8) :
    Model.lane 16 (cvtIntUshortAvx x) i = (Model.lane 32 x i).setWidth 16 := by
  unfold cvtIntUshortAvx
  simp only []
  rw [lane_unpack3 _ _ h, lane_low_half, lane_low_half]
  by_cases h4 : i < 4
  · rw [if_pos h4, lo128_32 _ h4]
  · rw [if_neg h4, hi128_32 _ (by omega), show 4 + (i - 4) = i by omega]

theorem lane16_64 {n m : Nat} {x : BitVec n} {y : BitVec m} {i q q' : Nat} (hq : i / 4 = q)
    (h : Model.lane 64 x q = Model.lane 64 y q') : Model.lane 16 x i = Model.lane 16 y (4 * q' + i % 4) :=
  lane_of_wide 16 4 (by decide) hq h

theorem lane_cvtIntShortAvx (avx2 : Bool) (x : M256) {i : Nat} (h : i < 8) :
    Model.lane 16 (cvtIntShortAvx avx2 x) i = (Model.lane 32 x i).setWidth 16 := by
  cases avx2
  · exact lane_cvtIntUshortAvx x h
  · unfold cvtIntShortAvx
    rw [if_pos rfl, lo128_16 _ h]
    have p : ∀ q, q < 2 → Model.lane 64 (permute4x64Imm (shuffleEpi8 x shortBytes) 0xf8) q =
        Model.lane 64 (shuffleEpi8 x shortBytes) (2 * q) := fun q hq => by
      unfold permute4x64Imm
      rw [lane_ofLanes _ (by omega)]
      match q, hq with
      | 0, _ => rfl
      | 1, _ => rfl
    rw [lane16_64 rfl (p (i / 4) (by omega)), lane_shortBytes _ (by omega) (by omega)]
    congr 2; omega

theorem lane_simdCastIntShort2 (x0 x1 : M256) :
    ∃ r, simdCastIntShort2 x0 x1 = some r ∧ ∀ i, i < 16 → Model.lane 16 r i =
      (if i < 8 then Model.lane 32 x0 i else Model.lane 32 x1 (i - 8)).setWidth 16 := by
  unfold simdCastIntShort2
  obtain ⟨r, hr, r0, r1, r2, r3⟩ := lane_permute4x64 (d0 := 0) (d1 := 2) (d2 := 1) (d3 := 3) (by decide)
    (unpacklo256 64 (shuffleEpi8 x0 shortBytes) (shuffleEpi8 x1 shortBytes))
  refine ⟨r, hr, fun i hi => ?_⟩
  rw [lane_unpacklo256_64 _ _ (by decide)] at r0 r1 r2 r3
  have e : Model.lane 64 r (i / 4) =
      Model.lane 64 (if i < 8 then shuffleEpi8 x0 shortBytes else shuffleEpi8 x1 shortBytes) (i / 4 % 2 * 2) := by
    have : i / 4 = 0 ∨ i / 4 = 1 ∨ i / 4 = 2 ∨ i / 4 = 3 := by omega
    rcases this with h | h | h | h
    · rw [h, r0, if_pos (by omega : i < 8)]; rfl
    · rw [h, r1, if_pos (by omega : i < 8)]; rfl
    · rw [h, r2, if_neg (by omega : ¬ i < 8)]; rfl
    · rw [h, r3, if_neg (by omega : ¬ i < 8)]; rfl
  rw [lane16_64 rfl e]
  by_cases h8 : i < 8
  · rw [if_pos h8, if_pos h8, lane_shortBytes _ (by omega) (by omega)]
    congr 2; omega
  · rw [if_neg h8, if_neg h8, lane_shortBytes _ (by omega) (by omega)]
    congr 2; omega

theorem low_half256 (x : M256) (q : Nat) : Model.lane 16 x (2 * q) = (Model.lane 32 x q).setWidth 16 := by
  have := lane16_of32 x q (j := 0) (by decide)
  rw [Nat.add_zero] at this
  rw [← this]
  apply BitVec.eq_of_getLsbD_eq
  intro k hk
  unfold Model.lane
  simp [hk]

theorem lane_simdCastIntUshort2 (x0 x1 : M256) :
    ∃ r, simdCastIntUshort2 x0 x1 = some r ∧ ∀ i, i < 16 → Model.lane 16 r i =
      (if i < 8 then Model.lane 32 x0 i else Model.lane 32 x1 (i - 8)).setWidth 16 := by
  unfold simdCastIntUshort2
  simp only []
  obtain ⟨r, hr, r0, r1, r2, r3⟩ := lane_permute4x64 (d0 := 0) (d1 := 2) (d2 := 1) (d3 := 3) (by decide)
    (unpacklo256 16 (unpacklo256 16 (unpacklo256 16 x0 x1) (unpackhi256 16 x0 x1))
      (unpackhi256 16 (unpacklo256 16 x0 x1) (unpackhi256 16 x0 x1)))
  refine ⟨r, hr, fun i hi => ?_⟩
  have l : ∀ k, k < 16 → Model.lane 16 (unpacklo256 16 (unpacklo256 16 (unpacklo256 16 x0 x1) (unpackhi256 16 x0 x1))
      (unpackhi256 16 (unpacklo256 16 x0 x1) (unpackhi256 16 x0 x1))) k =
      (if k % 8 < 4 then Model.lane 32 x0 (k / 8 * 4 + k % 4) else Model.lane 32 x1 (k / 8 * 4 + k % 4)).setWidth 16 := by
    intro k hk
    have e0 : ∀ q, (Model.lane 32 x0 q).setWidth 16 = Model.lane 16 x0 (2 * q) := fun q => (low_half256 x0 q).symm
    have e1 : ∀ q, (Model.lane 32 x1 q).setWidth 16 = Model.lane 16 x1 (2 * q) := fun q => (low_half256 x1 q).symm
    have push : ∀ (p : Prop) [Decidable p] (a b : BitVec 32), (if p then a else b).setWidth 16 =
        if p then a.setWidth 16 else b.setWidth 16 := fun p _ a b => by split <;> rfl
    rw [push, e0, e1]
    match k, hk with
    | 0, _ => simp [lane_unpacklo256_16]
    | 1, _ => simp [lane_unpacklo256_16, lane_unpackhi256_16]
    | 2, _ => simp [lane_unpacklo256_16, lane_unpackhi256_16]
    | 3, _ => simp [lane_unpacklo256_16, lane_unpackhi256_16]
    | 4, _ => simp [lane_unpacklo256_16]
    | 5, _ => simp [lane_unpacklo256_16, lane_unpackhi256_16]
    | 6, _ => simp [lane_unpacklo256_16, lane_unpackhi256_16]
    | 7, _ => simp [lane_unpacklo256_16, lane_unpackhi256_16]
    | 8, _ => simp [lane_unpacklo256_16]
    | 9, _ => simp [lane_unpacklo256_16, lane_unpackhi256_16]
    | 10, _ => simp [lane_unpacklo256_16, lane_unpackhi256_16]
    | 11, _ => simp [lane_unpacklo256_16, lane_unpackhi256_16]
    | 12, _ => simp [lane_unpacklo256_16]
    | 13, _ => simp [lane_unpacklo256_16, lane_unpackhi256_16]
    | 14, _ => simp [lane_unpacklo256_16, lane_unpackhi256_16]
    | 15, _ => simp [lane_unpacklo256_16, lane_unpackhi256_16]
    | k + 16, hk => omega
  have e : Model.lane 64 r (i / 4) = Model.lane 64 (unpacklo256 16 (unpacklo256 16 (unpacklo256 16 x0 x1)
      (unpackhi256 16 x0 x1)) (unpackhi256 16 (unpacklo256 16 x0 x1) (unpackhi256 16 x0 x1)))
      (i / 4 / 2 + i / 4 % 2 * 2) := by
    have : i / 4 = 0 ∨ i / 4 = 1 ∨ i / 4 = 2 ∨ i / 4 = 3 := by omega
    rcases this with h | h | h | h
    · rw [h, r0]
    · rw [h, r1]
    · rw [h, r2]
    · rw [h, r3]
  rw [lane16_64 rfl e, l _ (by omega)]
  by_cases h8 : i < 8
  · rw [if_pos h8, if_pos (by omega)]
    congr 2; omega
  · rw [if_neg h8, if_neg (by omega)]
    congr 2; omega

theorem lane_cvtShortIntAvx (avx2 : Bool) (x : M128) {i : Nat} (h : i < 8) :
    Model.lane 32 (cvtShortIntAvx avx2 x) i = (Model.lane 16 x i).signExtend 32 ∧
    Model.lane 32 (cvtUshortIntAvx avx2 x) i = (Model.lane 16 x i).zeroExtend 32 := by
  cases avx2
  · have w : Model.lane 16 (Model.lane 32 (concat128 (unpacklo 16 x x) (unpackhi 16 x x)) i) 1 = Model.lane 16 x i := by
      rw [concat128_32 _ _ h]
      by_cases h4 : i < 4
      · rw [if_pos h4]
        exact (unpacklo_wide (v := 16) (i := i) (by omega) x x).2
      · rw [if_neg h4, (unpackhi_wide (v := 16) (i := i - 4) (by omega) x x).2]
        congr 1; omega
    constructor
    · unfold cvtShortIntAvx
      rw [if_neg (by decide), lane_split1 (k := 4) (f := (sraiEpi 32 · 16)) (g := (·.sshiftRight 16)) rfl
        (fun a i hi => lane_map1 _ a (by omega)) _ h,
        sshiftRight_half (v := 16) (by decide) (Model.lane 32 _ i), w]
    · unfold cvtUshortIntAvx
      rw [if_neg (by decide), lane_split1 (k := 4) (f := (srliEpi 32 · 16)) (g := (· >>> 16)) rfl
        (fun a i hi => lane_map1 _ a (by omega)) _ h,
        ushiftRight_half (v := 16) (Model.lane 32 _ i), w]
  · exact ⟨by unfold cvtShortIntAvx cvtepi16epi32Intr256; rw [if_pos rfl, lane_ofLanes _ (by omega)],
      by unfold cvtUshortIntAvx cvtepu16epi32Intr256; rw [if_pos rfl, lane_ofLanes _ (by omega)]⟩

end Vc.Lemma
