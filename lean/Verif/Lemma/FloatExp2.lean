import Verif.Lemma.FloatExp
import Verif.Lemma.Interleave

namespace Vc.Lemma

open Vc.Model Vc.Spec

/-! ### Lanes of the registers -/

theorem lane_vFEq0 {F : Fmt} {n w : Nat} (h : FmtW F w) (v : BitVec n) {i : Nat} (hi : w * (i + 1) ≤ n) :
    Model.lane w (vFEq F w v 0#n) i = laneMask (decide (fmag F (Model.lane w v i) = 0)) := by
  unfold vFEq
  rw [lane_map2 _ _ _ hi, lane_zero, fEq_zero h]

theorem lane_frexpKeep {F : Fmt} {n w : Nat} (h : FmtW F w) (v : BitVec n) {i : Nat} (hi : w * (i + 1) ≤ n) :
    Model.lane w (frexpKeep F w v) i =
      laneMask (!isFinite F (Model.lane w v i) || decide (fmag F (Model.lane w v i) = 0)) := by
  unfold frexpKeep
  rw [lane_or, lane_vFEq0 h v hi, lane_or, lane_andnot _ _ hi, lane_allOnes hi]
  unfold vIsNaN cmpunord vIsFinite cmpord
  rw [lane_map2 _ _ _ hi, lane_map2 _ _ _ hi, lane_map2 _ _ _ hi, lane_zero, isNaN_zero_mul h, Bool.not_not,
    BitVec.and_allOnes, not_laneMask, laneMask_or, laneMask_or, Bool.or_self]
  congr 2
  have hf : isNaN F (Model.lane w v i) = true → isFinite F (Model.lane w v i) = false := by
    unfold isNaN isFinite
    simp only [decide_eq_true_eq, decide_eq_false_iff_not]
    omega
  cases hn : isNaN F (Model.lane w v i)
  · rfl
  · rw [hf hn]; rfl

theorem lane_frexpBits {F : Fmt} {n w : Nat} {K : FConst n} (h : Platform F n w K) (v : BitVec n) {i : Nat}
    (hi : w * (i + 1) ≤ n) :
    Model.lane w (frexpBits K v) i = mkFloat F w (fneg F (Model.lane w v i))
      (2 ^ F.m * (bias F - 1) + fmag F (Model.lane w v i) % 2 ^ F.m) := by
  unfold frexpBits
  rw [lane_and, lane_or, h.expMask hi, h.frexpMask hi, frexp_mag h.fmtW]

theorem lane_frexpMantSse (I : Isa) {F : Fmt} {w : Nat} {K : FConst 128} (h : Platform F 128 w K) (v : M128) {i : Nat}
    (hi : w * (i + 1) ≤ 128) : Model.lane w (frexpMantSse I K F w v) i = frexpR F (Model.lane w v i) := by
  unfold frexpMantSse frexpR
  have hw : 0 < w := by cases h <;> decide
  rw [lane_blendv I (v := w) (c := 1) (by omega) hw hi _ _ _ (lane_frexpKeep h.fmtW v hi), lane_frexpBits h v hi]

theorem lane_frexpMantAvx {F : Fmt} {w : Nat} {K : FConst 256} (h : Platform F 256 w K) (v : M256) {i : Nat}
    (hi : w * (i + 1) ≤ 256) : Model.lane w (frexpMantAvx K F w v) i = frexpR F (Model.lane w v i) := by
  unfold frexpMantAvx frexpR
  have hw : 0 < w := by cases h <;> decide
  rw [lane_blendvIntr _ _ _ hi, lane_frexpKeep h.fmtW v hi, laneMask_msb hw, lane_frexpBits h v hi]

/-- The integer exponent of a lane. -/
theorem expLane {F : Fmt} {w : Nat} (h : FmtW F w) (x : BitVec w) {a c : BitVec 32}
    (ha : a.toNat = fmag F x / 2 ^ F.m) (hc : c.toNat = bias F - 1) :
    (~~~(laneMask (decide (fmag F x = 0)) : BitVec 32) &&& (a - c)).toInt = frexpE F x := by
  unfold frexpE
  by_cases h0 : fmag F x = 0
  · rw [if_pos h0, decide_eq_true h0]
    simp [laneMask]
  · rw [if_neg h0, decide_eq_false h0]
    have hf := field_lt F x
    have e : ~~~(laneMask false : BitVec 32) = BitVec.allOnes 32 := by decide
    rw [e, BitVec.allOnes_and, BitVec.toInt_sub, BitVec.toInt_eq_toNat_of_lt (x := a), BitVec.toInt_eq_toNat_of_lt (x := c),
      ha, hc]
    · generalize fmag F x / 2 ^ F.m = k at *
      cases h
      · have hf : k < 256 := hf
        show ((k : Int) - (126 : Nat)).bmod (2 ^ 32) = k - (126 : Nat)
        apply Int.bmod_eq_of_le <;> omega
      · have hf : k < 2048 := hf
        show ((k : Int) - (1022 : Nat)).bmod (2 ^ 32) = k - (1022 : Nat)
        apply Int.bmod_eq_of_le <;> omega
    · rw [hc]; cases h <;> decide
    · rw [ha]
      generalize fmag F x / 2 ^ F.m = k at *
      cases h
      · have hf : k < 256 := hf
        omega
      · have hf : k < 2048 := hf
        omega

theorem toNat_field {F : Fmt} {w : Nat} (h : FmtW F w) (x : BitVec w) :
    ((x &&& BitVec.ofNat w (infMag F)) >>> F.m).toNat = fmag F x / 2 ^ F.m := by
  rw [BitVec.toNat_ushiftRight, and_exp h.width, Nat.shiftRight_eq_div_pow, Nat.mul_div_cancel _ (pow_pos2 _)]

theorem lane_frexpExpSseF (v : M128) {i : Nat} (hi : i < 4) :
    (Model.lane 32 (frexpExpSseF v) i).toInt = frexpE f32 (Model.lane 32 v i) := by
  unfold frexpExpSseF
  simp only
  have hr : 32 * (i + 1) ≤ 128 := by omega
  rw [lane_andnot _ _ hr, lane_vFEq0 .single v hr]
  unfold subEpi srliEpi
  rw [lane_map2 _ _ _ hr, lane_map1 _ _ hr, lane_and, Platform.sseFloat.expMask hr, lane_set1 _ hr]
  exact expLane .single _ (toNat_field .single _) rfl

/-- The low int lane of a 64-bit lane. -/
theorem lane_lo32 {n : Nat} (x : BitVec n) (i : Nat) : Model.lane 32 x (2 * i) = (Model.lane 64 x i).setWidth 32 := by
  have := lane_lane 32 2 x i (j := 0) (by decide)
  rw [Nat.add_zero] at this
  rw [← this]
  apply BitVec.eq_of_getLsbD_eq
  intro j hj
  rw [getLsbD_lane, BitVec.getLsbD_setWidth, decide_eq_true hj, Bool.true_and, Bool.true_and, Nat.mul_zero, Nat.zero_add]

theorem toNat_field64 (x : BitVec 64) :
    (((x &&& BitVec.ofNat 64 (infMag f64)) >>> 52).setWidth 32).toNat = fmag f64 x / 2 ^ f64.m := by
  have h := toNat_field .double x
  have hf := field_lt f64 x
  rw [BitVec.toNat_setWidth]
  refine (congrArg (· % 2 ^ 32) h).trans ?_
  apply Nat.mod_eq_of_lt
  generalize fmag f64 x / 2 ^ f64.m = k at *
  have hf : k < 2048 := hf
  omega

/-- The int lane with the exponent field minus a constant, for doubles. -/
theorem lane_exp64 {n : Nat} (v m c : BitVec n) {i : Nat} (hi : 64 * (i + 1) ≤ n)
    (hm : Model.lane 64 m i = BitVec.ofNat 64 (infMag f64)) {k : BitVec 32} (hc : Model.lane 32 c (2 * i) = k) :
    ∃ a : BitVec 32, a.toNat = fmag f64 (Model.lane 64 v i) / 2 ^ f64.m ∧
      Model.lane 32 (subEpi 32 (srliEpi 64 (v &&& m) 52) c) (2 * i) = a - k := by
  refine ⟨_, toNat_field64 (Model.lane 64 v i), ?_⟩
  unfold subEpi srliEpi
  rw [lane_map2 _ _ _ (by omega), lane_lo32, lane_map1 _ _ hi, lane_and, hm, hc]

theorem lane_mask64 {n : Nat} {x : BitVec n} {i : Nat} {p : Bool} (h : Model.lane 64 x i = laneMask p) :
    Model.lane 32 x (2 * i) = laneMask p := by
  rw [lane_lo32, h]
  cases p <;> decide

theorem frexpExpSseD_spec (v : M128) :
    (frexpExpSseD v).1.toInt = frexpE f64 (Model.lane 64 v 0) ∧
    (frexpExpSseD v).2.toInt = frexpE f64 (Model.lane 64 v 1) := by
  unfold frexpExpSseD
  simp only
  have key : ∀ i, i < 2 → (Model.lane 32 (andnot (vFEq f64 64 v 0#128)
      (subEpi 32 (srliEpi 64 (v &&& sseDouble.expMask) 52) (set1 32 0x3fe#32))) (2 * i)).toInt =
        frexpE f64 (Model.lane 64 v i) := by
    intro i hi
    have hr : 64 * (i + 1) ≤ 128 := by omega
    obtain ⟨a, ha, e⟩ := lane_exp64 v sseDouble.expMask (set1 32 0x3fe#32) hr (Platform.sseDouble.expMask hr)
      (lane_set1 _ (show 32 * (2 * i + 1) ≤ 128 by omega))
    rw [lane_andnot _ _ (by omega), e, lane_mask64 (lane_vFEq0 .double v hr)]
    exact expLane .double _ ha rfl
  exact ⟨key 0 (by decide), key 1 (by decide)⟩

theorem satSigned_mask (p : Bool) : satSigned 16 (laneMask p : BitVec (2 * 16)) = laneMask p := by
  cases p <;> decide

/-- Packing the masks of two registers of doubles. -/
theorem lane_packs_mask64 {a b : M128} {p q : Nat → Bool} (ha : ∀ i, i < 2 → Model.lane 64 a i = laneMask (p i))
    (hb : ∀ i, i < 2 → Model.lane 64 b i = laneMask (q i)) {i : Nat} (hi : i < 4) :
    Model.lane 32 (packs 16 a b) i = laneMask (if i < 2 then p i else q (i - 2)) := by
  have narrow : ∀ {x : M128} {f : Nat → Bool}, (∀ i, i < 2 → Model.lane 64 x i = laneMask (f i)) →
      ∀ j, j < 4 → Model.lane (2 * 16) x j = laneMask (f (j / 2)) := by
    intro x f hx j hj
    have := lane_lane 32 2 x (j / 2) (j := j % 2) (by omega)
    rw [show 2 * (j / 2) + j % 2 = j from Nat.div_add_mod j 2] at this
    refine this.symm.trans ?_
    rw [hx _ (by omega)]
    exact lane_laneMask (v := 32) (c := 2) (by omega) _
  apply lane_ext (v := 16) (c := 2) (by decide)
  intro j hj
  rw [lane_lane 16 2 _ _ hj, lane_laneMask (v := 16) (c := 2) hj, lane_packs _ _ (by omega)]
  by_cases h : i < 2
  · rw [if_pos (show 2 * i + j < 64 / 16 by omega), if_pos h, narrow ha _ (by omega), satSigned_mask]
    congr 2; omega
  · rw [if_neg (show ¬ 2 * i + j < 64 / 16 by omega), if_neg h, narrow hb _ (by omega), satSigned_mask]
    congr 2; omega

theorem masks_lo {k : M256} {p : Nat → Bool} (hk : ∀ i, i < 4 → Model.lane 64 k i = laneMask (p i)) :
    ∀ i, i < 2 → Model.lane 64 (lo128 k) i = laneMask (p i) := fun i hi => by
  rw [lane_lo128 (k := 2) rfl _ hi, hk _ (by omega)]

theorem masks_hi {k : M256} {p : Nat → Bool} (hk : ∀ i, i < 4 → Model.lane 64 k i = laneMask (p i)) :
    ∀ i, i < 2 → Model.lane 64 (hi128 k) i = laneMask (p (2 + i)) := fun i hi => by
  rw [lane_hi128 (k := 2) rfl _ hi, hk _ (by omega)]

/-- Lanes of the mask conversion 4 → 4. -/
theorem lane_castMask4 {k : M256} {p : Nat → Bool} (hk : ∀ i, i < 4 → Model.lane 64 k i = laneMask (p i)) {i : Nat}
    (hi : i < 4) : Model.lane 32 (castMask4 k) i = laneMask (p i) := by
  unfold castMask4
  rw [lane_packs_mask64 (masks_lo hk) (masks_hi hk) hi]
  by_cases h : i < 2
  · rw [if_pos h]
  · rw [if_neg h, show 2 + (i - 2) = i by omega]

/-- Lanes of the mask conversion 4 + 4 → 8. -/
theorem lane_castMask44 {k0 k1 : M256} {p q : Nat → Bool} (h0 : ∀ i, i < 4 → Model.lane 64 k0 i = laneMask (p i))
    (h1 : ∀ i, i < 4 → Model.lane 64 k1 i = laneMask (q i)) :
    ∃ r, castMask44 k0 k1 = some r ∧
      ∀ i, i < 8 → Model.lane 32 r i = laneMask (if i < 4 then p i else q (i - 4)) := by
  obtain ⟨r, hr, e0, e1, e2, e3⟩ := lane_permute4x64 (d0 := 0) (d1 := 2) (d2 := 1) (d3 := 3) (by decide) (packs256 16 k0 k1)
  refine ⟨r, hr, ?_⟩
  have hp : ∀ j, j < 8 → Model.lane 32 (packs256 16 k0 k1) j =
      if j < 4 then laneMask (if j < 2 then p j else q (j - 2))
      else laneMask (if j - 4 < 2 then p (2 + (j - 4)) else q (2 + (j - 4 - 2))) := by
    intro j hj
    unfold packs256
    rw [lane_concat128 (w := 32) (k := 4) rfl _ _ (by omega)]
    by_cases h : j < 4
    · rw [if_pos h, if_pos h, lane_packs_mask64 (masks_lo h0) (masks_lo h1) h]
    · rw [if_neg h, if_neg h, lane_packs_mask64 (masks_hi h0) (masks_hi h1) (by omega)]
  have w : ∀ {a b i : Nat}, i / 2 = a → Model.lane 64 r a = Model.lane 64 (packs256 16 k0 k1) b →
      Model.lane 32 r i = Model.lane 32 (packs256 16 k0 k1) (2 * b + i % 2) := fun h e => lane_of_wide 32 2 (by decide) h e
  intro i hi
  match i, hi with
  | 0, _ => rw [w rfl e0, hp _ (by decide)]; rfl
  | 1, _ => rw [w rfl e0, hp _ (by decide)]; rfl
  | 2, _ => rw [w rfl e1, hp _ (by decide)]; rfl
  | 3, _ => rw [w rfl e1, hp _ (by decide)]; rfl
  | 4, _ => rw [w rfl e2, hp _ (by decide)]; rfl
  | 5, _ => rw [w rfl e2, hp _ (by decide)]; rfl
  | 6, _ => rw [w rfl e3, hp _ (by decide)]; rfl
  | 7, _ => rw [w rfl e3, hp _ (by decide)]; rfl

theorem lane_frexpExpAvxD (v : M256) :
    ∃ e, frexpExpAvxD v = some e ∧ ∀ i, i < 4 → (Model.lane 32 e i).toInt = frexpE f64 (Model.lane 64 v i) := by
  refine ⟨_, rfl, fun i hi => ?_⟩
  rw [lane_andnot _ _ (by omega), lane_castMask4 (fun j hj => lane_vFEq0 .double v (by omega)) hi, lane_shufflePs _ _ _ hi]
  have lo : ∀ q, q < 2 → ∃ a : BitVec 32, a.toNat = fmag f64 (Model.lane 64 v q) / 2 ^ f64.m ∧
      Model.lane 32 (subEpi 32 (srliEpi 64 (lo128 (v &&& avxDouble.expMask)) 52) (set1 64 0x3fe#64)) (2 * q) =
        a - 0x3fe#32 := by
    intro q hq
    refine ⟨_, toNat_field64 (Model.lane 64 v q), ?_⟩
    unfold subEpi srliEpi
    rw [lane_map2 _ _ _ (by omega), lane_lo32, lane_map1 _ _ (by omega), lane_lo128 (k := 2) rfl _ hq, lane_and,
      Platform.avxDouble.expMask (by omega), lane_lo32, lane_set1 _ (by omega)]
    rfl
  have hi' : ∀ q, q < 2 → ∃ a : BitVec 32, a.toNat = fmag f64 (Model.lane 64 v (2 + q)) / 2 ^ f64.m ∧
      Model.lane 32 (subEpi 32 (srliEpi 64 (hi128 (v &&& avxDouble.expMask)) 52) (set1 64 0x3fe#64)) (2 * q) =
        a - 0x3fe#32 := by
    intro q hq
    refine ⟨_, toNat_field64 (Model.lane 64 v (2 + q)), ?_⟩
    unfold subEpi srliEpi
    rw [lane_map2 _ _ _ (by omega), lane_lo32, lane_map1 _ _ (by omega), lane_hi128 (k := 2) rfl _ hq, lane_and,
      Platform.avxDouble.expMask (by omega), lane_lo32, lane_set1 _ (by omega)]
    rfl
  have s := sel4_pack (d0 := 0) (d1 := 2) (d2 := 10 - 8 - 2) (d3 := 2) (by decide)
  match i, hi with
  | 0, _ =>
    obtain ⟨a, ha, e⟩ := lo 0 (by decide)
    exact (congrArg (fun z => (~~~laneMask _ &&& z).toInt) e).trans (expLane .double _ ha rfl)
  | 1, _ =>
    obtain ⟨a, ha, e⟩ := lo 1 (by decide)
    exact (congrArg (fun z => (~~~laneMask _ &&& z).toInt) e).trans (expLane .double _ ha rfl)
  | 2, _ =>
    obtain ⟨a, ha, e⟩ := hi' 0 (by decide)
    exact (congrArg (fun z => (~~~laneMask _ &&& z).toInt) e).trans (expLane .double _ ha rfl)
  | 3, _ =>
    obtain ⟨a, ha, e⟩ := hi' 1 (by decide)
    exact (congrArg (fun z => (~~~laneMask _ &&& z).toInt) e).trans (expLane .double _ ha rfl)

theorem lane_frexpExpAvxF (avx2 : Bool) (v : M256) {i : Nat} (hi : i < 8) :
    (Model.lane 32 (frexpExpAvxF avx2 v) i).toInt = frexpE f32 (Model.lane 32 v i) := by
  unfold frexpExpAvxF
  have hr : 32 * (i + 1) ≤ 256 := by omega
  rw [lane_andnot _ _ hr, lane_vFEq0 .single v hr]
  have e1 := lane_avx1 (w := 32) (k := 4) rfl (· >>> 23) avx2 (v &&& avxFloat.expMask) (i := i) (by omega)
  have e2 : ∀ y : M256, Model.lane 32 (avx1 avx2 (fun x => subEpi 32 x (set1 32 0x7e#32))
      (fun x => subEpi 32 x (set1 32 0x7e#32)) y) i = Model.lane 32 y i - 0x7e#32 := by
    intro y
    unfold avx1
    cases avx2
    · rw [if_neg (by decide)]
      have hs : ∀ (a : M128) (j : Nat), j < 4 →
          Model.lane 32 (subEpi 32 a (set1 32 0x7e#32)) j = (fun z => z - 0x7e#32) (Model.lane 32 a j) := by
        intro a j hj
        unfold subEpi
        rw [lane_map2 _ _ _ (by omega), lane_set1 _ (by omega)]
      exact lane_split1 (w := 32) (k := 4) (f := fun x => subEpi 32 x (set1 32 0x7e#32)) (g := fun z => z - 0x7e#32) rfl hs y
        (by omega)
    · show Model.lane 32 (subEpi 32 y (set1 32 0x7e#32)) i = _
      unfold subEpi
      rw [lane_map2 _ _ _ hr, lane_set1 _ hr]
  rw [e2]
  have e1' : Model.lane 32 (avx1 avx2 (fun x => srliEpi 32 x 23) (fun x => srliEpi 32 x 23) (v &&& avxFloat.expMask)) i =
      Model.lane 32 (v &&& avxFloat.expMask) i >>> 23 := e1
  rw [e1', lane_and, Platform.avxFloat.expMask hr]
  exact expLane .single _ (toNat_field .single _) rfl

/-- The shuffles of SimdArray<double, 8> collect the even int lanes. -/
theorem lane_even8 (lo hi : M256) {i : Nat} (h : i < 8) :
    Model.lane 32 (concat128
      (unpacklo 64 (lo128 (unpacklo256 32 (unpacklo256 32 lo hi) (unpackhi256 32 lo hi)))
        (hi128 (unpacklo256 32 (unpacklo256 32 lo hi) (unpackhi256 32 lo hi))))
      (unpackhi 64 (lo128 (unpacklo256 32 (unpacklo256 32 lo hi) (unpackhi256 32 lo hi)))
        (hi128 (unpacklo256 32 (unpacklo256 32 lo hi) (unpackhi256 32 lo hi))))) i =
      if i < 4 then Model.lane 32 lo (2 * i) else Model.lane 32 hi (2 * (i - 4)) := by
  have ht : ∀ j, j < 8 → Model.lane 32 (unpacklo256 32 (unpacklo256 32 lo hi) (unpackhi256 32 lo hi)) j =
      if j % 4 < 2 then Model.lane 32 lo (4 * (j / 4) + 2 * (j % 2)) else Model.lane 32 hi (4 * (j / 4) + 2 * (j % 2)) := by
    intro j hj
    match j, hj with
    | 0, _ => rw [lane_unpacklo256_32 _ _ (by decide)]; exact lane_unpacklo256_32 lo hi (i := 0) (by decide)
    | 1, _ => rw [lane_unpacklo256_32 _ _ (by decide)]; exact lane_unpackhi256_32 lo hi (i := 0) (by decide)
    | 2, _ => rw [lane_unpacklo256_32 _ _ (by decide)]; exact lane_unpacklo256_32 lo hi (i := 1) (by decide)
    | 3, _ => rw [lane_unpacklo256_32 _ _ (by decide)]; exact lane_unpackhi256_32 lo hi (i := 1) (by decide)
    | 4, _ => rw [lane_unpacklo256_32 _ _ (by decide)]; exact lane_unpacklo256_32 lo hi (i := 4) (by decide)
    | 5, _ => rw [lane_unpacklo256_32 _ _ (by decide)]; exact lane_unpackhi256_32 lo hi (i := 4) (by decide)
    | 6, _ => rw [lane_unpacklo256_32 _ _ (by decide)]; exact lane_unpacklo256_32 lo hi (i := 5) (by decide)
    | 7, _ => rw [lane_unpacklo256_32 _ _ (by decide)]; exact lane_unpackhi256_32 lo hi (i := 5) (by decide)
  generalize unpacklo256 32 (unpacklo256 32 lo hi) (unpackhi256 32 lo hi) = t at *
  have l0 : ∀ j, j < 4 → Model.lane 32 (lo128 t) j = Model.lane 32 t j := fun j hj => lane_lo128 (k := 4) rfl t hj
  have l1 : ∀ j, j < 4 → Model.lane 32 (hi128 t) j = Model.lane 32 t (4 + j) := fun j hj => lane_hi128 (k := 4) rfl t hj
  have u0 := lane_unpacklo (w := 64) (lo128 t) (hi128 t) (i := 0) (by decide)
  have u1 := lane_unpacklo (w := 64) (lo128 t) (hi128 t) (i := 1) (by decide)
  have u2 := lane_unpackhi (w := 64) (lo128 t) (hi128 t) (i := 0) (by decide)
  have u3 := lane_unpackhi (w := 64) (lo128 t) (hi128 t) (i := 1) (by decide)
  rw [lane_concat128 (w := 32) (k := 4) rfl _ _ (by omega)]
  match i, h with
  | 0, _ => exact ((lane_of_wide 32 2 (by decide) rfl u0).trans (l0 0 (by decide))).trans (ht 0 (by decide))
  | 1, _ => exact ((lane_of_wide 32 2 (by decide) rfl u0).trans (l0 1 (by decide))).trans (ht 1 (by decide))
  | 2, _ => exact ((lane_of_wide 32 2 (by decide) rfl u1).trans (l1 0 (by decide))).trans (ht 4 (by decide))
  | 3, _ => exact ((lane_of_wide 32 2 (by decide) rfl u1).trans (l1 1 (by decide))).trans (ht 5 (by decide))
  | 4, _ => exact ((lane_of_wide 32 2 (by decide) rfl u2).trans (l0 2 (by decide))).trans (ht 2 (by decide))
  | 5, _ => exact ((lane_of_wide 32 2 (by decide) rfl u2).trans (l0 3 (by decide))).trans (ht 3 (by decide))
  | 6, _ => exact ((lane_of_wide 32 2 (by decide) rfl u3).trans (l1 2 (by decide))).trans (ht 6 (by decide))
  | 7, _ => exact ((lane_of_wide 32 2 (by decide) rfl u3).trans (l1 3 (by decide))).trans (ht 7 (by decide))

theorem lane_frexpExpAvx2D8 (v0 v1 : M256) :
    ∃ e, frexpExpAvx2D8 v0 v1 = some e ∧ ∀ i, i < 8 → (Model.lane 32 e i).toInt =
      frexpE f64 (if i < 4 then Model.lane 64 v0 i else Model.lane 64 v1 (i - 4)) := by
  obtain ⟨z, hz, hm⟩ := lane_castMask44 (k0 := vFEq f64 64 v0 0#256) (k1 := vFEq f64 64 v1 0#256)
    (fun i hi => lane_vFEq0 .double v0 (by omega)) (fun i hi => lane_vFEq0 .double v1 (by omega))
  have hx : ∀ (v : M256) (i : Nat), i < 4 → ∃ a : BitVec 32, a.toNat = fmag f64 (Model.lane 64 v i) / 2 ^ f64.m ∧
      Model.lane 32 (subEpi 32 (srliEpi 64 (v &&& avxDouble.expMask) 52) (set1 32 0x3fe#32)) (2 * i) = a - 0x3fe#32 := by
    intro v i hi
    have hr : 64 * (i + 1) ≤ 256 := by omega
    exact lane_exp64 v avxDouble.expMask (set1 32 0x3fe#32) hr (Platform.avxDouble.expMask hr)
      (lane_set1 _ (show 32 * (2 * i + 1) ≤ 256 by omega))
  unfold frexpExpAvx2D8
  rw [hz]
  refine ⟨_, rfl, fun i hi => ?_⟩
  rw [lane_andnot _ _ (by omega), hm i hi, lane_even8 _ _ hi]
  by_cases h : i < 4
  · obtain ⟨a, ha, e⟩ := hx v0 i h
    simp only [h, if_true]
    rw [e]
    exact expLane .double _ ha rfl
  · obtain ⟨a, ha, e⟩ := hx v1 (i - 4) (by omega)
    simp only [h, if_false]
    rw [e]
    exact expLane .double _ ha rfl

end Vc.Lemma
