import Verif.Lemma.TrigSign
import Verif.Lemma.FloatReal2
import Mathlib.Analysis.Real.Pi.Bounds

/-!
C74: symmetry, special values and consistency of `sin`, `cos` and `sincos`.
-/

namespace Vc.Prop
open Vc.Model Vc.Spec Vc.Lemma

/-- The versions of `sin` and `cos` of double vectors. -/
inductive TrigD : (n : Nat) → TrigEnv n → Prop
  | sse (I : Isa) : TrigD 128 (trigSseD I)
  | avx : TrigD 256 trigAvxD

/-- The versions of `sin` and `cos` of float vectors. -/
inductive TrigF : (n : Nat) → TrigEnvF n → Prop
  | sse (I : Isa) : TrigF 128 (trigSseF I)
  | avx (B : CmpBuild) : TrigF 256 (trigAvxF B)

theorem roundD42 : roundDSse sse42 = fRound f64 .nearest := by
  funext v
  have h : sse42.sse41 = true := rfl
  unfold roundDSse
  rw [if_pos h]

theorem roundF42 : roundFSse sse42 = fRound f32 .nearest := by
  funext v
  have h : sse42.sse41 = true := rfl
  unfold roundFSse
  rw [if_pos h]

theorem TrigD.ok {n : Nat} {E : TrigEnv n} (h : TrigD n E) : 64 ∣ n ∧ ∃ I, TrigOk E f64 64 (roundDSse I) := by
  cases h with
  | sse I => exact ⟨⟨2, rfl⟩, I, trigOk_sseD I⟩
  | avx => exact ⟨⟨4, rfl⟩, sse42, roundD42 ▸ trigOk_avxD⟩

theorem TrigF.ok {n : Nat} {E : TrigEnvF n} (h : TrigF n E) : ∃ c I, CastOk E c ∧ TrigD n E.D ∧
    TrigOk E.toTrigEnv f32 32 (roundFSse I) ∧ TrigOk E.D f64 64 (roundDSse I) ∧ E.roundD = roundDSse I := by
  cases h with
  | sse I => exact ⟨2, I, castOk_sse I, .sse I, trigOk_sseF I, trigOk_sseD I, rfl⟩
  | avx B => exact ⟨4, sse42, castOk_avx B, .avx, roundF42 ▸ trigOk_avxF B, roundD42 ▸ trigOk_avxD, roundD42.symm⟩

/-! ### Symmetry -/

theorem abs_flip {n w : Nat} {E : TrigEnv n} {F : Fmt} {r : BitVec w → BitVec w} (hE : TrigOk E F w r) (hd : w ∣ n) {g : BitVec n}
    (hg : SignPattern w g) (x : BitVec n) : vFAbs E.K (x ^^^ g) = vFAbs E.K x := by
  refine reg_ext w hE.pos hd fun i hi => ?_
  have hi : w * (i + 1) ≤ n := by
    obtain ⟨c, rfl⟩ := hd
    rw [Nat.mul_div_cancel_left _ hE.pos] at hi
    exact Nat.mul_le_mul_left _ hi
  rw [hE.abs _ _ hi, hE.abs _ _ hi, lane_xor]
  rcases signPattern_lane hE.pos hg hi with e | e
  · rw [e, BitVec.xor_zero]
  · rw [e, absL_flip hE.pos]

theorem in_range {w n i : Nat} (hw : 0 < w) (hd : w ∣ n) (hi : i < n / w) : w * (i + 1) ≤ n := by
  obtain ⟨c, rfl⟩ := hd
  rw [Nat.mul_div_cancel_left _ hw] at hi
  exact Nat.mul_le_mul_left _ hi

/-- Double: changing the signs of some entries changes the same signs of the sine, and nothing else; the cosine is the
same, bit by bit.  For all arguments, NaN and infinities included. -/
theorem C74_symmetry_double {n : Nat} {E : TrigEnv n} (h : TrigD n E) (x : BitVec n) {g : BitVec n} (hg : SignPattern 64 g) :
    vSinD E (x ^^^ g) = vSinD E x ^^^ g ∧ vCosD E (x ^^^ g) = vCosD E x := by
  obtain ⟨hd, I, hE⟩ := h.ok
  have ea := abs_flip hE hd hg x
  have ef : vFoldD E (x ^^^ g) = vFoldD E x := by
    unfold vFoldD
    rw [ea]
  constructor
  · refine reg_ext 64 (by decide) hd fun i hi => ?_
    have hi := in_range (by decide) hd hi
    unfold vSinD
    simp only
    rw [ef, lane_xor, lane_trigSin hE _ _ _ _ _ _ _ hi, lane_trigSin hE _ _ _ _ _ _ _ hi, lane_xor]
    rcases signPattern_lane (by decide) hg hi with e | e
    · rw [e, BitVec.xor_zero, BitVec.xor_zero]
    · rw [e]
      exact trigSinL_flip _ _ _ _ _ _
  · unfold vCosD
    rw [ef]

/-- Witness: one of two signs is changed. -/
example : TrigD 128 (trigSseD sse42) ∧ SignPattern 64 (0x80000000000000000000000000000000#128) ∧
    lane 64 (0x80000000000000000000000000000000#128) 1 = 0x8000000000000000#64 :=
  ⟨.sse _, signPattern_of (by decide) (by decide) (fun i hi => by
    rcases (show i = 0 ∨ i = 1 by omega) with e | e <;> subst e <;> decide), by decide⟩

theorem trigLarge_flip {n : Nat} {E : TrigEnvF n} {r : BitVec 32 → BitVec 32} (hE : TrigOk E.toTrigEnv f32 32 r)
    (hd : 32 ∣ n) {g : BitVec n} (hg : SignPattern 32 g) (l : BitVec 32) (x : BitVec n) :
    trigLarge E l (x ^^^ g) = trigLarge E l x := by
  unfold trigLarge; rw [abs_flip hE hd hg]

/-- Float, the same. -/
theorem C74_symmetry_float {n : Nat} {E : TrigEnvF n} (h : TrigF n E) (x : BitVec n) {g : BitVec n} (hg : SignPattern 32 g) :
    vSinF E (x ^^^ g) = vSinF E x ^^^ g ∧ vCosF E (x ^^^ g) = vCosF E x := by
  obtain ⟨c, I, hC, hD, hE, -, -⟩ := h.ok
  have hs := hC.size
  have hd : 32 ∣ n := ⟨2 * c, by omega⟩
  have hd64 : 64 ∣ n := ⟨c, hs.symm⟩
  have ef : vFoldF E.toTrigEnv E.roundD (x ^^^ g) = vFoldF E.toTrigEnv E.roundD x := by
    unfold vFoldF
    rw [abs_flip hE hd hg]
  have small : vSinSmallF E (x ^^^ g) = vSinSmallF E x ^^^ g ∧ vCosSmallF E (x ^^^ g) = vCosSmallF E x := by
    constructor
    · refine reg_ext 32 (by decide) hd fun i hi => ?_
      have hi := in_range (by decide) hd hi
      unfold vSinSmallF
      simp only
      rw [ef, lane_xor, lane_trigSin hE _ _ _ _ _ _ _ hi, lane_trigSin hE _ _ _ _ _ _ _ hi, lane_xor]
      rcases signPattern_lane (by decide) hg hi with e | e
      · rw [e, BitVec.xor_zero, BitVec.xor_zero]
      · rw [e]
        exact trigSinL_flip _ _ _ _ _ _
    · unfold vCosSmallF
      rw [ef]
  have gl : ∀ j, j < 2 * c → lane 32 g j = 0#32 ∨ lane 32 g j = sgn 32 := fun j hj =>
    signPattern_lane (by decide) hg (by omega)
  -- the casts
  have cst : ∀ j, j < 2 * c → cvtF2F f32 f64 64 (lane 32 (x ^^^ g) j) =
      cvtF2F f32 f64 64 (lane 32 x j) ^^^ (if lane 32 g j = 0#32 then 0#64 else sgn 64) := by
    intro j hj
    rw [lane_xor]
    rcases gl j hj with e | e
    · rw [e, if_pos rfl, BitVec.xor_zero, BitVec.xor_zero]
    · rw [e, if_neg (by decide), cvtF2F_flip .single .double]
  have half : ∀ f : BitVec n → BitVec n, ∀ o, o ≤ c → (∀ y i, i < c → lane 64 (f y) i = cvtF2F f32 f64 64 (lane 32 y (o + i))) →
      ∃ G : BitVec n, SignPattern 64 G ∧ f (x ^^^ g) = f x ^^^ G ∧
        ∀ i, i < c → lane 64 G i = if lane 32 g (o + i) = 0#32 then 0#64 else sgn 64 := by
    intro f o ho hf
    have hl : ∀ i, i < c → lane 64 (f (x ^^^ g) ^^^ f x) i = if lane 32 g (o + i) = 0#32 then 0#64 else sgn 64 := by
      intro i hi
      rw [lane_xor, hf _ _ hi, hf _ _ hi, cst _ (by omega), BitVec.xor_comm, ← BitVec.xor_assoc, BitVec.xor_self,
        BitVec.zero_xor]
    refine ⟨f (x ^^^ g) ^^^ f x, signPattern_of (by decide) hd64 (fun i hi => ?_), ?_, hl⟩
    · rw [hl i (by omega)]
      split
      · exact .inl rfl
      · exact .inr rfl
    · rw [BitVec.xor_comm (f (x ^^^ g)), ← BitVec.xor_assoc, BitVec.xor_self, BitVec.zero_xor]
  obtain ⟨G0, p0, e0, l0⟩ := half E.lo 0 (by omega) (fun y i hi => by rw [hC.lo _ _ hi, Nat.zero_add])
  obtain ⟨G1, p1, e1, l1⟩ := half E.hi c (by omega) (fun y i hi => hC.hi _ _ hi)
  have join : ∀ a b : BitVec n, E.join (a ^^^ G0) (b ^^^ G1) = E.join a b ^^^ g := by
    intro a b
    refine reg_ext 32 (by decide) hd fun i hi => ?_
    have hi := in_range (by decide) hd hi
    rw [lane_xor, hC.join _ _ _ (by omega), hC.join _ _ _ (by omega)]
    by_cases hl : i < c
    · rw [if_pos hl, if_pos hl, lane_xor, l0 i hl, Nat.zero_add]
      rcases gl i (by omega) with e | e
      · rw [e, if_pos rfl, BitVec.xor_zero, BitVec.xor_zero]
      · rw [e, if_neg (by decide), cvtF2F_flip .double .single]
    · rw [if_neg hl, if_neg hl, lane_xor, l1 (i - c) (by omega), show c + (i - c) = i by omega]
      rcases gl i (by omega) with e | e
      · rw [e, if_pos rfl, BitVec.xor_zero, BitVec.xor_zero]
      · rw [e, if_neg (by decide), cvtF2F_flip .double .single]
  unfold vSinF vCosF
  rw [trigLarge_flip hE hd hg, trigLarge_flip hE hd hg, e0, e1, (C74_symmetry_double hD _ p0).1,
    (C74_symmetry_double hD _ p0).2, (C74_symmetry_double hD _ p1).1, (C74_symmetry_double hD _ p1).2, small.1, small.2, join]
  constructor
  · split <;> rfl
  · split <;> rfl

/-- Witness: the signs of the entries 1 and 3 are changed. -/
example : TrigF 128 (trigSseF sse42) ∧ SignPattern 32 (0x80000000000000008000000000000000#128) ∧
    lane 32 (0x80000000000000008000000000000000#128) 1 = 0x80000000#32 :=
  ⟨.sse _, signPattern_of (by decide) (by decide) (fun i hi => by
    rcases (show i = 0 ∨ i = 1 ∨ i = 2 ∨ i = 3 by omega) with e | e | e | e <;> subst e <;> decide), by decide⟩

/-! ### `sincos` -/

/-- Double: `sincos` gives the results of `sin` and `cos`. -/
theorem C74_sincos_double {n : Nat} {E : TrigEnv n} (h : TrigD n E) (x : BitVec n) :
    vSincosD E x = (vSinD E x, vCosD E x) := by
  have _ := h
  unfold vSincosD vSinD vCosD
  rfl

theorem geL (B : CmpBuild) {v l : BitVec 32} (hl : isNaN f32 l = false) :
    ∃ b : Bool, (∀ {n : Nat} (x y : BitVec n) (i : Nat), 32 * (i + 1) ≤ n → lane 32 x i = v → lane 32 y i = l →
      lane 32 (vFGe B f32 32 x y) i = laneMask b) ∧
      (isNaN f32 v = false → b = decide (fval f32 l ≤ fval f32 v)) ∧ (isNaN f32 v = true → (b = true ↔ B ≠ .avxGcc)) := by
  cases B with
  | sse =>
    refine ⟨!fLt f32 v l, fun x y i hi ex ey => ?_, fun hv => ?_, fun hv => ?_⟩
    · unfold vFGe; simp only; rw [lane_map2 _ _ _ hi, ex, ey]
    · unfold fLt; rw [hv, hl]; simp only [Bool.not_false, Bool.true_and]
      rw [← decide_not]; simp only [Int.not_lt]
    · unfold fLt; rw [hv]; simp
  | avxGcc =>
    refine ⟨fLe f32 l v, fun x y i hi ex ey => ?_, fun hv => ?_, fun hv => ?_⟩
    · unfold vFGe; simp only; rw [lane_map2 _ _ _ hi, ex, ey]
    · unfold fLe; rw [hv, hl]; rfl
    · unfold fLe; rw [hv]; simp
  | avx =>
    refine ⟨!fLt f32 v l, fun x y i hi ex ey => ?_, fun hv => ?_, fun hv => ?_⟩
    · unfold vFGe; simp only; rw [lane_map2 _ _ _ hi, ex, ey]
    · unfold fLt; rw [hv, hl]; simp only [Bool.not_false, Bool.true_and]
      rw [← decide_not]; simp only [Int.not_lt]
    · unfold fLt; rw [hv]; simp

/-- When the double version is used. -/
theorem trigLarge_iff {n : Nat} {E : TrigEnvF n} {r : BitVec 32 → BitVec 32} (hE : TrigOk E.toTrigEnv f32 32 r) (x : BitVec n)
    {l : BitVec 32} (hl : isNaN f32 l = false) : trigLarge E l x = true ↔ ∃ i, 32 * (i + 1) ≤ n ∧
      if isNaN f32 (lane 32 x i) = true then E.B ≠ .avxGcc else fval f32 l ≤ ((fval f32 (lane 32 x i)).natAbs : Int) := by
  unfold trigLarge
  choose b h1 h2 h3 using fun i => geL E.B (v := absL (lane 32 x i)) hl
  rw [hE.any _ b (isMask_of fun i hi => h1 i _ _ i hi (hE.abs _ _ hi) (lane_set1 _ hi))]
  refine exists_congr fun i => and_congr_right fun hi => ?_
  cases hn : isNaN f32 (lane 32 x i) with
  | true =>
    rw [h3 i (by rw [isNaN_absL .single, hn]), if_pos rfl]
  | false =>
    rw [h2 i (by rw [isNaN_absL .single, hn]), if_neg (by decide), fval_absL .single, decide_eq_true_iff]

theorem limits : isNaN f32 limitSin = false ∧ isNaN f32 limitCos = false ∧
    fval f32 limitSin = ((527449 * 2 ^ oneExp f32 : Nat) : Int) ∧ fval f32 limitCos = ((393382 * 2 ^ oneExp f32 : Nat) : Int) := by
  decide +kernel

/-- Float: the second result of `sincos` is that of `cos`; the first is that of `sin` if all entries are less than 393382
in magnitude (or NaN), or one is at least 527449.  Missing: vectors whose greatest entry lies between
(`C74_sincos_float_violated`). -/
theorem C74_sincos_float_partial {n : Nat} {E : TrigEnvF n} (h : TrigF n E) (x : BitVec n) :
    (vSincosF E x).2 = vCosF E x ∧
    ((∀ i, 32 * (i + 1) ≤ n → isNaN f32 (lane 32 x i) = true ∨
        (fval f32 (lane 32 x i)).natAbs < 393382 * 2 ^ oneExp f32) ∨
      (∃ i, 32 * (i + 1) ≤ n ∧ isNaN f32 (lane 32 x i) = false ∧
        527449 * 2 ^ oneExp f32 ≤ (fval f32 (lane 32 x i)).natAbs) →
      (vSincosF E x).1 = vSinF E x) := by
  obtain ⟨c, I, hC, hD, hE, -, -⟩ := h.ok
  obtain ⟨n1, n2, v1, v2⟩ := limits
  have i1 := trigLarge_iff hE x n1
  have i2 := trigLarge_iff hE x n2
  rw [v1] at i1
  rw [v2] at i2
  simp only [Nat.cast_le] at i1 i2
  have hp : 0 < 2 ^ oneExp f32 := Nat.two_pow_pos _
  generalize 2 ^ oneExp f32 = P at i1 i2 hp ⊢
  constructor
  · unfold vSincosF vCosF
    cases trigLarge E limitCos x <;> rfl
  · intro hc
    have key : trigLarge E limitCos x = trigLarge E limitSin x := by
      rw [Bool.eq_iff_iff, i1, i2]
      rcases hc with hc | ⟨j, hj, hn, hv⟩
      · refine exists_congr fun i => and_congr_right fun hi => ?_
        cases hn : isNaN f32 (lane 32 x i) with
        | true => rfl
        | false =>
          have h2 := (hc i hi).resolve_left (by rw [hn]; decide)
          rw [if_neg (by decide), if_neg (by decide)]
          constructor
          · intro h; omega
          · intro h; omega
      · refine ⟨fun _ => ⟨j, hj, ?_⟩, fun _ => ⟨j, hj, ?_⟩⟩
        · rw [hn, if_neg (by decide)]; exact hv
        · rw [hn, if_neg (by decide)]; omega
    unfold vSincosF vSinF
    rw [key]
    cases trigLarge E limitSin x <;> rfl

/-- Witness: both cases occur. -/
example : (fval f32 0x3f800000#32).natAbs < 393382 * 2 ^ oneExp f32 ∧ isNaN f32 0x49800000#32 = false ∧
    527449 * 2 ^ oneExp f32 ≤ (fval f32 0x49800000#32).natAbs := by decide +kernel

/-- The mode of a vector of equal doubles. -/
def modeOfD (rnd : BitVec 64 → BitVec 64) (a : BitVec 64) : DMode :=
  if fLt f64 (absL a) pi4D then .near else if fLt f64 (absL a) midD then .mid
  else if fLe f64 (foldYD rnd (absL a)) 0x41d0000000000000#64 then .far else .huge

theorem set1D {n : Nat} {E : TrigEnv n} {rnd : BitVec 64 → BitVec 64} (hE : TrigOk E f64 64 rnd) (a : BitVec 64) {i : Nat}
    (hi : 64 * (i + 1) ≤ n) : lane 64 (vSinD E (set1 64 a)) i = sinDL rnd (modeOfD rnd a) a ∧
      lane 64 (vCosD E (set1 64 a)) i = cosDL rnd (modeOfD rnd a) a := by
  obtain ⟨m, hm, h⟩ := lane_vSinCosD hE (set1 64 a)
  obtain ⟨h1, h2⟩ := h i hi
  have hl : ∀ i, 64 * (i + 1) ≤ n → lane 64 (set1 64 a : BitVec n) i = a := fun i hi => lane_set1 _ hi
  have em : m = modeOfD rnd a := by
    unfold modeOfD
    cases m with
    | near =>
      have := hm i hi
      rw [hl i hi] at this
      rw [if_pos this]
    | mid =>
      obtain ⟨⟨j, hj, e⟩, f⟩ := hm
      have f := f i hi
      rw [hl _ hj] at e
      rw [hl _ hi] at f
      rw [if_neg (by rw [e]; decide), if_pos f]
    | far =>
      obtain ⟨⟨j, hj, e⟩, ⟨k, hk, e'⟩, f⟩ := hm
      have f := f i hi
      rw [hl _ hj] at e
      rw [hl _ hk] at e'
      rw [hl _ hi] at f
      rw [if_neg (by rw [e']; decide), if_neg (by rw [e]; decide), if_pos f]
    | huge =>
      obtain ⟨⟨l, hl', f⟩, ⟨j, hj, e⟩, ⟨k, hk, e'⟩⟩ := hm
      rw [hl _ hj] at e
      rw [hl _ hk] at e'
      rw [hl _ hl'] at f
      rw [if_neg (by rw [e']; decide), if_neg (by rw [e]; decide), if_neg (by rw [f]; decide)]
  rw [h1, h2, hl i hi, em]
  exact ⟨rfl, rfl⟩

/-- The mode of a vector of equal floats. -/
def modeOfF (a : BitVec 32) : FMode :=
  if fLt f32 (absL a) pi4F then .near else if fLt f32 (absL a) midF then .mid else .far

theorem set1F {n : Nat} {E : TrigEnvF n} {rnd : BitVec 32 → BitVec 32} (hE : TrigOk E.toTrigEnv f32 32 rnd) (a : BitVec 32)
    {i : Nat} (hi : 32 * (i + 1) ≤ n) : lane 32 (vSinSmallF E (set1 32 a)) i = sinFL rnd E.roundD (modeOfF a) a ∧
      lane 32 (vCosSmallF E (set1 32 a)) i = cosFL rnd E.roundD (modeOfF a) a := by
  obtain ⟨m, hm, h⟩ := lane_vSinCosSmallF hE (set1 32 a)
  obtain ⟨h1, h2⟩ := h i hi
  have hl : ∀ i, 32 * (i + 1) ≤ n → lane 32 (set1 32 a : BitVec n) i = a := fun i hi => lane_set1 _ hi
  have em : m = modeOfF a := by
    unfold modeOfF
    cases m with
    | near =>
      have := hm i hi
      rw [hl i hi] at this
      rw [if_pos this]
    | mid =>
      obtain ⟨⟨j, hj, e⟩, f⟩ := hm
      have f := f i hi
      rw [hl _ hj] at e
      rw [hl _ hi] at f
      rw [if_neg (by rw [e]; decide), if_pos f]
    | far =>
      obtain ⟨⟨j, hj, e⟩, ⟨k, hk, e'⟩⟩ := hm
      rw [hl _ hj] at e
      rw [hl _ hk] at e'
      rw [if_neg (by rw [e']; decide), if_neg (by rw [e]; decide)]
  rw [h1, h2, hl i hi, em]
  exact ⟨rfl, rfl⟩

/-- With AVX and with SSE4.1: -/
inductive TrigF42 : (n : Nat) → TrigEnvF n → Prop
  | sse : TrigF42 128 (trigSseF sse42)
  | avx (B : CmpBuild) : TrigF42 256 (trigAvxF B)

theorem TrigF42.ok {n : Nat} {E : TrigEnvF n} (h : TrigF42 n E) : ∃ c, 2 ≤ c ∧ CastOk E c ∧
    TrigOk E.toTrigEnv f32 32 (fRound f32 .nearest) ∧ TrigOk E.D f64 64 (fRound f64 .nearest) ∧
    E.roundD = fRound f64 .nearest := by
  cases h with
  | sse => exact ⟨2, by decide, castOk_sse _, roundF42 ▸ trigOk_sseF sse42, roundD42 ▸ trigOk_sseD sse42, roundD42⟩
  | avx B => exact ⟨4, by decide, castOk_avx B, trigOk_avxF B, trigOk_avxD, rfl⟩

/-- Double vectors with AVX and with SSE4.1. -/
inductive TrigD42 : (n : Nat) → TrigEnv n → Prop
  | sse : TrigD42 128 (trigSseD sse42)
  | avx : TrigD42 256 trigAvxD

theorem TrigD42.ok {n : Nat} {E : TrigEnv n} (h : TrigD42 n E) : 128 ≤ n ∧ TrigOk E f64 64 (fRound f64 .nearest) := by
  cases h with
  | sse => exact ⟨by decide, roundD42 ▸ trigOk_sseD sse42⟩
  | avx => exact ⟨by decide, trigOk_avxD⟩

/-- The sine `sincos` gives is not that of `sin`: the argument is 452832.8125. -/
theorem C74_sincos_float_violated {n : Nat} {E : TrigEnvF n} (h : TrigF42 n E) :
    lane 32 (vSinF E (set1 32 0x48dd1c1a#32)) 0 = 0xbef81386#32 ∧
      lane 32 (vSincosF E (set1 32 0x48dd1c1a#32)).1 0 = 0xbef81387#32 := by
  obtain ⟨c, hc, hC, hE, hD, hr⟩ := h.ok
  have hs := hC.size
  obtain ⟨n1, n2, v1, v2⟩ := limits
  have l1 : trigLarge E limitSin (set1 32 0x48dd1c1a#32) = false := by
    rw [Bool.eq_false_iff]
    intro ht
    obtain ⟨i, hi, hh⟩ := (trigLarge_iff hE _ n1).mp ht
    rw [lane_set1 _ hi, if_neg (by decide)] at hh
    exact absurd hh (by decide +kernel)
  have l2 : trigLarge E limitCos (set1 32 0x48dd1c1a#32) = true := by
    rw [trigLarge_iff hE _ n2]
    refine ⟨0, by omega, ?_⟩
    rw [lane_set1 _ (by omega), if_neg (by decide)]
    decide +kernel
  constructor
  · unfold vSinF
    rw [l1, if_neg (by decide), (set1F hE _ (by omega)).1, hr]
    decide +kernel
  · unfold vSincosF
    rw [l2, if_pos rfl]
    simp only
    have e : E.lo (set1 32 0x48dd1c1a#32) = set1 64 (cvtF2F f32 f64 64 0x48dd1c1a#32) := by
      refine reg_ext 64 (by decide) ⟨c, hs.symm⟩ fun i hi => ?_
      have hi := in_range (by decide) ⟨c, hs.symm⟩ hi
      rw [hC.lo _ _ (by omega), lane_set1 _ (by omega), lane_set1 _ hi]
    rw [hC.join _ _ _ (by omega), if_pos (by omega), e]
    show cvtF2F f64 f32 32 (lane 64 (vSinD E.D _) 0) = _
    rw [(set1D hD _ (by omega)).1]
    decide +kernel

/-! ### Special values -/

/-- NaN gives NaN, whatever the other entries are. -/
theorem C74_nan {n : Nat} {E : TrigEnv n} {n' : Nat} {E' : TrigEnvF n'} (h : TrigD n E) (h' : TrigF n' E') (x : BitVec n)
    (y : BitVec n') :
    (∀ i, 64 * (i + 1) ≤ n → isNaN f64 (lane 64 x i) = true →
      isNaN f64 (lane 64 (vSinD E x) i) = true ∧ isNaN f64 (lane 64 (vCosD E x) i) = true) ∧
    (∀ i, 32 * (i + 1) ≤ n' → isNaN f32 (lane 32 y i) = true →
      isNaN f32 (lane 32 (vSinF E' y) i) = true ∧ isNaN f32 (lane 32 (vCosF E' y) i) = true) := by
  have dl : ∀ rnd m v, isNaN f64 v = true → isNaN f64 (sinDL rnd m v) = true ∧ isNaN f64 (cosDL rnd m v) = true := by
    intro rnd m v hv
    exact endD_nan (foldDL_nan rnd m (by rw [isNaN_absL .double]; exact hv))
  constructor
  · intro i hi hx
    obtain ⟨-, I, hE⟩ := h.ok
    obtain ⟨m, -, h⟩ := lane_vSinCosD hE x
    rw [(h i hi).1, (h i hi).2]
    exact dl _ _ _ hx
  · intro i hi hx
    obtain ⟨c, I, hC, -, hE, hD, -⟩ := h'.ok
    obtain ⟨m, -, hs⟩ := lane_vSinCosSmallF hE y
    obtain ⟨hs1, hs2⟩ := hs i hi
    obtain ⟨m', -, j1, j2⟩ := lane_joinD hD hC y hi
    have w := dl (roundDSse I) m' (cvtF2F f32 f64 64 (lane 32 y i))
      (by rw [(cvtF2F_spec (F := f32) (G := f64) (v := 64) .double _).2.1]; exact hx)
    have sm := endF_nan (y := lane 32 y i) (foldFL_nan (roundFSse I) E'.roundD m (by rw [isNaN_absL .single]; exact hx))
    unfold vSinF vCosF
    constructor
    · split
      · rw [j1, (cvtF2F_spec (F := f64) (G := f32) (v := 32) .single _).2.1]
        exact w.1
      · rw [hs1]; exact sm.1
    · split
      · rw [j2, (cvtF2F_spec (F := f64) (G := f32) (v := 32) .single _).2.1]
        exact w.2
      · rw [hs2]; exact sm.2

/-- Witness: an entry that is NaN. -/
example : TrigD 256 trigAvxD ∧ TrigF 128 (trigSseF sse2) ∧ isNaN f64 (lane 64 (set1 64 0x7ff8000000000000#64 : M256) 3) = true ∧
    isNaN f32 (lane 32 (set1 32 0x7fc00000#32 : M128) 3) = true := by
  refine ⟨.avx, .sse _, ?_, ?_⟩ <;> rw [lane_set1 _ (by decide)] <;> decide

theorem zeroD {rnd : BitVec 64 → BitVec 64} (h0 : rnd 0#64 = 0#64) (m : DMode) :
    sinDL rnd m 0#64 = 0#64 ∧ cosDL rnd m 0#64 = 0x3ff0000000000000#64 ∧
    sinDL rnd m 0x8000000000000000#64 = 0x8000000000000000#64 ∧
    cosDL rnd m 0x8000000000000000#64 = 0x3ff0000000000000#64 := by
  have a0 : absL (0#64) = 0#64 := by decide
  have a1 : absL (0x8000000000000000#64) = 0#64 := by decide
  have e : fDiv f64 0#64 0x3ff921fb54442d18#64 = 0#64 := by decide +kernel
  have hy : foldYD rnd 0#64 = 0#64 := by unfold foldYD; rw [e, h0]
  have hf : foldDL rnd m 0#64 = (0#64, 0#64) := by
    unfold foldDL
    rw [hy]
    cases m
    · rfl
    · decide +kernel
    · decide +kernel
    · decide +kernel
  unfold sinDL cosDL
  rw [a0, a1, hf]
  decide +kernel

theorem zeroF {rnd : BitVec 32 → BitVec 32} {rndD : BitVec 64 → BitVec 64} (h0 : rnd 0#32 = 0#32) (h1 : rndD 0#64 = 0#64)
    (m : FMode) : sinFL rnd rndD m 0#32 = 0#32 ∧ cosFL rnd rndD m 0#32 = 0x3f800000#32 ∧
    sinFL rnd rndD m 0x80000000#32 = 0x80000000#32 ∧ cosFL rnd rndD m 0x80000000#32 = 0x3f800000#32 := by
  have a0 : absL (0#32) = 0#32 := by decide
  have a1 : absL (0x80000000#32) = 0#32 := by decide
  have e : fMul f32 0#32 0x3f22f983#32 = 0#32 := by decide +kernel
  have e' : fMul f64 (cvtF2F f32 f64 64 0#32) 0x3fe45f306dc9c883#64 = 0#64 := by decide +kernel
  have hy : foldYF rnd 0#32 = 0#32 := by unfold foldYF; rw [e, h0]
  have hf : foldFL rnd rndD m 0#32 = (0#32, 0#32) := by
    unfold foldFL
    cases m
    · rfl
    · simp only
      rw [hy]
      decide +kernel
    · unfold foldWideF
      simp only
      rw [e', h1]
      decide +kernel
  unfold sinFL cosFL
  rw [a0, a1, hf]
  decide +kernel

theorem round_zero (I : Isa) : roundDSse I 0#64 = 0#64 ∧ roundFSse I 0#32 = 0#32 := by
  unfold roundDSse roundFSse
  cases I.sse41 <;> decide +kernel

/-- The sine of a zero is that zero, sign included, and its cosine is 1, whatever the other entries are. -/
theorem C74_zero {n : Nat} {E : TrigEnv n} {n' : Nat} {E' : TrigEnvF n'} (h : TrigD n E) (h' : TrigF n' E') (x : BitVec n)
    (y : BitVec n') :
    (∀ i, 64 * (i + 1) ≤ n → fval f64 (lane 64 x i) = 0 →
      lane 64 (vSinD E x) i = lane 64 x i ∧ lane 64 (vCosD E x) i = 0x3ff0000000000000#64) ∧
    (∀ i, 32 * (i + 1) ≤ n' → fval f32 (lane 32 y i) = 0 →
      lane 32 (vSinF E' y) i = lane 32 y i ∧ lane 32 (vCosF E' y) i = 0x3f800000#32) := by
  have zero : ∀ {F : Fmt} {w : Nat}, FmtW F w → ∀ v : BitVec w, fval F v = 0 → v = 0#w ∨ v = sgn w := by
    intro F w hF v hv
    have hm : magVal F (fmag F v) = 0 := by
      have := natAbs_fval F v
      rw [hv] at this
      simpa using this.symm
    have hk : fmag F v = 0 := by
      unfold magVal at hm
      split at hm
      · exact hm
      · have := Nat.two_pow_pos F.m
        have h3 := Nat.two_pow_pos (fmag F v / 2 ^ F.m - 1)
        rcases Nat.mul_eq_zero.mp hm with h | h <;> omega
    have ⟨e, hp⟩ := hF.w_eq
    unfold fmag at hk
    rw [e] at hk
    have hlt := v.isLt
    have h2 : 2 ^ w = 2 * 2 ^ (w - 1) := by rw [← Nat.pow_succ']; congr 1; omega
    have hd := Nat.div_add_mod v.toNat (2 ^ (w - 1))
    rw [hk, Nat.add_zero] at hd
    have hq : v.toNat / 2 ^ (w - 1) < 2 := Nat.div_lt_of_lt_mul (by omega)
    rcases (show v.toNat / 2 ^ (w - 1) = 0 ∨ v.toNat / 2 ^ (w - 1) = 1 by generalize v.toNat / 2 ^ (w - 1) = q at hq; omega)
      with h | h
    · left
      apply BitVec.eq_of_toNat_eq
      rw [← hd, h]; simp
    · right
      apply BitVec.eq_of_toNat_eq
      unfold sgn
      rw [← hd, h, BitVec.toNat_ofNat, Nat.mul_one, Nat.mod_eq_of_lt]
      have := Nat.two_pow_pos (w - 1)
      omega
  constructor
  · intro i hi hx
    obtain ⟨-, I, hE⟩ := h.ok
    obtain ⟨m, -, h⟩ := lane_vSinCosD hE x
    rw [(h i hi).1, (h i hi).2]
    obtain ⟨z1, z2, z3, z4⟩ := zeroD (round_zero I).1 m
    rcases zero .double _ hx with e | e <;> rw [e]
    · exact ⟨z1, z2⟩
    · exact ⟨z3, z4⟩
  · intro i hi hx
    obtain ⟨c, I, hC, -, hE, hD, hr⟩ := h'.ok
    obtain ⟨m, -, hs⟩ := lane_vSinCosSmallF hE y
    obtain ⟨hs1, hs2⟩ := hs i hi
    obtain ⟨m', -, j1, j2⟩ := lane_joinD hD hC y hi
    obtain ⟨z1, z2, z3, z4⟩ := zeroD (round_zero I).1 m'
    obtain ⟨y1, y2, y3, y4⟩ := zeroF (round_zero I).2 (round_zero I).1 m
    have c0 : cvtF2F f32 f64 64 0#32 = 0#64 := by decide +kernel
    have c1 : cvtF2F f32 f64 64 (sgn 32) = 0x8000000000000000#64 := by decide +kernel
    have d0 : cvtF2F f64 f32 32 0#64 = 0#32 := by decide +kernel
    have d1 : cvtF2F f64 f32 32 0x8000000000000000#64 = sgn 32 := by decide +kernel
    have d2 : cvtF2F f64 f32 32 0x3ff0000000000000#64 = 0x3f800000#32 := by decide +kernel
    unfold vSinF vCosF
    rw [hr] at hs1 hs2
    rcases zero .single _ hx with e | e <;> rw [e] at hs1 hs2 j1 j2 ⊢
    · rw [c0, z1, d0] at j1
      rw [c0, z2, d2] at j2
      rw [y1] at hs1
      rw [y2] at hs2
      constructor
      · split
        · exact j1
        · exact hs1
      · split
        · exact j2
        · exact hs2
    · rw [c1, z3, d1] at j1
      rw [c1, z4, d2] at j2
      rw [show sgn 32 = 0x80000000#32 from rfl, y3] at hs1
      rw [show sgn 32 = 0x80000000#32 from rfl, y4] at hs2
      constructor
      · split
        · exact j1
        · exact hs1
      · split
        · exact j2
        · exact hs2

/-- Witness: a vector with a negative zero. -/
example : fval f64 (lane 64 (set1 64 0x8000000000000000#64 : M256) 3) = 0 ∧
    fval f32 (lane 32 (set1 32 0x80000000#32 : M128) 3) = 0 := by
  constructor <;> rw [lane_set1 _ (by decide)] <;> decide +kernel

theorem absL_inf {x : BitVec 64} (h : isInf f64 x = true) : absL x = 0x7ff0000000000000#64 := by
  apply BitVec.eq_of_toNat_eq
  have e : (BitVec.allOnes 64 >>> 1) = BitVec.ofNat 64 (2 ^ 63 - 1) := by decide +kernel
  have h := of_decide_eq_true h
  unfold fmag at h
  unfold absL
  rw [e, BitVec.toNat_and, BitVec.toNat_ofNat, Nat.mod_eq_of_lt (by decide), Nat.and_two_pow_sub_one_eq_mod]
  exact h.trans (by decide +kernel)

theorem infDL (I : Isa) {m : DMode} {x : BitVec 64} (h : isInf f64 x = true) (hm : ModeAtD m (absL x)) :
    isNaN f64 (sinDL (roundDSse I) m x) = true ∧ (I.sse41 = true → isNaN f64 (cosDL (roundDSse I) m x) = true) := by
  have e : 0x8000000000000000#64 = sgn 64 := rfl
  unfold sinDL cosDL sinEndD cosEndD trigSinL trigCosL
  rw [absL_inf h] at *
  rw [e, isNaN_sgn .double, isNaN_sgn .double]
  have hy : foldYD (roundDSse I) 0x7ff0000000000000#64 = if I.sse41 then 0x7ff0000000000000#64 else 0xc1e0000000000000#64 := by
    unfold foldYD roundDSse
    cases I.sse41 <;> decide +kernel
  cases m with
  | near => exact absurd (hm.1 rfl) (by decide +kernel)
  | mid => exact absurd (hm.2 rfl) (by decide +kernel)
  | far =>
    unfold foldDL
    simp only
    rw [hy]
    cases I.sse41 <;> decide +kernel
  | huge =>
    unfold foldDL
    simp only
    rw [hy]
    cases I.sse41 <;> decide +kernel

/-- Infinities: the sine is NaN, and with SSE4.1 or AVX the cosine, too.  Missing: the cosine without SSE4.1, which is
infinite (`C74_inf_violated`). -/
theorem C74_inf_partial {n : Nat} {E : TrigEnv n} {n' : Nat} {E' : TrigEnvF n'} (h : TrigD n E) (h' : TrigF n' E') (x : BitVec n)
    (y : BitVec n') :
    (∀ i, 64 * (i + 1) ≤ n → isInf f64 (lane 64 x i) = true →
      isNaN f64 (lane 64 (vSinD E x) i) = true ∧ (TrigD42 n E → isNaN f64 (lane 64 (vCosD E x) i) = true)) ∧
    (∀ i, 32 * (i + 1) ≤ n' → isInf f32 (lane 32 y i) = true →
      isNaN f32 (lane 32 (vSinF E' y) i) = true ∧ (TrigF42 n' E' → isNaN f32 (lane 32 (vCosF E' y) i) = true)) := by
  have s42 : sse42.sse41 = true := rfl
  constructor
  · intro i hi hx
    refine ⟨?_, fun h42 => ?_⟩
    · obtain ⟨-, I, hE⟩ := h.ok
      obtain ⟨m, hm, h⟩ := lane_vSinCosD hE x
      rw [(h i hi).1]
      exact (infDL I hx (hm.at hi)).1
    · obtain ⟨-, hE⟩ := h42.ok
      rw [← roundD42] at hE
      obtain ⟨m, hm, h⟩ := lane_vSinCosD hE x
      rw [(h i hi).2]
      exact (infDL sse42 hx (hm.at hi)).2 s42
  · intro i hi hx
    have hc := (cvtF2F_spec (F := f32) (G := f64) (v := 64) .double (lane 32 y i)).2.2.1 hx
    have large : ∀ {r : BitVec 32 → BitVec 32}, TrigOk E'.toTrigEnv f32 32 r →
        trigLarge E' limitSin y = true ∧ trigLarge E' limitCos y = true := by
      intro r hE
      have hn : isNaN f32 (lane 32 y i) = false := (isInf_not hx).2
      have hv : (fval f32 (lane 32 y i)).natAbs = magVal f32 (infMag f32) := by
        rw [natAbs_fval, of_decide_eq_true hx]
      have b1 : fval f32 limitSin ≤ ((magVal f32 (infMag f32) : Nat) : Int) := by decide +kernel
      have b2 : fval f32 limitCos ≤ ((magVal f32 (infMag f32) : Nat) : Int) := by decide +kernel
      rw [trigLarge_iff hE y limits.1, trigLarge_iff hE y limits.2.1]
      refine ⟨⟨i, hi, ?_⟩, ⟨i, hi, ?_⟩⟩
      · rw [hn, if_neg (by decide), hv]; exact b1
      · rw [hn, if_neg (by decide), hv]; exact b2
    refine ⟨?_, fun h42 => ?_⟩
    · obtain ⟨c, I, hC, -, hE, hD, hr⟩ := h'.ok
      obtain ⟨m, hm, j1, -⟩ := lane_joinD hD hC y hi
      unfold vSinF
      rw [(large hE).1, if_pos rfl, j1, (cvtF2F_spec (F := f64) (G := f32) (v := 32) .single _).2.1]
      exact (infDL I hc hm).1
    · obtain ⟨c, -, hC, hE, hD, hr⟩ := h42.ok
      rw [← roundD42] at hD
      obtain ⟨m, hm, -, j2⟩ := lane_joinD hD hC y hi
      unfold vCosF
      rw [(large hE).2, if_pos rfl, j2, (cvtF2F_spec (F := f64) (G := f32) (v := 32) .single _).2.1]
      exact (infDL sse42 hc hm).2 s42

/-- Witness: an entry that is infinite. -/
example : TrigD42 256 trigAvxD ∧ TrigF42 128 (trigSseF sse42) ∧ isInf f64 (lane 64 (set1 64 0xfff0000000000000#64 : M256) 3) = true ∧
    isInf f32 (lane 32 (set1 32 0x7f800000#32 : M128) 3) = true := by
  refine ⟨.avx, .sse, ?_, ?_⟩ <;> rw [lane_set1 _ (by decide)] <;> decide

/-- Without SSE4.1, the cosine of infinity is infinity. -/
theorem C74_inf_violated :
    lane 64 (vCosD (trigSseD sse2) (set1 64 0x7ff0000000000000#64)) 0 = 0x7ff0000000000000#64 := by
  rw [(set1D (trigOk_sseD sse2) _ (by decide)).2]
  decide +kernel

/-! ### Arguments that are too large -/

/-- The sine of `2 ^ 33` has the wrong sign: the number of the quadrant does not fit into an `int`. -/
theorem C74_quadrant_violated {n : Nat} {E : TrigEnv n} (h : TrigD42 n E) :
    rval f64 (lane 64 (vSinD E (set1 64 0x4200000000000000#64)) 0) < 0 ∧
      0 < Real.sin (rval f64 (lane 64 (set1 64 0x4200000000000000#64 : BitVec n) 0)) := by
  obtain ⟨hn, hE⟩ := h.ok
  have e : lane 64 (vSinD E (set1 64 0x4200000000000000#64)) 0 = 0xbfe25722fce440b7#64 := by
    rw [(set1D hE _ (by omega)).1]
    decide +kernel
  have v1 : rval f64 (0x4200000000000000#64) = 8589934592 := rval_lit false 1056 0 (-19) (by decide) (by decide +kernel)
    (by decide +kernel) (by decide +kernel) (by decide +kernel) (by simp [f64]; norm_num)
  rw [e, lane_set1 _ (by omega), v1]
  constructor
  · unfold rval
    apply div_neg_of_neg_of_pos
    · exact_mod_cast (by decide +kernel : fval f64 0xbfe25722fce440b7#64 < 0)
    · positivity
  · rw [← Real.sin_sub_nat_mul_two_pi _ 1367130551]
    have h1 := Real.pi_gt_d20
    have h2 := Real.pi_lt_d20
    apply Real.sin_pos_of_pos_of_lt_pi <;> push_cast <;> linarith

/-- The "sine" of `2 ^ 60` is greater than `2 ^ 50`, in vectors of double and of float. -/
theorem C74_range_violated {n : Nat} {E : TrigEnv n} {n' : Nat} {E' : TrigEnvF n'} (h : TrigD42 n E) (h' : TrigF42 n' E') :
    lane 64 (vSinD E (set1 64 0x43b0000000000000#64)) 0 = 0x43302ca98dbef484#64 ∧
      lane 32 (vSinF E' (set1 32 0x5d800000#32)) 0 = 0x5981654c#32 := by
  constructor
  · obtain ⟨hn, hE⟩ := h.ok
    rw [(set1D hE _ (by omega)).1]
    decide +kernel
  · obtain ⟨c, hc, hC, hE, hD, hr⟩ := h'.ok
    have hs := hC.size
    have l1 : trigLarge E' limitSin (set1 32 0x5d800000#32) = true := by
      rw [trigLarge_iff hE _ limits.1]
      refine ⟨0, by omega, ?_⟩
      rw [lane_set1 _ (by omega), if_neg (by decide)]
      decide +kernel
    unfold vSinF
    rw [l1, if_pos rfl]
    have e : E'.lo (set1 32 0x5d800000#32) = set1 64 (cvtF2F f32 f64 64 0x5d800000#32) := by
      refine reg_ext 64 (by decide) ⟨c, hs.symm⟩ fun i hi => ?_
      have hi := in_range (by decide) ⟨c, hs.symm⟩ hi
      rw [hC.lo _ _ (by omega), lane_set1 _ (by omega), lane_set1 _ hi]
    rw [hC.join _ _ _ (by omega), if_pos (by omega), e, (set1D hD _ (by omega)).1]
    decide +kernel

/-! ### Other entries -/

set_option linter.constructorNameAsVariable false in
/-- The result for an entry depends on the other entries.  Double: the cosine of the number next to pi/2, alone and
besides 1000.  Float: the sine of 1, alone and besides `2 ^ 20`. -/
theorem C74_lanes_violated :
    lane 64 (vCosD (trigSseD sse42) (set1 64 0x3ff921fb54442d18#64)) 0 = 0x3c91a62633145c07#64 ∧
    lane 64 (vCosD (trigSseD sse42) (ofLanes 64 fun i => if i = 0 then 0x3ff921fb54442d18#64 else 0x408f400000000000#64)) 0 =
      0x3c91a62633145c00#64 ∧
    lane 32 (vSinF (trigSseF sse42) (set1 32 0x3f800000#32)) 0 = 0x3f576aa5#32 ∧
    lane 32 (vSinF (trigSseF sse42) (ofLanes 32 fun i => if i = 0 then 0x3f800000#32 else 0x49800000#32)) 0 = 0x3f576aa4#32 := by
  have hD := trigOk_sseD sse42
  have hE := trigOk_sseF sse42
  have hC := castOk_sse sse42
  rw [roundD42] at hD
  rw [roundF42] at hE
  refine ⟨?_, ?_, ?_, ?_⟩
  · rw [(set1D hD _ (by decide)).2]
    decide +kernel
  · obtain ⟨m, hm, hl⟩ := lane_vSinCosD hD (ofLanes 64 fun i => if i = 0 then 0x3ff921fb54442d18#64 else 0x408f400000000000#64)
    rw [(hl 0 (by decide)).2, lane_ofLanes _ (by decide), if_pos rfl]
    cases m with
    | near =>
      have := hm 0 (by decide)
      rw [lane_ofLanes _ (by decide)] at this
      exact absurd this (by decide +kernel)
    | mid =>
      have := hm.2 1 (by decide)
      rw [lane_ofLanes _ (by decide)] at this
      exact absurd this (by decide +kernel)
    | far => decide +kernel
    | huge =>
      obtain ⟨⟨i, hi, this⟩, -⟩ := hm
      rw [lane_ofLanes _ (by omega)] at this
      rcases (show i = 0 ∨ i = 1 by omega) with e | e <;> subst e <;> exact absurd this (by decide +kernel)
  · have l1 : trigLarge (trigSseF sse42) limitSin (set1 32 0x3f800000#32) = false := by
      rw [Bool.eq_false_iff]
      intro ht
      obtain ⟨i, hi, hh⟩ := (trigLarge_iff hE _ limits.1).mp ht
      rw [lane_set1 _ hi, if_neg (by decide)] at hh
      exact absurd hh (by decide +kernel)
    unfold vSinF
    rw [l1, if_neg (by decide), (set1F hE _ (by decide)).1]
    decide +kernel
  · have l1 : trigLarge (trigSseF sse42) limitSin (ofLanes 32 fun i => if i = 0 then 0x3f800000#32 else 0x49800000#32) = true := by
      rw [trigLarge_iff hE _ limits.1]
      refine ⟨1, by decide, ?_⟩
      rw [lane_ofLanes _ (by decide), if_neg (by decide), if_neg (by decide)]
      decide +kernel
    unfold vSinF
    have hD' : TrigOk (trigSseF sse42).D f64 64 (fRound f64 .nearest) := hD
    obtain ⟨m, hm, j1, -⟩ := lane_joinD (E := trigSseF sse42) hD' hC (ofLanes 32 fun i => if i = 0 then 0x3f800000#32 else 0x49800000#32) (i := 0) (by decide)
    rw [l1, if_pos rfl, j1]
    have c1 : cvtF2F f32 f64 64 0x3f800000#32 = 0x3ff0000000000000#64 := by decide +kernel
    rw [lane_ofLanes _ (by decide), if_pos rfl, c1] at hm ⊢
    cases m with
    | near =>
      have hm := hm.1 rfl
      rw [show absL 0x3ff0000000000000#64 = 0x3ff0000000000000#64 by decide] at hm
      exact absurd hm (by decide +kernel)
    | mid => decide +kernel
    | far => decide +kernel
    | huge => decide +kernel

end Vc.Prop
