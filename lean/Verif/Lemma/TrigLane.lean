import Verif.Model.Trig
import Verif.Lemma.LogLane
import Verif.Lemma.Fma2
import Verif.Lemma.AvxDiv
import Verif.Prop.AvxMask

/-!
`sin` and `cos`, lane by lane.
-/

namespace Vc.Lemma
open Vc.Model Vc.Spec Vc.Prop

/-- The number without its sign. -/
def absL {w : Nat} (v : BitVec w) : BitVec w := v &&& (BitVec.allOnes w >>> 1)

/-- What the parts of an instruction set do. -/
structure TrigOk {n : Nat} (E : TrigEnv n) (F : Fmt) (w : Nat) (rnd : BitVec w → BitVec w) : Prop where
  abs : ∀ x i, w * (i + 1) ≤ n → lane w (vFAbs E.K x) i = absL (lane w x i)
  full : ∀ k b, IsMask w k b → (E.full k = true ↔ ∀ i, w * (i + 1) ≤ n → b i = true)
  any : ∀ k b, IsMask w k b → (E.any k = true ↔ ∃ i, w * (i + 1) ≤ n ∧ b i = true)
  round : ∀ x i, w * (i + 1) ≤ n → lane w (E.round x) i = rnd (lane w x i)
  quad : ∀ x i, w * (i + 1) ≤ n → lane w (E.quad x) i = cvtI2F F w (cvttF2I F (lane w x i) &&& 3#32)
  blend : BlendOk w E.blend
  pos : 0 < w

/-- `round` of one float. -/
def roundFSse (I : Isa) (v : BitVec 32) : BitVec 32 := if I.sse41 then fRound f32 .nearest v else cvtI2F f32 32 (cvtF2I f32 v)

theorem trigOk_sseD (I : Isa) : TrigOk (trigSseD I) f64 64 (roundDSse I) where
  abs x i hi := by
    unfold vFAbs trigSseD sseDouble absL
    simp only
    rw [lane_and, lane_set1 _ hi]; rfl
  full k b h := by
    have := (C36_queries I.sse41 (w := 64) (.inr (.inr (.inr rfl))) h).2.2.1
    refine this.trans ⟨fun h i hi => h i (by omega), fun h i hi => h i (by omega)⟩
  any k b h := by
    have := (C36_queries I.sse41 (w := 64) (.inr (.inr (.inr rfl))) h).2.1
    refine this.trans ⟨fun ⟨i, h, e⟩ => ⟨i, by omega, e⟩, fun ⟨i, h, e⟩ => ⟨i, by omega, e⟩⟩
  round x i hi := by
    show lane 64 (vRoundPd I x) i = _
    unfold vRoundPd roundDSse vRoundIntr
    cases I.sse41 with
    | true => simp only [if_true]; rw [lane_map1 _ _ hi]
    | false =>
      simp only [Bool.false_eq_true, if_false]
      unfold cvtepi32Pd cvtpdEpi32
      rw [lane_ofLanes _ (by omega), lane_ofLanes _ (by omega), if_pos (by omega)]
  quad x i hi := by
    show lane 64 (cvtepi32Pd (cvttpd x &&& set1 32 3#32)) i = _
    unfold cvtepi32Pd
    rw [lane_ofLanes _ (by omega), lane_and, lane_cvttpd _ (by omega), lane_set1 _ (by omega)]
  blend := blendOk_sse I (by decide)
  pos := by decide

theorem trigOk_sseF (I : Isa) : TrigOk (trigSseF I).toTrigEnv f32 32 (roundFSse I) where
  abs x i hi := by
    unfold vFAbs trigSseF sseFloat absL
    simp only
    rw [lane_and, lane_set1 _ hi]; rfl
  full k b h := by
    have := (C36_queries I.sse41 (w := 32) (.inr (.inr (.inl rfl))) h).2.2.1
    refine this.trans ⟨fun h i hi => h i (by omega), fun h i hi => h i (by omega)⟩
  any k b h := by
    have := (C36_queries I.sse41 (w := 32) (.inr (.inr (.inl rfl))) h).2.1
    refine this.trans ⟨fun ⟨i, h, e⟩ => ⟨i, by omega, e⟩, fun ⟨i, h, e⟩ => ⟨i, by omega, e⟩⟩
  round x i hi := by
    show lane 32 (vRoundPs I x) i = _
    unfold vRoundPs roundFSse vRoundIntr
    cases I.sse41 with
    | true => simp only [if_true]; rw [lane_map1 _ _ hi]
    | false =>
      simp only [Bool.false_eq_true, if_false]
      unfold cvtepi32PsN
      rw [lane_map1 _ _ hi, lane_map1 _ _ hi]
  quad x i hi := by
    show lane 32 (cvtepi32PsN (cvttps x &&& set1 32 3#32)) i = _
    unfold cvtepi32PsN
    rw [lane_map1 _ _ hi, lane_and, lane_cvttps _ hi, lane_set1 _ hi]
  blend := blendOk_sse I (by decide)
  pos := by decide

theorem trigOk_avxD : TrigOk trigAvxD f64 64 (fRound f64 .nearest) where
  abs x i hi := by
    unfold vFAbs trigAvxD avxDouble absL
    simp only
    rw [lane_and, lane_set1 _ hi]; rfl
  full k b h := by
    have := (C63_queries (w := 64) (.inr (.inr rfl)) h).2.2.1
    refine this.trans ⟨fun h i hi => h i (by omega), fun h i hi => h i (by omega)⟩
  any k b h := by
    have := (C63_queries (w := 64) (.inr (.inr rfl)) h).2.1
    refine this.trans ⟨fun ⟨i, h, e⟩ => ⟨i, by omega, e⟩, fun ⟨i, h, e⟩ => ⟨i, by omega, e⟩⟩
  round x i hi := lane_map1 _ _ hi
  quad x i hi := by
    show lane 64 (cvtepi32Pd256 (cvttpd256 x &&& set1 32 3#32)) i = _
    rw [lane_cvtepi32Pd256 _ (by omega), lane_and, lane_cvttpd256 _ (by omega), lane_set1 _ (by omega)]
  blend := blendOk_avx (by decide)
  pos := by decide

theorem trigOk_avxF (B : CmpBuild) : TrigOk (trigAvxF B).toTrigEnv f32 32 (fRound f32 .nearest) where
  abs x i hi := by
    unfold vFAbs trigAvxF avxFloat absL
    simp only
    rw [lane_and, lane_set1 _ hi]; rfl
  full k b h := by
    have := (C63_queries (w := 32) (.inr (.inl rfl)) h).2.2.1
    refine this.trans ⟨fun h i hi => h i (by omega), fun h i hi => h i (by omega)⟩
  any k b h := by
    have := (C63_queries (w := 32) (.inr (.inl rfl)) h).2.1
    refine this.trans ⟨fun ⟨i, h, e⟩ => ⟨i, by omega, e⟩, fun ⟨i, h, e⟩ => ⟨i, by omega, e⟩⟩
  round x i hi := lane_map1 _ _ hi
  quad x i hi := by
    show lane 32 (cvtepi32PsN (cvttps x &&& set1 32 3#32)) i = _
    unfold cvtepi32PsN
    rw [lane_map1 _ _ hi, lane_and, lane_cvttps _ hi, lane_set1 _ hi]
  blend := blendOk_avx (by decide)
  pos := by decide

/-- The casts of the float versions: `c` entries of double in a register. -/
structure CastOk {n : Nat} (E : TrigEnvF n) (c : Nat) : Prop where
  size : 64 * c = n
  lo : ∀ x i, i < c → lane 64 (E.lo x) i = cvtF2F f32 f64 64 (lane 32 x i)
  hi : ∀ x i, i < c → lane 64 (E.hi x) i = cvtF2F f32 f64 64 (lane 32 x (c + i))
  join : ∀ a b i, i < 2 * c → lane 32 (E.join a b) i =
    cvtF2F f64 f32 32 (if i < c then lane 64 a i else lane 64 b (i - c))

theorem castOk_sse (I : Isa) : CastOk (trigSseF I) 2 where
  size := rfl
  lo x i hi := by
    show lane 64 (cvtpsPd x) i = _
    unfold cvtpsPd; rw [lane_ofLanes _ (by omega)]
  hi x i hi := by
    show lane 64 (cvtpsPd (srliSi128 x 8)) i = _
    unfold cvtpsPd; rw [lane_ofLanes _ (by omega), lane_srliSi128 x (w := 32) (j := 2) (by decide), Nat.add_comm]
  join a b i hi := by
    show lane 32 (cvtDoubleFloat2 false a b) i = _
    unfold cvtDoubleFloat2 cvtpdPs
    simp only [Bool.false_eq_true, if_false]
    rw [lane_movelh32 _ _ (by omega), lane_ofLanes _ (by omega)]
    split
    · rfl
    · rw [lane_ofLanes _ (by omega), if_pos (by omega)]

theorem castOk_avx (B : CmpBuild) : CastOk (trigAvxF B) 4 where
  size := rfl
  lo x i hi := by
    show lane 64 (cvtpsPd256 (lo128 x)) i = _
    unfold cvtpsPd256; rw [lane_ofLanes _ (by omega), lane_lo128 (w := 32) (k := 4) rfl _ hi]
  hi x i hi := by
    show lane 64 (cvtpsPd256 (lo128 (memPermute128 (some 1) none x))) i = _
    unfold cvtpsPd256
    rw [lane_ofLanes _ (by omega), lane_lo128 (w := 32) (k := 4) rfl _ hi, permute_1z,
      lane_concat128 (w := 32) (k := 4) rfl _ _ (by omega), if_pos hi, lane_hi128 (w := 32) (k := 4) rfl _ hi]
  join a b i hi := by
    show lane 32 (simdCastDoubleFloat2 a b) i = _
    unfold simdCastDoubleFloat2 cvtpdPs256
    rw [lane_concat128 (w := 32) (k := 4) rfl _ _ (by omega)]
    split
    · rw [lane_ofLanes _ (by omega)]
    · rw [lane_ofLanes _ (by omega)]

/-! ### The series -/

section
variable {n i : Nat}

theorem lane_cosSeriesF (x : BitVec n) (hi : 32 * (i + 1) ≤ n) :
    lane 32 (cosSeriesF (vArith f32 32 n) x) i = cosSeriesF (sArith f32 32) (lane 32 x i) := by
  simp only [cosSeriesF, lane_add f32 _ _ hi, lane_sub f32 _ _ hi, lane_mul f32 _ _ hi, lane_c f32 _ hi, lane_horner f32 _ _ _ hi]

theorem lane_sinSeriesF (x : BitVec n) (hi : 32 * (i + 1) ≤ n) :
    lane 32 (sinSeriesF (vArith f32 32 n) x) i = sinSeriesF (sArith f32 32) (lane 32 x i) := by
  simp only [sinSeriesF, lane_add f32 _ _ hi, lane_mul f32 _ _ hi, lane_c f32 _ hi, lane_horner f32 _ _ _ hi]

theorem lane_cosSeriesD (x : BitVec n) (hi : 64 * (i + 1) ≤ n) :
    lane 64 (cosSeriesD (vArith f64 64 n) x) i = cosSeriesD (sArith f64 64) (lane 64 x i) := by
  simp only [cosSeriesD, lane_add f64 _ _ hi, lane_sub f64 _ _ hi, lane_mul f64 _ _ hi, lane_c f64 _ hi, lane_horner f64 _ _ _ hi]

theorem lane_sinSeriesD (x : BitVec n) (hi : 64 * (i + 1) ≤ n) :
    lane 64 (sinSeriesD (vArith f64 64 n) x) i = sinSeriesD (sArith f64 64) (lane 64 x i) := by
  simp only [sinSeriesD, lane_add f64 _ _ hi, lane_mul f64 _ _ hi, lane_c f64 _ hi, lane_horner f64 _ _ _ hi]
end

/-! ### Folding -/

/-- The four ways to fold. -/
inductive DMode | near | mid | far | huge
deriving DecidableEq

/-- The quadrant. -/
def quadL (F : Fmt) (w : Nat) (y : BitVec w) : BitVec w := cvtI2F F w (cvttF2I F y &&& 3#32)

def foldYD (rnd : BitVec 64 → BitVec 64) (v : BitVec 64) : BitVec 64 := rnd (fDiv f64 v 0x3ff921fb54442d18#64)

/-- `foldInput` of one double. -/
def foldDL (rnd : BitVec 64 → BitVec 64) (m : DMode) (v : BitVec 64) : BitVec 64 × BitVec 64 :=
  match m with
  | .near => (v, 0#64)
  | .mid => (foldStepsD (sArith f64 64) 0x3ff921fb54443000#64 0xbd473dcb3b39a000#64 0x3a945c06e0e68948#64 v (foldYD rnd v),
      quadL f64 64 (foldYD rnd v))
  | .far => (foldStepsD (sArith f64 64) 0x3ff921fb40000000#64 0x3e74442d00000000#64 0x3cf8469898cc5170#64 v (foldYD rnd v),
      quadL f64 64 (foldYD rnd v))
  | .huge => (foldSumD (sArith f64 64) (fMin f64) (fMax f64) v (foldYD rnd v)
      (foldYD rnd v &&& (BitVec.allOnes 64 <<< 26)), quadL f64 64 (foldYD rnd v))

/-- The bound `1025 * pi_over_4`. -/
def midD : BitVec 64 := fMul f64 0x4090040000000000#64 pi4D

/-- The mode of a vector is `m`. -/
def IsModeD (n : Nat) (rnd : BitVec 64 → BitVec 64) (x : BitVec n) : DMode → Prop
  | .near => ∀ i, 64 * (i + 1) ≤ n → fLt f64 (absL (lane 64 x i)) pi4D = true
  | .mid => (∃ i, 64 * (i + 1) ≤ n ∧ fLt f64 (absL (lane 64 x i)) pi4D = false) ∧
      ∀ i, 64 * (i + 1) ≤ n → fLt f64 (absL (lane 64 x i)) midD = true
  | .far => (∃ i, 64 * (i + 1) ≤ n ∧ fLt f64 (absL (lane 64 x i)) midD = false) ∧
      (∃ i, 64 * (i + 1) ≤ n ∧ fLt f64 (absL (lane 64 x i)) pi4D = false) ∧
      ∀ i, 64 * (i + 1) ≤ n → fLe f64 (foldYD rnd (absL (lane 64 x i))) 0x41d0000000000000#64 = true
  | .huge => (∃ i, 64 * (i + 1) ≤ n ∧ fLe f64 (foldYD rnd (absL (lane 64 x i))) 0x41d0000000000000#64 = false) ∧
      (∃ i, 64 * (i + 1) ≤ n ∧ fLt f64 (absL (lane 64 x i)) midD = false) ∧
      ∃ i, 64 * (i + 1) ≤ n ∧ fLt f64 (absL (lane 64 x i)) pi4D = false

/-- What the mode says about one entry. -/
def ModeAtD (m : DMode) (v : BitVec 64) : Prop :=
  (m = .near → fLt f64 v pi4D = true) ∧ (m = .mid → fLt f64 v midD = true)

theorem IsModeD.at {n : Nat} {rnd : BitVec 64 → BitVec 64} {x : BitVec n} {m : DMode} (h : IsModeD n rnd x m) {i : Nat}
    (hi : 64 * (i + 1) ≤ n) : ModeAtD m (absL (lane 64 x i)) := by
  constructor
  · intro e; subst e; exact h i hi
  · intro e; subst e; exact h.2 i hi

section
variable {n : Nat} {E : TrigEnv n} {rnd : BitVec 64 → BitVec 64}

theorem lane_vFMin' {w : Nat} (F : Fmt) (x y : BitVec n) {i : Nat} (hi : w * (i + 1) ≤ n) :
    lane w (vFMin F w x y) i = fMin F (lane w x i) (lane w y i) := lane_map2 _ _ _ hi
theorem lane_vFMax' {w : Nat} (F : Fmt) (x y : BitVec n) {i : Nat} (hi : w * (i + 1) ≤ n) :
    lane w (vFMax F w x y) i = fMax F (lane w x i) (lane w y i) := lane_map2 _ _ _ hi

theorem lane_foldStepsD (c1 c2 c3 : BitVec 64) (x y : BitVec n) {i : Nat} (hi : 64 * (i + 1) ≤ n) :
    lane 64 (foldStepsD (vArith f64 64 n) c1 c2 c3 x y) i = foldStepsD (sArith f64 64) c1 c2 c3 (lane 64 x i) (lane 64 y i) := by
  simp only [foldStepsD, lane_sub f64 _ _ hi, lane_mul f64 _ _ hi, lane_c f64 _ hi]

theorem lane_foldSumD (x y h : BitVec n) {i : Nat} (hi : 64 * (i + 1) ≤ n) :
    lane 64 (foldSumD (vArith f64 64 n) (vFMin f64 64) (vFMax f64 64) x y h) i =
      foldSumD (sArith f64 64) (fMin f64) (fMax f64) (lane 64 x i) (lane 64 y i) (lane 64 h i) := by
  simp only [foldSumD, lane_sub f64 _ _ hi, lane_mul f64 _ _ hi, lane_c f64 _ hi, lane_vFMin' f64 _ _ hi, lane_vFMax' f64 _ _ hi]

theorem fullLt (h : TrigOk E F w r) (x : BitVec n) (c : BitVec w) :
    E.full (vFLt F w (vFAbs E.K x) ((vArith F w n).c c)) = true ↔
      ∀ i, w * (i + 1) ≤ n → fLt F (absL (lane w x i)) c = true :=
  h.full _ _ (isMask_of fun i hi => by rw [lane_vFLt _ _ _ _ hi, h.abs _ _ hi, lane_c F _ hi]; rfl)

theorem not_all {n w : Nat} {p : Nat → Bool} (h : ¬ ∀ i, w * (i + 1) ≤ n → p i = true) :
    ∃ i, w * (i + 1) ≤ n ∧ p i = false := by
  obtain ⟨i, hi⟩ := Classical.not_forall.mp h
  obtain ⟨a, b⟩ := Classical.not_imp.mp hi
  exact ⟨i, a, by cases hp : p i with | true => exact absurd hp b | false => rfl⟩

/-- Every vector has a mode, and its entries are folded accordingly. -/
theorem lane_vFoldD (h : TrigOk E f64 64 rnd) (x : BitVec n) : ∃ m, IsModeD n rnd x m ∧
    ∀ i, 64 * (i + 1) ≤ n → lane 64 (vFoldD E x).1 i = (foldDL rnd m (absL (lane 64 x i))).1 ∧
      lane 64 (vFoldD E x).2 i = (foldDL rnd m (absL (lane 64 x i))).2 := by
  unfold vFoldD
  simp only
  have hy : ∀ i, 64 * (i + 1) ≤ n → lane 64 (E.round ((vArith f64 64 n).div (vFAbs E.K x)
      ((vArith f64 64 n).c 0x3ff921fb54442d18#64))) i = foldYD rnd (absL (lane 64 x i)) := fun i hi => by
    rw [h.round _ _ hi, lane_div f64 _ _ hi, lane_c f64 _ hi, h.abs _ _ hi]; rfl
  have e1 := fullLt h x pi4D
  have e2 := fullLt h x (fMul f64 0x4090040000000000#64 pi4D)
  have e3 : E.full (vFLe f64 64 (E.round ((vArith f64 64 n).div (vFAbs E.K x)
      ((vArith f64 64 n).c 0x3ff921fb54442d18#64))) ((vArith f64 64 n).c 0x41d0000000000000#64)) = true ↔ _ :=
    h.full _ (fun i => fLe f64 (foldYD rnd (absL (lane 64 x i))) 0x41d0000000000000#64)
      (isMask_of fun i hi => by rw [lane_vFLe' _ _ _ _ hi, hy i hi, lane_c f64 _ hi]; rfl)
  by_cases h1 : ∀ i, 64 * (i + 1) ≤ n → fLt f64 (absL (lane 64 x i)) pi4D = true
  · rw [if_pos (e1.mpr h1)]
    refine ⟨.near, h1, fun i hi => ⟨h.abs _ _ hi, ?_⟩⟩
    simp only
    rw [lane_c f64 _ hi]; rfl
  rw [if_neg (fun c => h1 (e1.mp c))]
  by_cases h2 : ∀ i, 64 * (i + 1) ≤ n → fLt f64 (absL (lane 64 x i)) midD = true
  · rw [if_pos (e2.mpr h2)]
    refine ⟨.mid, ⟨not_all h1, h2⟩, fun i hi => ⟨?_, ?_⟩⟩
    · simp only
      rw [lane_foldStepsD _ _ _ _ _ hi, hy i hi, h.abs _ _ hi]; rfl
    · simp only
      rw [h.quad _ _ hi, hy i hi]; rfl
  rw [if_neg (fun c => h2 (e2.mp c))]
  by_cases h3 : ∀ i, 64 * (i + 1) ≤ n → fLe f64 (foldYD rnd (absL (lane 64 x i))) 0x41d0000000000000#64 = true
  · rw [if_pos (e3.mpr h3)]
    refine ⟨.far, ⟨not_all h2, not_all h1, h3⟩, fun i hi => ⟨?_, ?_⟩⟩
    · simp only
      rw [lane_foldStepsD _ _ _ _ _ hi, hy i hi, h.abs _ _ hi]; rfl
    · simp only
      rw [h.quad _ _ hi, hy i hi]; rfl
  rw [if_neg (fun c => h3 (e3.mp c))]
  refine ⟨.huge, ⟨not_all h3, not_all h2, not_all h1⟩, fun i hi => ⟨?_, ?_⟩⟩
  · simp only
    rw [lane_foldSumD _ _ _ hi, lane_and, hy i hi, h.abs _ _ hi, lane_c f64 _ hi]; rfl
  · simp only
    rw [h.quad _ _ hi, hy i hi]; rfl
end

/-- The three ways to fold floats. -/
inductive FMode | near | mid | far
deriving DecidableEq

def foldYF (rnd : BitVec 32 → BitVec 32) (v : BitVec 32) : BitVec 32 := rnd (fMul f32 v 0x3f22f983#32)

/-- `foldInput` of one float. -/
def foldFL (rnd : BitVec 32 → BitVec 32) (rndD : BitVec 64 → BitVec 64) (m : FMode) (v : BitVec 32) : BitVec 32 × BitVec 32 :=
  match m with
  | .near => (v, 0#32)
  | .mid => (foldStepsF (sArith f32 32) v (foldYF rnd v), quadL f32 32 (foldYF rnd v))
  | .far => foldWideF rndD v

/-- The bound `33 * pi / 4`. -/
def midF : BitVec 32 := fMul f32 0x42040000#32 pi4F

def IsModeF (n : Nat) (x : BitVec n) : FMode → Prop
  | .near => ∀ i, 32 * (i + 1) ≤ n → fLt f32 (absL (lane 32 x i)) pi4F = true
  | .mid => (∃ i, 32 * (i + 1) ≤ n ∧ fLt f32 (absL (lane 32 x i)) pi4F = false) ∧
      ∀ i, 32 * (i + 1) ≤ n → fLt f32 (absL (lane 32 x i)) midF = true
  | .far => (∃ i, 32 * (i + 1) ≤ n ∧ fLt f32 (absL (lane 32 x i)) midF = false) ∧
      ∃ i, 32 * (i + 1) ≤ n ∧ fLt f32 (absL (lane 32 x i)) pi4F = false

/-- What the mode says about one entry. -/
def ModeAtF (m : FMode) (v : BitVec 32) : Prop :=
  (m = .near → fLt f32 v pi4F = true) ∧ (m = .mid → fLt f32 v midF = true)

theorem IsModeF.at {n : Nat} {x : BitVec n} {m : FMode} (h : IsModeF n x m) {i : Nat}
    (hi : 32 * (i + 1) ≤ n) : ModeAtF m (absL (lane 32 x i)) := by
  constructor
  · intro e; subst e; exact h i hi
  · intro e; subst e; exact h.2 i hi

theorem lane_vFoldF {n : Nat} {E : TrigEnv n} {rnd : BitVec 32 → BitVec 32} (rndD : BitVec 64 → BitVec 64)
    (h : TrigOk E f32 32 rnd) (x : BitVec n) : ∃ m, IsModeF n x m ∧
    ∀ i, 32 * (i + 1) ≤ n → lane 32 (vFoldF E rndD x).1 i = (foldFL rnd rndD m (absL (lane 32 x i))).1 ∧
      lane 32 (vFoldF E rndD x).2 i = (foldFL rnd rndD m (absL (lane 32 x i))).2 := by
  unfold vFoldF
  simp only
  have e1 := fullLt h x pi4F
  have hc : (vArith f32 32 n).mul ((vArith f32 32 n).c 0x42040000#32) ((vArith f32 32 n).c pi4F) = map2 32 (fMul f32) (set1 32 0x42040000#32) (set1 32 pi4F) := rfl
  have e2 : E.full (vFLt f32 32 (vFAbs E.K x) ((vArith f32 32 n).mul ((vArith f32 32 n).c 0x42040000#32)
      ((vArith f32 32 n).c pi4F))) = true ↔ _ :=
    h.full _ (fun i => fLt f32 (absL (lane 32 x i)) midF)
      (isMask_of fun i hi => by
        rw [lane_vFLt _ _ _ _ hi, lane_mul f32 _ _ hi, lane_c f32 _ hi, lane_c f32 _ hi, h.abs _ _ hi]; rfl)
  by_cases h1 : ∀ i, 32 * (i + 1) ≤ n → fLt f32 (absL (lane 32 x i)) pi4F = true
  · rw [if_pos (e1.mpr h1)]
    refine ⟨.near, h1, fun i hi => ⟨h.abs _ _ hi, ?_⟩⟩
    simp only
    rw [lane_c f32 _ hi]; rfl
  rw [if_neg (fun c => h1 (e1.mp c))]
  by_cases h2 : ∀ i, 32 * (i + 1) ≤ n → fLt f32 (absL (lane 32 x i)) midF = true
  · rw [if_pos (e2.mpr h2)]
    have hy : ∀ i, 32 * (i + 1) ≤ n → lane 32 (E.round ((vArith f32 32 n).mul (vFAbs E.K x)
        ((vArith f32 32 n).c 0x3f22f983#32))) i = foldYF rnd (absL (lane 32 x i)) := fun i hi => by
      rw [h.round _ _ hi, lane_mul f32 _ _ hi, lane_c f32 _ hi, h.abs _ _ hi]; rfl
    refine ⟨.mid, ⟨not_all h1, h2⟩, fun i hi => ⟨?_, ?_⟩⟩
    · simp only [foldStepsF, lane_sub f32 _ _ hi, lane_mul f32 _ _ hi, lane_c f32 _ hi, hy i hi, h.abs _ _ hi]; rfl
    · simp only
      rw [h.quad _ _ hi, hy i hi]; rfl
  rw [if_neg (fun c => h2 (e2.mp c))]
  refine ⟨.far, ⟨not_all h2, not_all h1⟩, fun i hi => ⟨?_, ?_⟩⟩
  · simp only
    rw [lane_map1 _ _ hi, h.abs _ _ hi]; rfl
  · simp only
    rw [lane_map1 _ _ hi, h.abs _ _ hi]; rfl

/-! ### The functions -/

/-- The sine of one number. -/
def trigSinL (F : Fmt) {w : Nat} (sign one two : BitVec w) (x q s c : BitVec w) : BitVec w :=
  ((x ^^^ fSub F one q) &&& sign) ^^^ if fEq F q 0#w || fEq F q two then s else c

/-- The cosine of one number. -/
def trigCosL (F : Fmt) {w : Nat} (sign half two twoHalf : BitVec w) (q s c : BitVec w) : BitVec w :=
  ((fSub F half q &&& fSub F q twoHalf) &&& sign) ^^^ if fEq F q 0#w || fEq F q two then c else s

section
variable {n : Nat} {E : TrigEnv n} {F : Fmt} {w i : Nat} {rnd : BitVec w → BitVec w}

theorem lane_trigEven (two : BitVec w) (q : BitVec n) (hi : w * (i + 1) ≤ n) :
    lane w (trigEven F w two q) i = laneMask (fEq F (lane w q i) 0#w || fEq F (lane w q i) two) := by
  unfold trigEven
  rw [lane_or, lane_vFEq' _ _ _ _ hi, lane_vFEq' _ _ _ _ hi, lane_set1 _ hi, lane_set1 _ hi, laneMask_or]

theorem lane_trigSin (h : TrigOk E F w rnd) (sign one two : BitVec w) (x q s c : BitVec n) (hi : w * (i + 1) ≤ n) :
    lane w (trigSin E F w sign one two x q s c) i =
      trigSinL F sign one two (lane w x i) (lane w q i) (lane w s i) (lane w c i) := by
  unfold trigSin trigSinL vFSub
  rw [lane_xor, lane_and, lane_xor, lane_map2 _ _ _ hi, lane_set1 _ hi, lane_set1 _ hi,
    h.blend _ _ _ _ _ hi (lane_trigEven two q hi)]

theorem lane_trigCos (h : TrigOk E F w rnd) (sign half two twoHalf : BitVec w) (q s c : BitVec n) (hi : w * (i + 1) ≤ n) :
    lane w (trigCos E F w sign half two twoHalf q s c) i =
      trigCosL F sign half two twoHalf (lane w q i) (lane w s i) (lane w c i) := by
  unfold trigCos trigCosL vFSub
  rw [lane_xor, lane_and, lane_and, lane_map2 _ _ _ hi, lane_map2 _ _ _ hi, lane_set1 _ hi, lane_set1 _ hi, lane_set1 _ hi,
    h.blend _ _ _ _ _ hi (lane_trigEven two q hi)]
end

/-- The sine from what `foldInput` returns. -/
def sinEndD (x : BitVec 64) (f : BitVec 64 × BitVec 64) : BitVec 64 :=
  trigSinL f64 0x8000000000000000#64 0x3ff0000000000000#64 0x4000000000000000#64 x f.2
    (sinSeriesD (sArith f64 64) f.1) (cosSeriesD (sArith f64 64) f.1)
def cosEndD (f : BitVec 64 × BitVec 64) : BitVec 64 :=
  trigCosL f64 0x8000000000000000#64 0x3fe0000000000000#64 0x4000000000000000#64 0x4004000000000000#64 f.2
    (sinSeriesD (sArith f64 64) f.1) (cosSeriesD (sArith f64 64) f.1)
def sinEndF (x : BitVec 32) (f : BitVec 32 × BitVec 32) : BitVec 32 :=
  trigSinL f32 0x80000000#32 0x3f800000#32 0x40000000#32 x f.2
    (sinSeriesF (sArith f32 32) f.1) (cosSeriesF (sArith f32 32) f.1)
def cosEndF (f : BitVec 32 × BitVec 32) : BitVec 32 :=
  trigCosL f32 0x80000000#32 0x3f000000#32 0x40000000#32 0x40200000#32 f.2
    (sinSeriesF (sArith f32 32) f.1) (cosSeriesF (sArith f32 32) f.1)

/-- The sine and the cosine of a double in mode `m`. -/
def sinDL (rnd : BitVec 64 → BitVec 64) (m : DMode) (x : BitVec 64) : BitVec 64 := sinEndD x (foldDL rnd m (absL x))
def cosDL (rnd : BitVec 64 → BitVec 64) (m : DMode) (x : BitVec 64) : BitVec 64 := cosEndD (foldDL rnd m (absL x))

/-- The sine and the cosine of a float in mode `m`. -/
def sinFL (rnd : BitVec 32 → BitVec 32) (rndD : BitVec 64 → BitVec 64) (m : FMode) (x : BitVec 32) : BitVec 32 :=
  sinEndF x (foldFL rnd rndD m (absL x))
def cosFL (rnd : BitVec 32 → BitVec 32) (rndD : BitVec 64 → BitVec 64) (m : FMode) (x : BitVec 32) : BitVec 32 :=
  cosEndF (foldFL rnd rndD m (absL x))

theorem lane_vSinCosD {n : Nat} {E : TrigEnv n} {rnd : BitVec 64 → BitVec 64} (h : TrigOk E f64 64 rnd) (x : BitVec n) :
    ∃ m, IsModeD n rnd x m ∧ ∀ i, 64 * (i + 1) ≤ n →
      lane 64 (vSinD E x) i = sinDL rnd m (lane 64 x i) ∧ lane 64 (vCosD E x) i = cosDL rnd m (lane 64 x i) := by
  obtain ⟨m, hm, hf⟩ := lane_vFoldD h x
  refine ⟨m, hm, fun i hi => ?_⟩
  obtain ⟨h1, h2⟩ := hf i hi
  constructor
  · unfold vSinD sinDL sinEndD
    simp only
    rw [lane_trigSin h _ _ _ _ _ _ _ hi, lane_sinSeriesD _ hi, lane_cosSeriesD _ hi, h1, h2]
  · unfold vCosD cosDL cosEndD
    simp only
    rw [lane_trigCos h _ _ _ _ _ _ _ hi, lane_sinSeriesD _ hi, lane_cosSeriesD _ hi, h1, h2]

theorem lane_vSinCosSmallF {n : Nat} {E : TrigEnvF n} {rnd : BitVec 32 → BitVec 32} (h : TrigOk E.toTrigEnv f32 32 rnd)
    (x : BitVec n) : ∃ m, IsModeF n x m ∧ ∀ i, 32 * (i + 1) ≤ n →
      lane 32 (vSinSmallF E x) i = sinFL rnd E.roundD m (lane 32 x i) ∧
      lane 32 (vCosSmallF E x) i = cosFL rnd E.roundD m (lane 32 x i) := by
  obtain ⟨m, hm, hf⟩ := lane_vFoldF E.roundD h x
  refine ⟨m, hm, fun i hi => ?_⟩
  obtain ⟨h1, h2⟩ := hf i hi
  constructor
  · unfold vSinSmallF sinFL sinEndF
    simp only
    rw [lane_trigSin h _ _ _ _ _ _ _ hi, lane_sinSeriesF _ hi, lane_cosSeriesF _ hi, h1, h2]
  · unfold vCosSmallF cosFL cosEndF
    simp only
    rw [lane_trigCos h _ _ _ _ _ _ _ hi, lane_sinSeriesF _ hi, lane_cosSeriesF _ hi, h1, h2]

/-- The large floats: the mode is that of the half of the vector in which the entry is. -/
theorem lane_joinD {n c : Nat} {E : TrigEnvF n} {rndD : BitVec 64 → BitVec 64} (hD : TrigOk E.D f64 64 rndD)
    (hC : CastOk E c) (x : BitVec n) {i : Nat} (hi : 32 * (i + 1) ≤ n) :
      ∃ m, ModeAtD m (absL (cvtF2F f32 f64 64 (lane 32 x i))) ∧
      lane 32 (E.join (vSinD E.D (E.lo x)) (vSinD E.D (E.hi x))) i =
        cvtF2F f64 f32 32 (sinDL rndD m (cvtF2F f32 f64 64 (lane 32 x i))) ∧
      lane 32 (E.join (vCosD E.D (E.lo x)) (vCosD E.D (E.hi x))) i =
        cvtF2F f64 f32 32 (cosDL rndD m (cvtF2F f32 f64 64 (lane 32 x i))) := by
  have hs := hC.size
  have hi2 : i < 2 * c := by omega
  by_cases hl : i < c
  · obtain ⟨m, hm, h⟩ := lane_vSinCosD hD (E.lo x)
    have hm := hm.at (i := i) (by omega)
    rw [hC.lo _ _ hl] at hm
    refine ⟨m, hm, ?_, ?_⟩
    · rw [hC.join _ _ _ hi2, if_pos hl, (h i (by omega)).1, hC.lo _ _ hl]
    · rw [hC.join _ _ _ hi2, if_pos hl, (h i (by omega)).2, hC.lo _ _ hl]
  · obtain ⟨m, hm, h⟩ := lane_vSinCosD hD (E.hi x)
    have hm := hm.at (i := i - c) (by omega)
    rw [hC.hi _ _ (by omega), show c + (i - c) = i by omega] at hm
    refine ⟨m, hm, ?_, ?_⟩
    · rw [hC.join _ _ _ hi2, if_neg hl, (h (i - c) (by omega)).1, hC.hi _ _ (by omega), show c + (i - c) = i by omega]
    · rw [hC.join _ _ _ hi2, if_neg hl, (h (i - c) (by omega)).2, hC.hi _ _ (by omega), show c + (i - c) = i by omega]

end Vc.Lemma
