import Verif.Lemma.ExpF
import Verif.Lemma.FloatExp3
import Verif.Prop.FloatRound

/-!
`exp` of float, lane by lane.
-/

namespace Vc.Lemma
open Vc.Model Vc.Spec

/-- What `exp` needs of the operations it calls. -/
structure ExpOpsF {n : Nat} (floor : BitVec n → BitVec n) (ldexp : BitVec n → BitVec n → BitVec n)
    (blend : BitVec n → BitVec n → BitVec n → BitVec n) : Prop where
  floorOk : ∀ (x : BitVec n) (i : Nat), 32 * (i + 1) ≤ n → RoundsTo f32 IsFloor (lane 32 x i) (lane 32 (floor x) i)
  ldexpOk : ∀ (v e : BitVec n) (i : Nat), 32 * (i + 1) ≤ n →
    LdexpR f32 (lane 32 v i) (lane 32 e i).toInt (lane 32 (ldexp v e) i)
  blendOk : ∀ (x y m : BitVec n) (i : Nat) (p : Bool), 32 * (i + 1) ≤ n → lane 32 m i = laneMask p →
    lane 32 (blend x y m) i = if p then lane 32 y i else lane 32 x i

theorem expOps_sse (I : Isa) : ExpOpsF (vFloorPs I) ldexpSseF (blendv I 32) where
  floorOk x i hi := (Prop.C56_float I x (by omega)).2.1
  ldexpOk v e i hi := lane_ldexpSseF v e (by omega)
  blendOk x y m i p hi hm := lane_blendv I (v := 32) (c := 1) rfl (by decide) hi x y m hm

theorem expOps_avx (avx2 : Bool) : ExpOpsF (vRoundIntr f32 32 .down) (ldexpAvxF avx2) (blendvIntr 32) where
  floorOk x i hi := (Prop.C56_instruction Platform.avxFloat x .down hi).1
  ldexpOk v e i hi := lane_ldexpAvxF avx2 v e (by omega)
  blendOk x y m i p hi hm := by
    rw [lane_blendvIntr _ _ _ hi, hm]
    cases p <;> rfl

/-- `>` of one lane. -/
def gtL (B : CmpBuild) (F : Fmt) {w : Nat} (a b : BitVec w) : Bool :=
  match B with
  | .sse => fLt F b a
  | .avxGcc => fLt F b a
  | .avx => !fLe F a b

theorem lane_vFGt (B : CmpBuild) {n : Nat} (F : Fmt) (w : Nat) (x y : BitVec n) {i : Nat} (hi : w * (i + 1) ≤ n) :
    lane w (vFGt B F w x y) i = laneMask (gtL B F (lane w x i) (lane w y i)) := by
  cases B
  · exact lane_map2 (fun a b => laneMask (fLt F b a)) x y hi
  · exact lane_map2 (fun a b => laneMask (fLt F b a)) x y hi
  · exact lane_map2 (fun a b => laneMask (!fLe F a b)) x y hi

/-- What one lane of `exp` is. -/
def ExpLaneF (B : CmpBuild) (x r : BitVec 32) : Prop :=
  ∃ z t, RoundsTo f32 IsFloor (expArgL x) z ∧ LdexpR f32 (expPolyL (expRedL x z)) (cvttF2I f32 z).toInt t ∧
    r = if fLt f32 x minlogf then 0#32 else if gtL B f32 x maxlogf then 0x7f800000#32 else t

theorem lane_expPolyF {n : Nat} (x : BitVec n) {i : Nat} (hi : 32 * (i + 1) ≤ n) :
    lane 32 (expPolyF x) i = expPolyL (lane 32 x i) := by
  unfold expPolyF expPolyL vFAdd vFMul
  simp only [lane_map2 _ _ _ hi, lane_set1 _ hi]

theorem lane_expArgF {n : Nat} (x : BitVec n) {i : Nat} (hi : 32 * (i + 1) ≤ n) :
    lane 32 (expArgF x) i = expArgL (lane 32 x i) := by
  unfold expArgF expArgL vFAdd vFMul
  simp only [lane_map2 _ _ _ hi, lane_set1 _ hi]

theorem lane_expRedF {n : Nat} (x z : BitVec n) {i : Nat} (hi : 32 * (i + 1) ≤ n) :
    lane 32 (expRedF x z) i = expRedL (lane 32 x i) (lane 32 z i) := by
  unfold expRedF expRedL vFSub vFMul
  simp only [lane_map2 _ _ _ hi, lane_set1 _ hi]

theorem lane_vFLt {n : Nat} (F : Fmt) (w : Nat) (x y : BitVec n) {i : Nat} (hi : w * (i + 1) ≤ n) :
    lane w (vFLt F w x y) i = laneMask (fLt F (lane w x i) (lane w y i)) :=
  lane_map2 (fun a b => laneMask (fLt F a b)) x y hi

theorem andnot_laneMask {w : Nat} (p : Bool) (x : BitVec w) : ~~~(laneMask p) &&& x = if p then 0#w else x := by
  cases p
  · simp only [laneMask, Bool.false_eq_true, if_false, BitVec.not_zero, BitVec.allOnes_and]
  · simp only [laneMask, if_true, BitVec.not_allOnes, BitVec.zero_and]

theorem lane_vExpF {n : Nat} (B : CmpBuild) {floor : BitVec n → BitVec n} {ldexp : BitVec n → BitVec n → BitVec n}
    {blend : BitVec n → BitVec n → BitVec n → BitVec n} (h : ExpOpsF floor ldexp blend) (x : BitVec n) {i : Nat}
    (hi : 32 * (i + 1) ≤ n) : ExpLaneF B (lane 32 x i) (lane 32 (vExpF B floor ldexp blend x) i) := by
  refine ⟨lane 32 (floor (expArgF x)) i,
    lane 32 (ldexp (expPolyF (expRedF x (floor (expArgF x)))) (map1 32 (cvttF2I f32) (floor (expArgF x)))) i, ?_, ?_, ?_⟩
  · have := h.floorOk (expArgF x) i hi
    rwa [lane_expArgF _ hi] at this
  · have := h.ldexpOk (expPolyF (expRedF x (floor (expArgF x)))) (map1 32 (cvttF2I f32) (floor (expArgF x))) i hi
    rwa [lane_expPolyF _ hi, lane_map1 _ _ hi, lane_expRedF _ _ hi] at this
  · unfold vExpF
    simp only
    rw [lane_andnot _ _ hi, h.blendOk _ _ _ i _ hi (lane_vFGt B f32 32 x _ hi), lane_vFLt _ _ _ _ hi, lane_set1 _ hi,
      lane_set1 _ hi, lane_set1 _ hi, andnot_laneMask]

end Vc.Lemma
