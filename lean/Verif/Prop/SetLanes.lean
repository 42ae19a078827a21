import Verif.Prop.ExCfg
import Verif.Lemma.SetLanes

/-!
# C103: setZero, setZeroInverted, setQnan
-/

namespace Vc.Prop
open Vc.Model Vc.Spec Vc.Lemma

variable {C : Cfg}

/-- Native vectors of SSE and AVX (registers of `n` bits, entries of `w` bits, mask `b`): `setZero`
zeroes all entries, `setZero(k)` those of the mask, `setZeroInverted(k)` the others; what is not zeroed
keeps its bits. -/
theorem C103_native {n w c : Nat} (hc : w * c = n) (x k : BitVec n) (b : Nat → Bool) (hk : IsMask w k b) :
    SetWhere (fun _ => true) (· = 0#w) c (lane w x) (lane w (natSetZero x)) ∧
    SetWhere b (· = 0#w) c (lane w x) (lane w (natSetZeroMask x k)) ∧
    SetWhere (fun i => !b i) (· = 0#w) c (lane w x) (lane w (natSetZeroInverted x k)) := by
  have hb : ∀ i, i < c → w * (i + 1) ≤ n := fun i hi => hc ▸ Nat.mul_le_mul_left w hi
  refine ⟨fun i _ => ?_, fun i hi => ?_, fun i hi => ?_⟩
  · simp only [if_pos, natSetZero]
    exact lane_zero i
  · have e : lane w (natSetZeroMask x k) i = natSetZeroMask (lane w x i) (boolLane w (b i)) := by
      unfold natSetZeroMask
      rw [lane_andnot _ _ (hb i hi), show lane w k i = boolLane w (b i) from hk i (hb i hi)]; rfl
    rw [e, andnot_boolLane]
    cases b i <;> simp
  · have e : lane w (natSetZeroInverted x k) i = natSetZeroInverted (lane w x i) (boolLane w (b i)) := by
      unfold natSetZeroInverted
      rw [lane_and, show lane w k i = boolLane w (b i) from hk i (hb i hi)]
    rw [e, and_boolLane]
    cases h : b i <;> simp [h]

/-- `setQnan` of native float and double vectors. -/
theorem C103_native_qnan {F : Fmt} (hF : F = f32 ∨ F = f64) {n c : Nat} (hc : (F.e + F.m + 1) * c = n) (x k : BitVec n)
    (b : Nat → Bool) (hk : IsMask (F.e + F.m + 1) k b) :
    SetWhere (fun _ => true) (IsQuietNaN F) c (lane (F.e + F.m + 1) x) (lane (F.e + F.m + 1) (natSetQnan x)) ∧
    SetWhere b (IsQuietNaN F) c (lane (F.e + F.m + 1) x) (lane (F.e + F.m + 1) (natSetQnanMask x k)) := by
  have hb : ∀ i, i < c → (F.e + F.m + 1) * (i + 1) ≤ n := fun i hi => hc ▸ Nat.mul_le_mul_left _ hi
  refine ⟨fun i hi => ?_, fun i hi => ?_⟩
  · simp only [if_pos, natSetQnan]
    rw [lane_allOnes (hb i hi)]
    exact quiet_allOnes hF
  · have e : lane (F.e + F.m + 1) (natSetQnanMask x k) i =
        natSetQnanMask (lane (F.e + F.m + 1) x i) (boolLane _ (b i)) := by
      unfold natSetQnanMask
      rw [lane_or, show lane (F.e + F.m + 1) k i = boolLane _ (b i) from hk i (hb i hi)]
    rw [e, or_boolLane]
    cases b i
    · simp
    · simpa using quiet_allOnes hF

example : (f32.e + f32.m + 1) * 4 = 128 ∧ (f64.e + f64.m + 1) * 4 = 256 ∧
    IsMask 64 (0xffffffffffffffff0000000000000000#128) (fun i => i == 1) := by
  refine ⟨rfl, rfl, fun i hi => ?_⟩
  have : i = 0 ∨ i = 1 := by omega
  rcases this with rfl | rfl <;> decide

/-- Scalar vectors. -/
theorem C103_scalar {w : Nat} (x : BitVec w) (k : Bool) :
    scaSetZero x = 0#w ∧ scaSetZeroMask x k = (if k then 0#w else x) ∧
    scaSetZeroInverted x k = (if k then x else 0#w) := by
  cases k <;> exact ⟨rfl, rfl, rfl⟩

/-- `setQnan` of Scalar float and double vectors. -/
theorem C103_scalar_qnan {F : Fmt} (hF : F = f32 ∨ F = f64) (x : BitVec (F.e + F.m + 1)) :
    IsQuietNaN F (scaSetQnan x) ∧ IsQuietNaN F (scaSetQnanMask x true) ∧ scaSetQnanMask x false = x :=
  ⟨quiet_allOnes hF, quiet_allOnes hF, rfl⟩

/-- SimdArray of any size. -/
theorem C103_simdarray (hC : C.Valid) (n : Nat) (hn : 1 ≤ n) {w : Nat} (x : SA (BitVec w)) (m : SA Bool)
    (hx : SA.WF C n x) (hm : SA.WF C n m) :
    (SA.WF C n x.setZeroAll ∧ ∀ i : Nat, i < n → x.setZeroAll.get C (i : Int) = some 0#w) ∧
    (∃ r, x.setZeroMask m = some r ∧ SA.WF C n r ∧
      SetWhere (fun i => m.get C (i : Int) == some true) (· = some 0#w) n (fun i => x.get C (i : Int)) (fun i => r.get C (i : Int))) ∧
    ∃ r, x.setZeroInvertedMask m = some r ∧ SA.WF C n r ∧
      SetWhere (fun i => m.get C (i : Int) == some false) (· = some 0#w) n (fun i => x.get C (i : Int)) (fun i => r.get C (i : Int)) := by
  refine ⟨?_, ?_, ?_⟩
  · obtain ⟨wr, t⟩ := unmasked_wf hC SA.setZeroAll natSetZero (fun _ => rfl) (fun _ _ => rfl) n hn x hx
    refine ⟨wr, fun i hi => ?_⟩
    obtain ⟨v, -, h⟩ := unmasked_get hC hn hx wr t hi
    exact h
  · obtain ⟨r, e, wr, t⟩ := masked_wf hC SA.setZeroMask _ (fun _ _ => rfl) (fun _ _ _ _ => rfl) n hn x m hx hm
    refine ⟨r, e, wr, fun i hi => ?_⟩
    obtain ⟨v, b, hv, hb, h⟩ := masked_get hC hn hx hm wr t hi
    simp only [hv, hb, h, andnot_boolLane]
    cases b <;> simp
  · obtain ⟨r, e, wr, t⟩ := masked_wf hC SA.setZeroInvertedMask _ (fun _ _ => rfl) (fun _ _ _ _ => rfl) n hn x m hx hm
    refine ⟨r, e, wr, fun i hi => ?_⟩
    obtain ⟨v, b, hv, hb, h⟩ := masked_get hC hn hx hm wr t hi
    simp only [hv, hb, h, and_boolLane]
    cases b <;> simp

/-- `setQnan` of SimdArrays of float and double. -/
theorem C103_simdarray_qnan (hC : C.Valid) (n : Nat) (hn : 1 ≤ n) {F : Fmt} (hF : F = f32 ∨ F = f64)
    (x : SA (BitVec (F.e + F.m + 1))) (m : SA Bool) (hx : SA.WF C n x) (hm : SA.WF C n m) :
    (SA.WF C n x.setQnanAll ∧ ∀ i : Nat, i < n → ∃ q, x.setQnanAll.get C (i : Int) = some q ∧ IsQuietNaN F q) ∧
    ∃ r, x.setQnanMask m = some r ∧ SA.WF C n r ∧
      SetWhere (fun i => m.get C (i : Int) == some true) (fun o => ∃ q, o = some q ∧ IsQuietNaN F q) n
        (fun i => x.get C (i : Int)) (fun i => r.get C (i : Int)) := by
  refine ⟨?_, ?_⟩
  · obtain ⟨wr, t⟩ := unmasked_wf hC SA.setQnanAll natSetQnan (fun _ => rfl) (fun _ _ => rfl) n hn x hx
    refine ⟨wr, fun i hi => ?_⟩
    obtain ⟨v, -, h⟩ := unmasked_get hC hn hx wr t hi
    exact ⟨_, h, quiet_allOnes hF⟩
  · obtain ⟨r, e, wr, t⟩ := masked_wf hC SA.setQnanMask _ (fun _ _ => rfl) (fun _ _ _ _ => rfl) n hn x m hx hm
    refine ⟨r, e, wr, fun i hi => ?_⟩
    obtain ⟨v, b, hv, hb, h⟩ := masked_get hC hn hx hm wr t hi
    simp only [hv, hb, h, or_boolLane]
    cases b
    · simp
    · simpa using quiet_allOnes hF

example : SA.WF exCfg 4 (.atom [1#32, 2#32, 3#32, 4#32]) ∧ SA.WF exCfg 4 (.atom [true, false, true, true]) :=
  ⟨⟨rfl, by decide⟩, ⟨rfl, by decide⟩⟩

end Vc.Prop
