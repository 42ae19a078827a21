import Verif.Lemma.TrigEnd
import Verif.Prop.Trig

/-!
C75: accuracy of `sin`, `cos` and `sincos`.
-/

namespace Vc.Prop
open Vc.Model Vc.Spec Vc.Lemma

/-- Double: for arguments of at most `2^27`, whatever the other entries are, the sine and the cosine are correct up to `2^-51`. -/
theorem C75_double {n : Nat} {E : TrigEnv n} (h : TrigD n E) (x : BitVec n) {i : Nat} (hi : 64 * (i + 1) ≤ n)
    (hf : isFinite f64 (lane 64 x i) = true) (hx : |rval f64 (lane 64 x i)| ≤ 2 ^ 27) :
    ApproxAbs f64 (Real.sin (rval f64 (lane 64 x i))) (1 / 2 ^ 51) (lane 64 (vSinD E x) i) ∧
    ApproxAbs f64 (Real.cos (rval f64 (lane 64 x i))) (1 / 2 ^ 51) (lane 64 (vCosD E x) i) ∧
    ApproxAbs f64 (Real.sin (rval f64 (lane 64 x i))) (1 / 2 ^ 51) (lane 64 (vSincosD E x).1 i) ∧
    ApproxAbs f64 (Real.cos (rval f64 (lane 64 x i))) (1 / 2 ^ 51) (lane 64 (vSincosD E x).2 i) := by
  obtain ⟨-, I, hE⟩ := h.ok
  obtain ⟨m, hm, hr⟩ := lane_vSinCosD hE x
  have ok := trigDL_ok I hf hx (hm.at hi)
  rw [← (hr i hi).1, ← (hr i hi).2] at ok
  exact ⟨ok.1, ok.2, ok.1, ok.2⟩

/-- Witness: an argument of more than a hundred million, next to an infinity. -/
example : TrigD 128 (trigSseD sse42) ∧ lane 64 (0x7ff00000000000004199000000000000#128) 0 = 0x4199000000000000#64 ∧
    isFinite f64 0x4199000000000000#64 = true ∧ rval f64 0x4199000000000000#64 = 104857600 := by
  refine ⟨.sse _, by decide, by decide, ?_⟩
  exact rval_lit false 1049 2533274790395904 (-26) (by decide) (by decide) (by decide) (by decide) (by decide) (by norm_num [f64])

theorem rval_natAbs {w : Nat} (F : Fmt) (x : BitVec w) : |rval F x| = ((fval F x).natAbs : ℝ) / 2 ^ oneExp F := by
  unfold rval
  rw [abs_div, abs_of_pos (one_pos F), Nat.cast_natAbs, Int.cast_abs]

/-- What holds if the double version is not used. -/
theorem small_of {n : Nat} {E : TrigEnvF n} {r : BitVec 32 → BitVec 32} (hE : TrigOk E.toTrigEnv f32 32 r) {x : BitVec n}
    {l : BitVec 32} {L : Nat} (hl : isNaN f32 l = false) (hv : fval f32 l = ((L * 2 ^ oneExp f32 : Nat) : Int)) (hL : L ≤ 527449)
    (h : ¬ trigLarge E l x = true) {i : Nat} (hi : 32 * (i + 1) ≤ n) (hf : isFinite f32 (lane 32 x i) = true) :
    |rval f32 (lane 32 x i)| ≤ 527449 := by
  rw [trigLarge_iff hE x hl] at h
  have h2 : ¬ _ := fun c => h ⟨i, hi, c⟩
  rw [(isFinite_not hf).1, if_neg (by decide), hv, Int.ofNat_le, Nat.not_le] at h2
  rw [rval_natAbs, div_le_iff₀ (one_pos _)]
  have h3 : (((fval f32 (lane 32 x i)).natAbs : Nat) : ℝ) < ((L * 2 ^ oneExp f32 : Nat) : ℝ) := Nat.cast_lt.mpr h2
  push_cast at h3
  have h4 : (L : ℝ) ≤ 527449 := by exact_mod_cast hL
  exact le_trans h3.le (mul_le_mul_of_nonneg_right h4 (one_pos _).le)

/-- The double version, for floats. -/
theorem joined_ok {n : Nat} {E : TrigEnvF n} (h : TrigF n E) (x : BitVec n) {i : Nat} (hi : 32 * (i + 1) ≤ n)
    (hf : isFinite f32 (lane 32 x i) = true) (hx : |rval f32 (lane 32 x i)| ≤ 2 ^ 27) :
    ApproxAbs f32 (Real.sin (rval f32 (lane 32 x i))) (1 / 2 ^ 22) (lane 32 (E.join (vSinD E.D (E.lo x)) (vSinD E.D (E.hi x))) i) ∧
    ApproxAbs f32 (Real.cos (rval f32 (lane 32 x i))) (1 / 2 ^ 22) (lane 32 (E.join (vCosD E.D (E.lo x)) (vCosD E.D (E.hi x))) i) := by
  obtain ⟨c, I, hC, -, -, hD, -⟩ := h.ok
  obtain ⟨m, hm, e1, e2⟩ := lane_joinD hD hC x hi
  obtain ⟨c1, c2⟩ := cvtF2F_rval hf
  have ok := trigDL_ok I c1 (by rw [c2]; exact hx) hm
  rw [c2] at ok
  rw [e1, e2]
  exact ⟨narrow_ok (Real.abs_sin_le_one _) ok.1, narrow_ok (Real.abs_cos_le_one _) ok.2⟩

/-- Float: for arguments of at most `2^27`, whatever the other entries are, the sine and the cosine are correct up to `2^-22`. -/
theorem C75_float {n : Nat} {E : TrigEnvF n} (h : TrigF n E) (x : BitVec n) {i : Nat} (hi : 32 * (i + 1) ≤ n)
    (hf : isFinite f32 (lane 32 x i) = true) (hx : |rval f32 (lane 32 x i)| ≤ 2 ^ 27) :
    ApproxAbs f32 (Real.sin (rval f32 (lane 32 x i))) (1 / 2 ^ 22) (lane 32 (vSinF E x) i) ∧
    ApproxAbs f32 (Real.cos (rval f32 (lane 32 x i))) (1 / 2 ^ 22) (lane 32 (vCosF E x) i) ∧
    ApproxAbs f32 (Real.sin (rval f32 (lane 32 x i))) (1 / 2 ^ 22) (lane 32 (vSincosF E x).1 i) ∧
    ApproxAbs f32 (Real.cos (rval f32 (lane 32 x i))) (1 / 2 ^ 22) (lane 32 (vSincosF E x).2 i) := by
  obtain ⟨c, I, hC, -, hE, -, hrd⟩ := h.ok
  obtain ⟨n1, n2, v1, v2⟩ := limits
  have big := joined_ok h x hi hf hx
  have small : |rval f32 (lane 32 x i)| ≤ 527449 →
      ApproxAbs f32 (Real.sin (rval f32 (lane 32 x i))) (1 / 2 ^ 22) (lane 32 (vSinSmallF E x) i) ∧
      ApproxAbs f32 (Real.cos (rval f32 (lane 32 x i))) (1 / 2 ^ 22) (lane 32 (vCosSmallF E x) i) := by
    intro hs
    obtain ⟨m, hm, hr⟩ := lane_vSinCosSmallF hE x
    have ok := trigFL_ok I hf hs (hm.at hi)
    rw [← hrd, ← (hr i hi).1, ← (hr i hi).2] at ok
    exact ok
  refine ⟨?_, ?_, ?_, ?_⟩
  · unfold vSinF
    split
    · exact big.1
    · rename_i hs
      exact (small (small_of hE n1 v1 (by decide) hs hi hf)).1
  · unfold vCosF
    split
    · exact big.2
    · rename_i hs
      exact (small (small_of hE n2 v2 (by decide) hs hi hf)).2
  · unfold vSincosF
    split
    · exact big.1
    · rename_i hs
      exact (small (small_of hE n2 v2 (by decide) hs hi hf)).1
  · unfold vSincosF
    split
    · exact big.2
    · rename_i hs
      exact (small (small_of hE n2 v2 (by decide) hs hi hf)).2

/-- Witness: small and large arguments. -/
example : TrigF 256 (trigAvxF .avxGcc) ∧ lane 32 (set1 (n := 256) 32 0x4cc80000#32) 7 = 0x4cc80000#32 ∧
    isFinite f32 0x4cc80000#32 = true ∧ rval f32 0x4cc80000#32 = 104857600 := by
  refine ⟨.avx _, by decide +kernel, by decide, ?_⟩
  exact rval_lit false 153 4718592 3 (by decide) (by decide) (by decide) (by decide) (by decide) (by norm_num [f32])

end Vc.Prop
