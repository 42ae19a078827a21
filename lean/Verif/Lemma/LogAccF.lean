import Verif.Lemma.LogCell

/-!
`log` of float: one unit in the last place.
-/

namespace Vc.Lemma
open Vc.Model Vc.Spec

set_option maxRecDepth 10000

/-- The box of the polynomial. -/
def logFYB (A : Box) : Box :=
  let h (y : Box) (c : ℚ) := Box.add f32 (Box.mul f32 y A) (Box.const c)
  Box.mul f32 (h (h (h (h (h (h (h (h (Box.const (9445819 / 134217728)) (-(1931831 / 16777216))) (7836301 / 67108864)) (-(16670031 / 134217728)))
    (9562559 / 67108864)) (-(699109 / 4194304))) (3355563 / 16777216)) (-(4194303 / 16777216))) (5592405 / 16777216))
    (Box.mul f32 A (Box.mul f32 A A))

theorem Enc.horner {F : Fmt} {w : Nat} {s x k : BitVec w} {p t r : ℝ} {A X : Box} {q : ℚ} (h : FmtW F w)
    (hok : (Box.add F (Box.mul F A X) (Box.const q)).ok = true) (hs : A.ok = true → Enc F s p A) (hx : Enc F x t X)
    (hk : isFinite F k = true ∧ rval F k = r) (hq : r = q) : Enc F (fAdd F (fMul F s x) k) (p * t + r) (Box.add F (Box.mul F A X) (Box.const q)) := by
  rw [hq]
  exact Enc.add h hok (fun o => Enc.mul h o hs (fun _ => hx)) (fun _ => Enc.const hk.1 (by rw [hk.2, hq]))

theorem logFYB_spec : YB f32 logFY (fun t => logFP t * (t * (t * t))) logFYB := by
  intro x a b hf h1 h2 hok
  have hx := Enc.var hf h1 h2
  unfold logFY
  rw [logFH_eq]
  unfold logFP logFYB at *
  refine Enc.mul .single hok (fun o => ?_) (fun o => Enc.mul .single o (fun _ => hx) (fun o => Enc.mul .single o (fun _ => hx) (fun _ => hx)))
  refine Enc.horner .single o (fun o => ?_) hx logF_k8 (by norm_num)
  refine Enc.horner .single o (fun o => ?_) hx logF_k7 (by norm_num)
  refine Enc.horner .single o (fun o => ?_) hx logF_k6 (by norm_num)
  refine Enc.horner .single o (fun o => ?_) hx logF_k5 (by norm_num)
  refine Enc.horner .single o (fun o => ?_) hx logF_k4 (by norm_num)
  refine Enc.horner .single o (fun o => ?_) hx logF_k3 (by norm_num)
  refine Enc.horner .single o (fun o => ?_) hx logF_k2 (by norm_num)
  refine Enc.horner .single o (fun _ => ?_) hx logF_k1 (by norm_num)
  have := Enc.const logF_k0.1 (c := 9445819 / 134217728) (by rw [logF_k0.2]; norm_num)
  convert this using 1
  norm_num

def logFLp : List ℚ := [1 / 16777216, 1 / 8388608, 1 / 4194304, 1 / 2097152, 1 / 1048576, 1 / 524288, 1 / 262144, 1 / 131072, 1 / 65536, 1 / 32768, 1 / 4096, 1 / 512, 1 / 64, 1 / 16, 1 / 8, 1 / 4, 5 / 16, 3 / 8, 517767 / 1250000]
def logFLn : List ℚ := [-(2928933 / 10000000), -(1 / 4), -(1 / 8), -(1 / 16), -(1 / 32), -(1 / 64), -(1 / 128), -(1 / 256), -(1 / 512), -(1 / 1024), -(1 / 2048), -(1 / 4096), -(1 / 8192), -(1 / 16384), -(1 / 32768), -(1 / 65536), -(1 / 131072), -(1 / 262144), -(1 / 524288), -(1 / 1048576), -(1 / 2097152), -(1 / 16777216)]
def logFL1 : List ℚ := [-(2928933 / 10000000), -(1 / 4), -(1 / 8), 0, 1 / 8, 1 / 4, 5 / 16, 11 / 32, 517767 / 1250000]
def logFL2 : List ℚ := [-(2928933 / 10000000), -(1 / 4), -(1 / 8), 0, 517767 / 1250000]
def logFL3 : List ℚ := [-(2928933 / 10000000), -(1 / 4), -(1 / 8), 0, 517767 / 1250000]

def logFEps (_ _ : ℚ) : ℚ := 322 / 10 ^ 11

theorem logF_cells : LogCells f32 logFYB logFEps (1 / 2) (317 / 10000) logFLp logFLn logFL1 logFL2 logFL3 := by
  refine ⟨?_, ?_, ?_, ?_, ?_, ?_, ?_, ?_, ?_, ?_⟩ <;> decide +kernel

theorem logF_eps {t : ℝ} (h0 : -0.2928933 ≤ t) (h1 : t ≤ 0.4142136) :
    |t + (logFP t * (t * (t * t)) - t * t * (1 / 2)) - Real.log (1 + t)| ≤ ((322 / 10 ^ 11 : ℚ) : ℝ) * |t| := by
  rcases le_total t 0 with h | h
  · refine le_trans (logF_apx (ρ := 0.2928933) (by rw [abs_of_nonpos h]; linarith) (by norm_num)
      (logF_diff_neg (by norm_num at h0 ⊢; linarith) h)) (mul_le_mul_of_nonneg_right ?_ (abs_nonneg _))
    norm_num
  · refine le_trans (logF_apx (ρ := 0.4142136) (by rw [abs_of_nonneg h]; linarith) (by norm_num)
      (logF_diff_pos h (by norm_num at h1 ⊢; linarith))) (mul_le_mul_of_nonneg_right ?_ (abs_nonneg _))
    norm_num

theorem logF_ulp {X x e : BitVec 32} {E : Int} (hr : LogRedR f32 X x e E) :
    WithinUlps f32 1 (Real.log (rval f32 X)) (logSeriesF (sArith f32 32) .e x e) := by
  have ha := (logF_all hr).1
  rw [logSeriesF_eq] at ha ⊢
  have := log_cells logF_cells logC_F hr logFYB_spec (fun _ _ => by norm_num [logFEps]) (by norm_num) (by norm_num)
    (by norm_num [show oneExp f32 = 149 from rfl]) (by norm_num) (fun a b _ _ => logF_eps hr.lo hr.hi) (fun hx hE => by
      refine ⟨ha.1, ?_⟩
      have h2 := ha.2
      rw [log_value hr, hE, hx] at h2
      simpa using h2)
  norm_num at this
  exact this

end Vc.Lemma
