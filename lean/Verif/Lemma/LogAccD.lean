import Verif.Lemma.LogAccF
import Verif.Lemma.LogD

/-!
`log` of double: 1.2 units in the last place.
-/

namespace Vc.Lemma
open Vc.Model Vc.Spec

set_option maxRecDepth 10000

/-- The box of the rational function. -/
def logDYB (A : Box) : Box :=
  let h (y : Box) (c : ℚ) := Box.add f64 (Box.mul f64 y A) (Box.const c)
  let P := h (h (h (h (h (Box.const (469818574385595 / 4611686018427387904)) (4481036547991929 / 9007199254740992)) (5298249872337169 / 1125899906842624))
    (4081083882632599 / 281474976710656)) (5048779460560973 / 281474976710656)) (1084859073158047 / 140737488355328)
  let Q := h (h (h (h (Box.add f64 (Box.const (3177109032531911 / 281474976710656)) A) (6365263102066739 / 140737488355328)) (5839728035675581 / 70368744177664))
    (5007051052723745 / 70368744177664)) (3254577219474137 / 140737488355328)
  Box.mul f64 (Box.mul f64 (Box.mul f64 A A) P) (Box.div f64 260 A Q)

theorem logDYB_spec : YB f64 logDY (fun t => t * t * logDP t * (t / logDQ t)) logDYB := by
  intro x a b hf h1 h2 hok
  have hx := Enc.var hf h1 h2
  unfold logDY
  rw [logDHP_eq, logDHQ_eq]
  unfold logDP logDQ logDYB at *
  refine Enc.mul .double hok (fun o => Enc.mul .double o (fun o => Enc.mul .double o (fun _ => hx) (fun _ => hx)) (fun o => ?_))
    (fun o => Enc.div .double o (fun _ => hx) (fun o => ?_))
  · refine Enc.horner .double o (fun o => ?_) hx logD_p5 (by norm_num)
    refine Enc.horner .double o (fun o => ?_) hx logD_p4 (by norm_num)
    refine Enc.horner .double o (fun o => ?_) hx logD_p3 (by norm_num)
    refine Enc.horner .double o (fun o => ?_) hx logD_p2 (by norm_num)
    refine Enc.horner .double o (fun _ => ?_) hx logD_p1 (by norm_num)
    have := Enc.const logD_p0.1 (c := 469818574385595 / 4611686018427387904) (by rw [logD_p0.2]; norm_num)
    convert this using 1
    norm_num
  · refine Enc.horner .double o (fun o => ?_) hx logD_q4 (by norm_num)
    refine Enc.horner .double o (fun o => ?_) hx logD_q3 (by norm_num)
    refine Enc.horner .double o (fun o => ?_) hx logD_q2 (by norm_num)
    refine Enc.horner .double o (fun o => ?_) hx logD_q1 (by norm_num)
    have := Enc.add .double o (p := ((3177109032531911 / 281474976710656 : ℚ) : ℝ)) (fun _ => Enc.const logD_q0.1 (by rw [logD_q0.2]; norm_num)) (fun _ => hx)
    convert this using 2
    norm_num

def logDLp : List ℚ := [1 / 9007199254740992, 1 / 4503599627370496, 1 / 2251799813685248, 1 / 1125899906842624, 1 / 562949953421312, 1 / 281474976710656, 1 / 140737488355328, 1 / 70368744177664, 1 / 35184372088832, 1 / 17592186044416, 1 / 8796093022208, 1 / 4398046511104, 1 / 2199023255552, 1 / 1099511627776, 1 / 549755813888, 1 / 274877906944, 1 / 137438953472, 1 / 68719476736, 1 / 34359738368, 1 / 17179869184, 1 / 8589934592, 1 / 4294967296, 1 / 2147483648, 1 / 1073741824, 1 / 536870912, 1 / 268435456, 1 / 134217728, 1 / 67108864, 1 / 33554432, 1 / 16777216, 1 / 8388608, 1 / 4194304, 1 / 2097152, 1 / 1048576, 1 / 524288, 1 / 262144, 1 / 131072, 1 / 65536, 1 / 32768, 1 / 16384, 1 / 8192, 1 / 4096, 1 / 2048, 1 / 1024, 1 / 512, 1 / 256, 1 / 128, 1 / 64, 1 / 32, 1 / 16, 1 / 8, 5 / 32, 1 / 4, 5 / 16, 11 / 32, 517767 / 1250000]
def logDLn : List ℚ := [-(2928933 / 10000000), -(1 / 4), -(15 / 64), -(7 / 32), -(1 / 8), -(1 / 16), -(1 / 32), -(1 / 64), -(1 / 128), -(1 / 256), -(1 / 512), -(1 / 1024), -(1 / 2048), -(1 / 4096), -(1 / 8192), -(1 / 16384), -(1 / 32768), -(1 / 65536), -(1 / 131072), -(1 / 262144), -(1 / 524288), -(1 / 1048576), -(1 / 2097152), -(1 / 4194304), -(1 / 8388608), -(1 / 16777216), -(1 / 33554432), -(1 / 67108864), -(1 / 134217728), -(1 / 268435456), -(1 / 536870912), -(1 / 1073741824), -(1 / 2147483648), -(1 / 4294967296), -(1 / 8589934592), -(1 / 17179869184), -(1 / 34359738368), -(1 / 68719476736), -(1 / 137438953472), -(1 / 274877906944), -(1 / 549755813888), -(1 / 1099511627776), -(1 / 2199023255552), -(1 / 4398046511104), -(1 / 8796093022208), -(1 / 17592186044416), -(1 / 35184372088832), -(1 / 70368744177664), -(1 / 140737488355328), -(1 / 281474976710656), -(1 / 562949953421312), -(1 / 1125899906842624), -(1 / 2251799813685248), -(1 / 4503599627370496), -(1 / 9007199254740992)]
def logDL1 : List ℚ := [-(2928933 / 10000000), -(1 / 4), -(3 / 16), -(1 / 8), 0, 1 / 8, 1 / 4, 5 / 16, 11 / 32, 3 / 8, 517767 / 1250000]
def logDL2 : List ℚ := [-(2928933 / 10000000), -(1 / 4), -(1 / 8), 0, 1 / 8, 517767 / 1250000]
def logDL3 : List ℚ := [-(2928933 / 10000000), -(1 / 4), -(1 / 8), 0, 517767 / 1250000]

def logDEps (a b : ℚ) : ℚ := if b ≤ 0 then 37 / 10 ^ 18 else if 1 / 4 ≤ a then 16 / 10 ^ 18 else if 0 ≤ a then 27 / 10 ^ 18 else 37 / 10 ^ 18

theorem logD_cells_p : cells (fun a b => cell0 f64 logDYB (logDEps a b) (7 / 10) a b) logDLp = true := by decide +kernel
theorem logD_cells_n : cells (fun a b => cell0 f64 logDYB (logDEps a b) (7 / 10) a b) logDLn = true := by decide +kernel
theorem logD_cells_1 : cells (fun a b => cell1 f64 logDYB (logDEps a b) (7 / 10) a b) logDL1 = true := by decide +kernel

theorem logD_cells : LogCells f64 logDYB logDEps (7 / 10) (228 / 1000) logDLp logDLn logDL1 logDL2 logDL3 := by
  refine ⟨?_, ?_, ?_, ?_, ?_, logD_cells_p, logD_cells_n, logD_cells_1, ?_, ?_⟩ <;> decide +kernel

/-- The polynomial, with another origin. -/
def pShift (c : ℚ) : List ℚ → List ℚ
  | [] => []
  | a :: q => pAdd [a] (pMul [c, 1] (pShift c q))

theorem pShift_eval (c : ℚ) (p : List ℚ) (s : ℝ) : pEval (pShift c p) s = pEval p (s + c) := by
  induction p with
  | nil => rfl
  | cons a q ih =>
    rw [pShift, pEval_add, pEval_mul, ih]
    simp only [pEval]
    push_cast; ring

theorem pEval_nonneg {p : List ℚ} (h : p.all (fun a => decide (0 ≤ a)) = true) {s : ℝ} (hs : 0 ≤ s) : 0 ≤ pEval p s := by
  induction p with
  | nil => exact le_refl _
  | cons a q ih =>
    rw [List.all_cons, Bool.and_eq_true, decide_eq_true_eq] at h
    have h1 : (0 : ℝ) ≤ a := by exact_mod_cast h.1
    have := ih h.2
    rw [pEval]
    positivity

/-- The approximation error on a region. -/
def logDReg (ε a b : ℚ) : Bool :=
  let s := pShift a logDQl
  decide (a < b) && decide (0 < s.headD 0) && s.all (fun a => decide (0 ≤ a)) && decide (chebBound a b logDDiff ≤ (ε - 13 / 10 ^ 20) * s.headD 0)

theorem logDReg_spec {ε a b : ℚ} (h : logDReg ε a b = true) {t : ℝ} (h0 : -0.2928933 ≤ t) (hh : t ≤ 0.4142136) (h1 : (a : ℝ) ≤ t) (h2 : t ≤ b) :
    |t + (t * t * logDP t * (t / logDQ t) - t * t * (1 / 2)) - Real.log (1 + t)| ≤ ε * |t| := by
  unfold logDReg at h
  simp only [Bool.and_eq_true, decide_eq_true_eq] at h
  obtain ⟨⟨⟨r1, r2⟩, r3⟩, r4⟩ := h
  have hl : ((pShift a logDQl).headD 0 : ℝ) ≤ logDQ t := by
    rw [← logDQ_eval, show t = (t - a) + a by ring, ← pShift_eval]
    cases hq : pShift a logDQl with
    | nil => rw [hq] at r2; simp at r2
    | cons c q =>
      rw [hq, List.all_cons, Bool.and_eq_true] at r3
      have := pEval_nonneg r3.2 (show 0 ≤ t - a by linarith)
      rw [pEval, List.headD_cons]
      have h3 : 0 ≤ t - a := by linarith
      have := mul_nonneg h3 this
      linarith
  have hd := le_trans (cheb_bound r1 h1 h2) ((Rat.cast_le (K := ℝ)).mpr r4)
  have hl0 : (0 : ℝ) < ((pShift a logDQl).headD 0 : ℚ) := by exact_mod_cast r2
  refine le_trans (logD_apx (ρ := 0.4142136) (abs_le.mpr ⟨by norm_num at h0 ⊢; linarith, hh⟩) (by norm_num) hd hl0 hl) ?_
  refine mul_le_mul_of_nonneg_right ?_ (abs_nonneg _)
  rw [Rat.cast_mul, mul_div_assoc, div_self (ne_of_gt hl0), mul_one]
  have : (0.4142136 : ℝ) ^ 50 / (1 - 0.4142136) ≤ 13 / 10 ^ 20 := by norm_num
  push_cast
  linarith

theorem logD_reg_n : cells (logDReg (37 / 10 ^ 18)) [-(2928933 / 10000000), -(1 / 4), -(1 / 5), -(1 / 10), 0] = true := by decide +kernel
theorem logD_reg_p : cells (logDReg (27 / 10 ^ 18)) [0, 1 / 8, 1 / 4] = true := by decide +kernel
theorem logD_reg_q : cells (logDReg (16 / 10 ^ 18)) [1 / 4, 1 / 3, 3 / 8, 517767 / 1250000] = true := by decide +kernel

theorem logD_eps {t : ℝ} (h0 : -0.2928933 ≤ t) (h1 : t ≤ 0.4142136) {a b : ℚ} (ha : (a : ℝ) ≤ t) (hb : t ≤ b) :
    |t + (t * t * logDP t * (t / logDQ t) - t * t * (1 / 2)) - Real.log (1 + t)| ≤ logDEps a b * |t| := by
  have t0 := abs_nonneg t
  rcases le_or_gt t 0 with h | h
  · obtain ⟨c, d, p, q1, q2⟩ := cells_spec logD_reg_n rfl rfl (v := t) (by norm_num at h0 ⊢; linarith) (by norm_num; exact h) (by norm_num)
    have := logDReg_spec p h0 h1 q1 q2
    have ha0 : a ≤ 0 := by exact_mod_cast le_trans ha h
    have hle : 37 / 10 ^ 18 ≤ logDEps a b ∨ t = 0 := by
      unfold logDEps
      rcases lt_or_ge a 0 with hn | hn
      · left
        split
        · exact le_refl _
        · rw [if_neg (by linarith), if_neg (by linarith)]
      · have : (0 : ℝ) ≤ a := by exact_mod_cast hn
        right; linarith
    rcases hle with hle | rfl
    · exact le_trans this (mul_le_mul_of_nonneg_right (by exact_mod_cast hle) t0)
    · simp
  · have hb0 : ¬ b ≤ 0 := by
      have : (0 : ℝ) < b := lt_of_lt_of_le h hb
      have : 0 < b := by exact_mod_cast this
      linarith
    rcases le_or_gt (1 / 4) t with h4 | h4
    · obtain ⟨c, d, p, q1, q2⟩ := cells_spec logD_reg_q rfl rfl (v := t) (by norm_num at h4 ⊢; linarith) (by norm_num at h1 ⊢; linarith) (by norm_num)
      refine le_trans (logDReg_spec p h0 h1 q1 q2) (mul_le_mul_of_nonneg_right ?_ t0)
      have : 16 / 10 ^ 18 ≤ logDEps a b := by
        unfold logDEps
        rw [if_neg hb0]
        split
        · exact le_refl _
        · split <;> norm_num
      exact_mod_cast this
    · obtain ⟨c, d, p, q1, q2⟩ := cells_spec logD_reg_p rfl rfl (v := t) (by norm_num; linarith) (by norm_num at h4 ⊢; linarith) (by norm_num)
      refine le_trans (logDReg_spec p h0 h1 q1 q2) (mul_le_mul_of_nonneg_right ?_ t0)
      have ha4 : ¬ (1 / 4 ≤ a) := by
        intro hc
        have := (Rat.cast_le (K := ℝ)).mpr hc
        norm_num at this h4
        linarith
      have : 27 / 10 ^ 18 ≤ logDEps a b := by
        unfold logDEps
        rw [if_neg hb0, if_neg ha4]
        split <;> norm_num
      exact_mod_cast this

theorem logD_ulp {X x e : BitVec 64} {E : Int} (hr : LogRedR f64 X x e E) :
    WithinUlps f64 (6 / 5) (Real.log (rval f64 X)) (logSeriesD (sArith f64 64) .e x e) := by
  have ha := (logD_all hr).1
  rw [logSeriesD_eq] at ha ⊢
  have := log_cells logD_cells logC_D hr logDYB_spec (fun a b => by unfold logDEps; split <;> (try split) <;> (try split) <;> norm_num) (by norm_num) (by norm_num)
    (by norm_num [show oneExp f64 = 1074 from rfl]) (by norm_num) (fun a b h1 h2 => logD_eps hr.lo hr.hi h1 h2) (fun hx hE => by
      refine ⟨ha.1, ?_⟩
      have h2 := ha.2
      rw [log_value hr, hE, hx] at h2
      simpa using h2)
  norm_num at this ⊢
  exact this

end Vc.Lemma
