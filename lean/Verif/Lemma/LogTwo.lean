import Verif.Lemma.LogCell

/-!
`log2` on a cell of reduced arguments.
-/

namespace Vc.Lemma
open Vc.Model Vc.Spec

section
variable {F : Fmt} {w : Nat} {a b : BitVec w}

/-- The last addition, if the error before it is large. -/
theorem within_add3 (h : FmtW F w) {c v : ℝ} {j : Int} (ha : isFinite F a = true) (hb : isFinite F b = true) (hv : (2 : ℝ) ^ j ≤ |v|)
    (hj : -100 ≤ j) (hv2 : |v| ≤ 2000) (hc0 : 0 ≤ c) (hc : c ≤ 4) (hd : |rval F a + rval F b - v| ≤ c * 2 ^ (j - F.m)) :
    WithinUlps F (c + 1) v (fAdd F a b) := by
  have hp : 0 < |v| := lt_of_lt_of_le (by positivity) hv
  obtain ⟨n, hn1, hn2⟩ := exists_mem_Ico_zpow hp (by norm_num : (1 : ℝ) < 2)
  have n1 : j < n + 1 := (zpow_lt_zpow_iff_right₀ (by norm_num : (1 : ℝ) < 2)).mp (lt_of_le_of_lt hv hn2)
  have n2 : n < 11 := by
    refine (zpow_lt_zpow_iff_right₀ (by norm_num : (1 : ℝ) < 2)).mp (lt_of_le_of_lt (le_trans hn1 hv2) ?_)
    norm_num
  have hk : KRange F (n + 2) := by
    unfold KRange
    cases h <;> simp only [oneExp, bias, f32, f64] <;> norm_num <;> omega
  have hd' : |rval F a + rval F b - v| ≤ c * 2 ^ (n - F.m) :=
    le_trans hd (mul_le_mul_of_nonneg_left (zpow_le_zpow_right₀ (by norm_num) (by omega)) hc0)
  have hpn : (0 : ℝ) < 2 ^ (n - F.m) := by positivity
  have hnn : (2 : ℝ) ^ (n + 1) = 2 * 2 ^ n := by rw [zpow_add₀ (by norm_num), zpow_one]; ring
  have hnn2 : (2 : ℝ) ^ (n + 2) = 4 * 2 ^ n := by rw [zpow_add₀ (by norm_num)]; norm_num; ring
  have hcn : c * 2 ^ (n - F.m) ≤ 4 * 2 ^ (n - F.m) := mul_le_mul_of_nonneg_right hc hpn.le
  have hone : (2 : ℝ) ^ (n - F.m) ≤ 2 ^ n / 2 ^ 20 := by
    rw [zpow_sub₀ (by norm_num), zpow_natCast]
    refine div_le_div_of_nonneg_left (by positivity) (by positivity) ?_
    refine pow_le_pow_right₀ (by norm_num) ?_
    cases h <;> decide
  have hs : |rval F a + rval F b| ≤ 2 ^ (n + 2) := by
    have := abs_add_le (rval F a + rval F b - v) v
    rw [sub_add_cancel] at this
    have : (0 : ℝ) < 2 ^ n := by positivity
    norm_num at hone
    linarith
  obtain ⟨f1, f2⟩ := fAdd_err h hk ha hb hs
  rw [show n + 2 - (F.m : Int) - 2 = n - F.m by ring] at f2
  refine within_of_pow f1 (by linarith) hn1 ?_
  have := abs_add_le (rval F (fAdd F a b) - (rval F a + rval F b)) (rval F a + rval F b - v)
  rw [sub_add_sub_cancel] at this
  linarith

end

def boxX (F : Fmt) (l a b : ℚ) : Box := Box.mul F (Box.var a b) (Box.const l)
def boxYT (F : Fmt) (yb : Box → Box) (l a b : ℚ) : Box :=
  Box.sub F (Box.mul F (yb (Box.var a b)) (Box.const l)) (Box.half F (Box.mul F (Box.var a b) (boxX F l a b)))

/-- The exponent is zero. -/
def cellT0 (F : Fmt) (yb : Box → Box) (l eps c a b : ℚ) : Bool :=
  let A := boxX F l a b
  let Y := boxYT F yb l a b
  let ex := eps * max |a| |b|
  let lo := A.lo + Y.lo - ex
  let hi := A.hi + Y.hi + ex
  let V := if 0 < lo then lo else -hi
  A.ok && Y.ok && decide (0 < V) && decide (pow2 (flog V) ≤ V) && decide (-100 ≤ flog V) && decide (A.err + Y.err + ex ≤ c * pow2 (flog V - F.m))

/-- The exponent is not zero. -/
def cellT1 (F : Fmt) (yb : Box → Box) (l eps c a b : ℚ) : Bool :=
  let A := Box.add F (boxX F l a b) (boxYT F yb l a b)
  let D := A.err + eps * max |a| |b|
  A.ok && (decide (D ≤ c * pow2 (-F.m - 2)) || decide (0 ≤ a) && decide (D ≤ c * pow2 (-F.m - 1)))

section
variable {F : Fmt} {w : Nat} {x e X : BitVec w} {K : LogConst w} {ls : ℝ} {E : Int} {Y : BitVec w → BitVec w} {G : ℝ → ℝ} {yb : Box → Box} {l : ℚ}

theorem enc_x2 {a b : ℚ} (h : FmtW F w) (hl : isFinite F K.log2e = true ∧ rval F K.log2e = l) (hf : isFinite F x = true)
    (h1 : (a : ℝ) ≤ rval F x) (h2 : rval F x ≤ b) (hok : (boxX F l a b).ok = true) :
    Enc F (fMul F x K.log2e) (rval F x * l) (boxX F l a b) :=
  Enc.mul h hok (fun _ => Enc.var hf h1 h2) (fun _ => Enc.const hl.1 hl.2)

theorem enc_y2 {a b : ℚ} (h : FmtW F w) (hh : isFinite F K.half = true ∧ rval F K.half = 1 / 2)
    (hl : isFinite F K.log2e = true ∧ rval F K.log2e = l) (hY : YB F Y G yb) (hf : isFinite F x = true)
    (h1 : (a : ℝ) ≤ rval F x) (h2 : rval F x ≤ b) (hok : (boxYT F yb l a b).ok = true) :
    Enc F (fSub F (fMul F (Y x) K.log2e) (fMul F (fMul F x (fMul F x K.log2e)) K.half))
      (G (rval F x) * l - rval F x * (rval F x * l) * (1 / 2)) (boxYT F yb l a b) :=
  Enc.sub h hok (fun o => Enc.mul h o (fun o => hY x a b hf h1 h2 o) (fun _ => Enc.const hl.1 hl.2))
    (fun o => Enc.half h hh o (fun o => Enc.mul h o (fun _ => Enc.var hf h1 h2) (fun o => enc_x2 h hl hf h1 h2 o)))

theorem log2_value (hr : LogRedR F X x e E) :
    Real.log (rval F X) / Real.log 2 = Real.log (1 + rval F x) / Real.log 2 + E := by
  have : Real.log 2 ≠ 0 := ne_of_gt (Real.log_pos (by norm_num))
  rw [log_value hr]; field_simp

theorem log2_cap (h : FmtW F w) (hr : LogRedR F X x e E) : |Real.log (1 + rval F x) / Real.log 2 + E| ≤ 2000 := by
  have h1 := log_abs hr.lo hr.hi
  have l1 := log2_gt
  have lp : 0 < Real.log 2 := Real.log_pos (by norm_num)
  have h2 : |(E : ℝ)| ≤ 1074 := by
    have : |E| ≤ 1074 := le_trans hr.small (by cases h <;> decide)
    exact_mod_cast this
  refine le_trans (abs_add_le _ _) ?_
  rw [abs_div, abs_of_pos lp]
  have : |Real.log (1 + rval F x)| / Real.log 2 ≤ 1 := by
    rw [div_le_one lp]; norm_num at *; linarith
  linarith

theorem cellT0_spec {a b eps c : ℚ} (hc : LogC F K ls) (hl : isFinite F K.log2e = true ∧ rval F K.log2e = l) (hr : LogRedR F X x e E) (hE : E = 0)
    (hY : YB F Y G yb) (hcell : cellT0 F yb l eps c a b = true) (h1 : (a : ℝ) ≤ rval F x) (h2 : rval F x ≤ b) (he : 0 ≤ eps) (hc0 : 0 ≤ c) (hc1 : c ≤ 4)
    (hG : |rval F x * l + (G (rval F x) * l - rval F x * (rval F x * l) * (1 / 2)) - Real.log (1 + rval F x) / Real.log 2| ≤ eps * |rval F x|) :
    WithinUlps F (c + 1) (Real.log (rval F X) / Real.log 2) (logEnd (sArith F w) K .two x (fMul F x x) (Y x) e) := by
  have hbd := log2_cap hc.fw hr
  rw [log2_value hr]
  have hev := hr.eval
  rw [hE] at hbd hev ⊢
  simp only [Int.cast_zero, add_zero] at hbd hev ⊢
  show WithinUlps F _ _ (fAdd F (fAdd F (fMul F x K.log2e) (fSub F (fMul F (Y x) K.log2e) (fMul F (fMul F x (fMul F x K.log2e)) K.half))) e)
  unfold cellT0 at hcell
  simp only [Bool.and_eq_true, decide_eq_true_eq] at hcell
  obtain ⟨⟨⟨⟨⟨c0, c1⟩, c2⟩, c3⟩, c4⟩, c5⟩ := hcell
  have hx := enc_x2 hc.fw hl hr.mfin h1 h2 c0
  have hy := enc_y2 hc.fw hc.half hl hY hr.mfin h1 h2 c1
  have hex := ex_le h1 h2 hG he
  generalize hVd : (if 0 < (boxX F l a b).lo + (boxYT F yb l a b).lo - eps * max |a| |b| then (boxX F l a b).lo + (boxYT F yb l a b).lo - eps * max |a| |b|
    else -((boxX F l a b).hi + (boxYT F yb l a b).hi + eps * max |a| |b|)) = V at c2 c3 c4 c5
  have hxe := abs_le.mp hex
  have hV : (V : ℝ) ≤ |Real.log (1 + rval F x) / Real.log 2| := by
    refine away hVd.symm c2 ?_ ?_
    · have := hy.lo
      have := hx.lo
      rw [Rat.cast_sub, Rat.cast_add]; linarith [hxe.2]
    · have := hy.hi
      have := hx.hi
      rw [Rat.cast_add, Rat.cast_add]; linarith [hxe.1]
  have hw := within_add3 hc.fw hx.fin hy.fin (v := Real.log (1 + rval F x) / Real.log 2) (c := c) (j := flog V)
    (le_trans (by rw [← pow2_real]; exact_mod_cast c3) hV) c4 hbd (by exact_mod_cast hc0) (by exact_mod_cast hc1) ?_
  · obtain ⟨f1, f2⟩ := fAdd_zeroR hc.fw hw.1 hr.efin hev
    exact within_congr hw f1 f2
  · have c5' : (((boxX F l a b).err + (boxYT F yb l a b).err + eps * max |a| |b| : ℚ) : ℝ) ≤ c * 2 ^ (flog V - F.m) := by
      rw [← pow2_real]; exact_mod_cast c5
    refine le_trans ?_ c5'
    rw [Rat.cast_add, Rat.cast_add]
    have e1 := hy.err
    have e0 := hx.err
    generalize rval F (fSub F (fMul F (Y x) K.log2e) (fMul F (fMul F x (fMul F x K.log2e)) K.half)) = u at e1 ⊢
    generalize rval F (fMul F x K.log2e) = z at e0 ⊢
    rw [show z + u - Real.log (1 + rval F x) / Real.log 2 =
      (z - rval F x * l) + (u - (G (rval F x) * l - rval F x * (rval F x * l) * (1 / 2))) +
      (rval F x * l + (G (rval F x) * l - rval F x * (rval F x * l) * (1 / 2)) - Real.log (1 + rval F x) / Real.log 2) by ring]
    exact le_trans (abs_add_le _ _) (add_le_add (le_trans (abs_add_le _ _) (add_le_add e0 e1)) hex)

theorem cellT1_spec {a b eps c : ℚ} (hc : LogC F K ls) (hl : isFinite F K.log2e = true ∧ rval F K.log2e = l) (hr : LogRedR F X x e E) (hE : E ≠ 0)
    (hY : YB F Y G yb) (hcell : cellT1 F yb l eps c a b = true) (h1 : (a : ℝ) ≤ rval F x) (h2 : rval F x ≤ b) (he : 0 ≤ eps) (hc0 : 0 ≤ c) (hc1 : c ≤ 4)
    (hG : |rval F x * l + (G (rval F x) * l - rval F x * (rval F x * l) * (1 / 2)) - Real.log (1 + rval F x) / Real.log 2| ≤ eps * |rval F x|) :
    WithinUlps F (c + 1) (Real.log (rval F X) / Real.log 2) (logEnd (sArith F w) K .two x (fMul F x x) (Y x) e) := by
  have hbd := log2_cap hc.fw hr
  rw [log2_value hr]
  show WithinUlps F _ _ (fAdd F (fAdd F (fMul F x K.log2e) (fSub F (fMul F (Y x) K.log2e) (fMul F (fMul F x (fMul F x K.log2e)) K.half))) e)
  unfold cellT1 at hcell
  simp only [Bool.and_eq_true, Bool.or_eq_true, decide_eq_true_eq] at hcell
  obtain ⟨c0, c1⟩ := hcell
  have ht := Enc.add hc.fw c0 (fun o => enc_x2 hc.fw hl hr.mfin h1 h2 o) (fun o => enc_y2 hc.fw hc.half hl hY hr.mfin h1 h2 o)
  have hex := ex_le h1 h2 hG he
  have hL := log_abs hr.lo hr.hi
  have lp : 0 < Real.log 2 := Real.log_pos (by norm_num)
  have lg := log2_gt
  have hE1 : (1 : ℝ) ≤ |(E : ℝ)| := by exact_mod_cast Int.one_le_abs hE
  generalize fAdd F (fMul F x K.log2e) (fSub F (fMul F (Y x) K.log2e) (fMul F (fMul F x (fMul F x K.log2e)) K.half)) = t at ht ⊢
  have e1 := ht.err
  have hD : |rval F t + rval F e - (Real.log (1 + rval F x) / Real.log 2 + E)| ≤
      (((Box.add F (boxX F l a b) (boxYT F yb l a b)).err + eps * max |a| |b| : ℚ) : ℝ) := by
    rw [hr.eval, Rat.cast_add]
    rw [show rval F t + E - (Real.log (1 + rval F x) / Real.log 2 + E) =
      (rval F t - (rval F x * l + (G (rval F x) * l - rval F x * (rval F x * l) * (1 / 2)))) +
      (rval F x * l + (G (rval F x) * l - rval F x * (rval F x * l) * (1 / 2)) - Real.log (1 + rval F x) / Real.log 2) by ring]
    exact le_trans (abs_add_le _ _) (add_le_add e1 hex)
  have hq : |Real.log (1 + rval F x) / Real.log 2| ≤ 3 / 4 := by
    rw [abs_div, abs_of_pos lp, div_le_iff₀ lp]; norm_num at *; linarith
  rcases c1 with c1 | ⟨c2, c1⟩
  · refine within_add3 hc.fw ht.fin hr.efin (j := -2) ?_ (by norm_num) hbd (by exact_mod_cast hc0) (by exact_mod_cast hc1) (le_trans hD ?_)
    · have := abs_sub (Real.log (1 + rval F x) / Real.log 2 + E) (Real.log (1 + rval F x) / Real.log 2)
      rw [add_sub_cancel_left] at this
      norm_num
      linarith
    · rw [show -2 - (F.m : Int) = -F.m - 2 by ring, ← pow2_real]; exact_mod_cast c1
  · refine within_add3 hc.fw ht.fin hr.efin (j := -1) ?_ (by norm_num) hbd (by exact_mod_cast hc0) (by exact_mod_cast hc1) (le_trans hD ?_)
    · have hx0 : 0 ≤ rval F x := le_trans (by exact_mod_cast c2) h1
      have q0 : 0 ≤ Real.log (1 + rval F x) / Real.log 2 := div_nonneg (Real.log_nonneg (by linarith)) lp.le
      have q1 : Real.log (1 + rval F x) / Real.log 2 ≤ 1 / 2 := by
        rw [div_le_iff₀ lp]
        have h3 := Real.log_le_log (by positivity) hr.root
        rw [Real.log_pow] at h3
        push_cast at h3
        linarith
      have := abs_sub (Real.log (1 + rval F x) / Real.log 2 + E) (Real.log (1 + rval F x) / Real.log 2)
      rw [add_sub_cancel_left, abs_of_nonneg q0] at this
      norm_num
      linarith
    · rw [show -1 - (F.m : Int) = -F.m - 1 by ring, ← pow2_real]; exact_mod_cast c1

/-- All arguments. -/
structure LogCellsT (F : Fmt) (yb : Box → Box) (l : ℚ) (ef : ℚ → ℚ → ℚ) (c : ℚ) (l0p l0n l1 : List ℚ) : Prop where
  hp : l0p.head? = some (pow2 (-F.m - 1)) ∧ l0p.getLast? = some (517767 / 1250000)
  hn : l0n.head? = some (-(2928933 / 10000000)) ∧ l0n.getLast? = some (-pow2 (-F.m - 1))
  h1 : l1.head? = some (-(2928933 / 10000000)) ∧ l1.getLast? = some (517767 / 1250000)
  cp : cells (fun a b => cellT0 F yb l (ef a b) c a b) l0p = true
  cn : cells (fun a b => cellT0 F yb l (ef a b) c a b) l0n = true
  c1 : cells (fun a b => cellT1 F yb l (ef a b) c a b) l1 = true

theorem log2_cells {ef : ℚ → ℚ → ℚ} {c : ℚ} {l0p l0n l1 : List ℚ} (hcs : LogCellsT F yb l ef c l0p l0n l1)
    (hc : LogC F K ls) (hl : isFinite F K.log2e = true ∧ rval F K.log2e = l) (hr : LogRedR F X x e E) (hY : YB F Y G yb) (hef : ∀ a b, 0 ≤ ef a b)
    (hc0 : 0 ≤ c) (hc1 : c ≤ 4)
    (hG : ∀ a b : ℚ, (a : ℝ) ≤ rval F x → rval F x ≤ b →
      |rval F x * l + (G (rval F x) * l - rval F x * (rval F x * l) * (1 / 2)) - Real.log (1 + rval F x) / Real.log 2| ≤ ef a b * |rval F x|)
    (h0 : rval F x = 0 → E = 0 → isFinite F (logEnd (sArith F w) K .two x (fMul F x x) (Y x) e) = true ∧
      rval F (logEnd (sArith F w) K .two x (fMul F x x) (Y x) e) = 0) :
    WithinUlps F (c + 1) (Real.log (rval F X) / Real.log 2) (logEnd (sArith F w) K .two x (fMul F x x) (Y x) e) := by
  have hlo : ((-(2928933 / 10000000) : ℚ) : ℝ) ≤ rval F x := by have := hr.lo; norm_num at this ⊢; linarith
  have hhi : rval F x ≤ ((517767 / 1250000 : ℚ) : ℝ) := by have := hr.hi; norm_num at this ⊢; linarith
  have hsm : pow2 (-F.m - 1) < 517767 / 1250000 ∧ -(2928933 / 10000000) < -pow2 (-F.m - 1) := by
    cases hc.fw <;> decide +kernel
  by_cases hE : E = 0
  · by_cases hx : rval F x = 0
    · obtain ⟨f1, f2⟩ := h0 hx hE
      have hv : Real.log (rval F X) / Real.log 2 = 0 := by rw [log_value hr, hE, hx]; simp
      rw [hv]
      refine ⟨f1, fun _ => f2, fun e' h1 _ => ?_⟩
      rw [f2, sub_zero, abs_zero]
      have : (0 : ℝ) ≤ ((c : ℚ) : ℝ) := by exact_mod_cast hc0
      positivity
    · have hg : (2 : ℝ) ^ (-(F.m : Int) - 1) ≤ |rval F x| := by
        obtain ⟨k, hk⟩ := hr.grid
        have hk0 : k ≠ 0 := by rintro rfl; apply hx; rw [hk]; simp
        rw [hk, abs_mul, abs_of_pos (show (0 : ℝ) < 2 ^ (-((F.m : Int) + 1)) by positivity), show -(F.m : Int) - 1 = -(F.m + 1) by ring]
        refine le_mul_of_one_le_left (by positivity) ?_
        exact_mod_cast Int.one_le_abs hk0
      rcases le_total 0 (rval F x) with h | h
      · rw [abs_of_nonneg h] at hg
        obtain ⟨a, b, p, q1, q2⟩ := cells_spec hcs.cp hcs.hp.1 hcs.hp.2 (by rw [pow2_real]; exact hg) hhi hsm.1
        exact cellT0_spec hc hl hr hE hY p q1 q2 (hef _ _) hc0 hc1 (hG a b q1 q2)
      · rw [abs_of_nonpos h] at hg
        obtain ⟨a, b, p, q1, q2⟩ := cells_spec hcs.cn hcs.hn.1 hcs.hn.2 hlo (by rw [Rat.cast_neg, pow2_real]; linarith) hsm.2
        exact cellT0_spec hc hl hr hE hY p q1 q2 (hef _ _) hc0 hc1 (hG a b q1 q2)
  · obtain ⟨a, b, p, q1, q2⟩ := cells_spec hcs.c1 hcs.h1.1 hcs.h1.2 hlo hhi (by norm_num)
    exact cellT1_spec hc hl hr hE hY p q1 q2 (hef _ _) hc0 hc1 (hG a b q1 q2)

/-- The error of the approximation, from that of the natural logarithm. -/
theorem log2_apx {t g L eps δ : ℝ} (hg : |t + (g - t * t * (1 / 2)) - L| ≤ eps * |t|) (hl0 : 0 ≤ (l : ℝ)) (hl1 : (l : ℝ) ≤ 1.4427)
    (hδ : |(l : ℝ) - 1 / Real.log 2| ≤ δ) (hL : |L| ≤ 1.4143 * |t|) :
    |t * l + (g * l - t * (t * l) * (1 / 2)) - L / Real.log 2| ≤ (1.4427 * eps + 1.4143 * δ) * |t| := by
  rw [show t * l + (g * l - t * (t * l) * (1 / 2)) - L / Real.log 2 = l * (t + (g - t * t * (1 / 2)) - L) + L * (l - 1 / Real.log 2) by ring]
  refine le_trans (abs_add_le _ _) ?_
  rw [abs_mul, abs_mul, abs_of_nonneg hl0]
  have a1 := mul_le_mul hl1 hg (abs_nonneg _) (by norm_num)
  have a2 := mul_le_mul hL hδ (abs_nonneg _) (by positivity)
  linarith

/-- The logarithm near one. -/
theorem log_le_t {t : ℝ} (h1 : -0.2928933 ≤ t) : |Real.log (1 + t)| ≤ 1.4143 * |t| := by
  rcases le_total 0 t with h | h
  · rw [abs_of_nonneg (Real.log_nonneg (by linarith)), abs_of_nonneg h]
    have := Real.log_le_sub_one_of_pos (show 0 < 1 + t by linarith)
    norm_num; linarith
  · have := log_neg_hi h h1
    norm_num at this ⊢
    linarith [abs_nonneg t]

end
end Vc.Lemma
