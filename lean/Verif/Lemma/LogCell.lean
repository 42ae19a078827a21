import Verif.Lemma.LogDoc

/-!
`log` on a cell of reduced arguments.
-/

namespace Vc.Lemma
open Vc.Model Vc.Spec

section
variable {F : Fmt} {w : Nat} {a b s t x : BitVec w}

theorem fAdd_zeroR (h : FmtW F w) (ha : isFinite F a = true) (hb : isFinite F b = true) (h0 : rval F b = 0) :
    isFinite F (fAdd F a b) = true ∧ rval F (fAdd F a b) = rval F a := by
  have hb0 : fval F b = 0 := by
    unfold rval at h0
    rcases div_eq_zero_iff.mp h0 with h | h
    · exact_mod_cast h
    · exact absurd h (ne_of_gt (one_pos F))
  have hx := fAdd_nearest h ha hb
  have hxy := nearest_eq Nat.one_pos hx (isFinite_not ha).1 (by rw [hb0, Int.add_zero]; simp)
  exact ⟨finite_of_val ha hxy, by unfold rval; rw [hxy]⟩

theorem within_congr {k v : ℝ} {r r' : BitVec w} (h : WithinUlps F k v r) (hf : isFinite F r' = true) (he : rval F r' = rval F r) :
    WithinUlps F k v r' := ⟨hf, fun h0 => by rw [he]; exact h.2.1 h0, fun e h1 h2 => by rw [he]; exact h.2.2 e h1 h2⟩

end

/-- Multiplication with one half. -/
def Box.half (F : Fmt) (A : Box) : Box :=
  if decide (pow2 (-120) ≤ A.lo - A.err) && decide (A.hi + A.err ≤ 1) then ⟨A.lo / 2, A.hi / 2, A.err / 2, A.ok⟩
  else Box.mul F A (Box.const (1 / 2))

theorem Enc.half {F : Fmt} {w : Nat} {s c : BitVec w} {p : ℝ} {A : Box} (h : FmtW F w) (hc : isFinite F c = true ∧ rval F c = 1 / 2)
    (hok : (Box.half F A).ok = true) (hs : A.ok = true → Enc F s p A) : Enc F (fMul F s c) (p * (1 / 2)) (Box.half F A) := by
  unfold Box.half at hok ⊢
  split
  · rename_i hb
    rw [if_pos hb] at hok
    rw [Bool.and_eq_true, decide_eq_true_eq, decide_eq_true_eq] at hb
    have hs := hs hok
    have b1 : (2 : ℝ) ^ (-120 : Int) ≤ A.lo - A.err := by rw [← pow2_real]; exact_mod_cast hb.1
    have b2 : (A.hi : ℝ) + A.err ≤ 1 := by exact_mod_cast hb.2
    have e := hs.err
    have e' := _root_.abs_le.mp e
    have l := hs.lo
    have u := hs.hi
    obtain ⟨f1, f2⟩ := fMul_half h hc hs.fin (by linarith) (by linarith)
    refine ⟨f1, ?_, ?_, ?_⟩
    · rw [f2, ← sub_mul, abs_mul, abs_of_pos (by norm_num : (0 : ℝ) < 1 / 2)]
      push_cast; linarith
    · push_cast; linarith
    · push_cast; linarith
  · rename_i hb
    rw [if_neg hb] at hok
    have := Enc.mul (q := ((1 / 2 : ℚ) : ℝ)) h hok hs (fun _ => Enc.const hc.1 (by rw [hc.2]; norm_num))
    convert this using 2
    norm_num

/-- The box of the polynomial part of the series. -/
def YB (F : Fmt) {w : Nat} (Y : BitVec w → BitVec w) (G : ℝ → ℝ) (yb : Box → Box) : Prop :=
  ∀ (x : BitVec w) (a b : ℚ), isFinite F x = true → (a : ℝ) ≤ rval F x → rval F x ≤ b → (yb (Box.var a b)).ok = true →
    Enc F (Y x) (G (rval F x)) (yb (Box.var a b))

def boxY0 (F : Fmt) (yb : Box → Box) (a b : ℚ) : Box :=
  Box.sub F (yb (Box.var a b)) (Box.half F (Box.mul F (Box.var a b) (Box.var a b)))

def boxY1 (F : Fmt) (yb : Box → Box) (T : Box) (a b : ℚ) : Box :=
  Box.sub F (Box.add F (yb (Box.var a b)) T) (Box.half F (Box.mul F (Box.var a b) (Box.var a b)))

/-- The binary order of magnitude. -/
def flog (V : ℚ) : Int :=
  let k : Int := (Nat.log2 V.num.natAbs : Int) - (Nat.log2 V.den : Int)
  if pow2 k ≤ V then k else k - 1

/-- The exponent is zero: the distance from zero in `V`. -/
def cell0 (F : Fmt) (yb : Box → Box) (eps c a b : ℚ) : Bool :=
  let Y := boxY0 F yb a b
  let ex := eps * max |a| |b|
  let lo := a + Y.lo - ex
  let hi := b + Y.hi + ex
  let V := if 0 < lo then lo else -hi
  Y.ok && decide (0 < V) && decide (pow2 (flog V) ≤ V) && decide (-100 ≤ flog V) && decide (Y.err + ex ≤ c * pow2 (flog V - F.m))

/-- The box of `e * ln2_small`. -/
def boxT1 (F : Fmt) : Box := ⟨-(2122 / 10000000), 2122 / 10000000, 22 / 100000 * pow2 (-F.m - 1), true⟩
def boxT2 (F : Fmt) (Z : ℚ) : Box := ⟨-Z, Z, (Z + 1 / 1000) * pow2 (-F.m - 1), true⟩

/-- The exponent is one or minus one. -/
def cell1 (F : Fmt) (yb : Box → Box) (eps c a b : ℚ) : Bool :=
  let Y := boxY1 F yb (boxT1 F) a b
  let D := Y.err + eps * max |a| |b| + pow2 (-F.m - 10)
  let g := pow2 (-F.m - 2)
  let lo := a + Y.lo
  let hi := b + Y.hi
  let V := if 0 < lo then lo else -hi
  Y.ok && decide (D ≤ c * g) && (decide (D ≤ (c - 1 / 4) * g) || decide (2501 / 10000 ≤ V))

/-- Larger exponents; the logarithm is at least `2 ^ j`. -/
def cell2 (F : Fmt) (yb : Box → Box) (Z : ℚ) (j : Nat) (eps c a b : ℚ) : Bool :=
  let Y := boxY1 F yb (boxT2 F Z) a b
  let D := Y.err + eps * max |a| |b|
  Y.ok && decide (D ≤ (c * pow2 j - if Z ≤ 3 / 20 then 9 / 40 else 9 / 25) * pow2 (-F.m))

section
variable {F : Fmt} {w : Nat} {x y e X z : BitVec w} {K : LogConst w} {ls : ℝ} {E : Int} {Y : BitVec w → BitVec w} {G : ℝ → ℝ} {yb : Box → Box}

theorem ex_le {a b eps : ℚ} {v : ℝ} (h1 : (a : ℝ) ≤ v) (h2 : v ≤ b) {r : ℝ} (h : r ≤ eps * |v|) (he : 0 ≤ eps) :
    r ≤ ((eps * max |a| |b| : ℚ) : ℝ) := by
  refine le_trans h ?_
  rw [Rat.cast_mul]
  exact mul_le_mul_of_nonneg_left (abs_le_mag h1 h2) (by exact_mod_cast he)

/-- The box of `y + e * ln2_small - x2 / 2`. -/
theorem enc_y1 {a b : ℚ} {T : Box} {Zv : ℝ} (h : FmtW F w) (hh : isFinite F K.half = true ∧ rval F K.half = 1 / 2) (hY : YB F Y G yb) (hf : isFinite F x = true)
    (h1 : (a : ℝ) ≤ rval F x) (h2 : rval F x ≤ b) (hT : Enc F z Zv T) (hok : (boxY1 F yb T a b).ok = true) :
    Enc F (fSub F (fAdd F (Y x) z) (fMul F (fMul F x x) K.half)) (G (rval F x) + Zv - rval F x * rval F x * (1 / 2)) (boxY1 F yb T a b) :=
  Enc.sub h hok (fun o => Enc.add h o (fun o => hY x a b hf h1 h2 o) (fun _ => hT))
    (fun o => Enc.half h hh o (fun o => Enc.mul h o (fun _ => Enc.var hf h1 h2) (fun _ => Enc.var hf h1 h2)))

theorem enc_y0 {a b : ℚ} (h : FmtW F w) (hh : isFinite F K.half = true ∧ rval F K.half = 1 / 2) (hY : YB F Y G yb) (hf : isFinite F x = true)
    (h1 : (a : ℝ) ≤ rval F x) (h2 : rval F x ≤ b) (hz : isFinite F z = true ∧ rval F z = 0) (hok : (boxY0 F yb a b).ok = true) :
    Enc F (fSub F (fAdd F (Y x) z) (fMul F (fMul F x x) K.half)) (G (rval F x) - rval F x * rval F x * (1 / 2)) (boxY0 F yb a b) := by
  refine Enc.sub h hok (fun o => ?_)
    (fun o => Enc.half h hh o (fun o => Enc.mul h o (fun _ => Enc.var hf h1 h2) (fun _ => Enc.var hf h1 h2)))
  have hy := hY x a b hf h1 h2 o
  obtain ⟨f1, f2⟩ := fAdd_zeroR h hy.fin hz.1 hz.2
  exact ⟨f1, by rw [f2]; exact hy.err, hy.lo, hy.hi⟩

/-- The sign of a number away from zero. -/
theorem away {lo hi V : ℚ} {p : ℝ} (hV : V = if 0 < lo then lo else -hi) (hp : 0 < V) (h1 : (lo : ℝ) ≤ p) (h2 : p ≤ hi) : (V : ℝ) ≤ |p| := by
  subst hV
  split
  · exact le_trans h1 (le_abs_self _)
  · refine le_trans ?_ (neg_le_abs _)
    push_cast; linarith

theorem cell0_spec {a b eps c : ℚ} (hc : LogC F K ls) (hr : LogRedR F X x e E) (hE : E = 0) (hY : YB F Y G yb)
    (hcell : cell0 F yb eps c a b = true) (h1 : (a : ℝ) ≤ rval F x) (h2 : rval F x ≤ b) (he : 0 ≤ eps) (hc0 : 0 ≤ c) (hc1 : c ≤ 1)
    (hG : |rval F x + (G (rval F x) - rval F x * rval F x * (1 / 2)) - Real.log (1 + rval F x)| ≤ eps * |rval F x|) :
    WithinUlps F (c + 1 / 2) (Real.log (rval F X)) (logEnd (sArith F w) K .e x (fMul F x x) (Y x) e) := by
  have hb := mul_large hc hr
  have hbd := log_bound hc.fw hr
  rw [log_value hr]
  rw [hE] at hb hbd ⊢
  have hev := hr.eval
  rw [hE] at hev
  simp only [Int.cast_zero, zero_mul, add_zero] at hb hbd hev ⊢
  have hz : isFinite F (fMul F e K.ln2Small) = true ∧ rval F (fMul F e K.ln2Small) = 0 :=
    fMul_repr hc.fw hr.efin hc.small.1 (repr_zero hc.fw) (by rw [hev]; simp)
  show WithinUlps F _ _ (fAdd F (fAdd F x (fSub F (fAdd F (Y x) (fMul F e K.ln2Small)) (fMul F (fMul F x x) K.half))) (fMul F e K.ln2Large))
  unfold cell0 at hcell
  simp only [Bool.and_eq_true, decide_eq_true_eq] at hcell
  obtain ⟨⟨⟨⟨c1, c2⟩, c3⟩, c4⟩, c5⟩ := hcell
  have hy := enc_y0 hc.fw hc.half hY hr.mfin h1 h2 hz c1
  have hex := ex_le h1 h2 hG he
  generalize hVd : (if 0 < a + (boxY0 F yb a b).lo - eps * max |a| |b| then a + (boxY0 F yb a b).lo - eps * max |a| |b|
    else -(b + (boxY0 F yb a b).hi + eps * max |a| |b|)) = V at c2 c3 c4 c5
  have hxe := abs_le.mp hex
  have hV : (V : ℝ) ≤ |Real.log (1 + rval F x)| := by
    refine away hVd.symm c2 ?_ ?_
    · have := hy.lo
      rw [Rat.cast_sub, Rat.cast_add]; linarith [hxe.2]
    · have := hy.hi
      rw [Rat.cast_add, Rat.cast_add]; linarith [hxe.1]
  have hw := within_add hc.fw hr.mfin hy.fin (v := Real.log (1 + rval F x)) (c := c) (j := flog V)
    (le_trans (by rw [← pow2_real]; exact_mod_cast c3) hV) c4 hbd (by exact_mod_cast hc0) (by exact_mod_cast hc1) ?_
  · obtain ⟨f1, f2⟩ := fAdd_zeroR hc.fw hw.1 hb.1 hb.2
    exact within_congr hw f1 f2
  · have c5' : (((boxY0 F yb a b).err + eps * max |a| |b| : ℚ) : ℝ) ≤ c * 2 ^ (flog V - F.m) := by
      rw [← pow2_real]; exact_mod_cast c5
    refine le_trans ?_ c5'
    rw [Rat.cast_add]
    have e1 := hy.err
    generalize rval F (fSub F (fAdd F (Y x) (fMul F e K.ln2Small)) (fMul F (fMul F x x) K.half)) = u at e1 ⊢
    have := abs_add_le (u - (G (rval F x) - rval F x * rval F x * (1 / 2)))
      (rval F x + (G (rval F x) - rval F x * rval F x * (1 / 2)) - Real.log (1 + rval F x))
    rw [show u - (G (rval F x) - rval F x * rval F x * (1 / 2)) +
      (rval F x + (G (rval F x) - rval F x * rval F x * (1 / 2)) - Real.log (1 + rval F x)) = rval F x + u - Real.log (1 + rval F x) by ring] at this
    linarith

theorem enc_T1 (hc : LogC F K ls) (hr : LogRedR F X x e E) (hE : |(E : ℝ)| ≤ 1) : Enc F (fMul F e K.ln2Small) (E * ls) (boxT1 F) := by
  have h := mul_small hc hr hE (by norm_num)
  have hb := abs_le.mp h.bnd
  norm_num at hb
  refine ⟨h.fin, le_trans h.err ?_, ?_, ?_⟩
  · unfold boxT1 uRel
    dsimp only
    rw [Rat.cast_mul, pow2_real, mul_one, show -((F.m : Int) + 1) = -F.m - 1 by ring]
    refine mul_le_mul_of_nonneg_right ?_ (by positivity)
    norm_num
  · unfold boxT1; push_cast; linarith [hb.1]
  · unfold boxT1; push_cast; linarith [hb.2]

theorem enc_T2 {Z : ℚ} {N : ℝ} (hc : LogC F K ls) (hr : LogRedR F X x e E) (hEm : |(E : ℝ)| ≤ N) (ho : N ≤ 2000) (hZ : N * 0.0002122 ≤ (Z : ℝ)) :
    Enc F (fMul F e K.ln2Small) (E * ls) (boxT2 F Z) := by
  have h := mul_small hc hr hEm ho
  have hb := abs_le.mp h.bnd
  rw [mul_one] at hb
  refine ⟨h.fin, le_trans h.err ?_, ?_, ?_⟩
  · unfold boxT2 uRel
    dsimp only
    rw [Rat.cast_mul, pow2_real, mul_one, show -((F.m : Int) + 1) = -F.m - 1 by ring]
    refine mul_le_mul_of_nonneg_right ?_ (by positivity)
    push_cast
    norm_num at hZ ⊢
    linarith
  · unfold boxT2; push_cast; linarith [hb.1]
  · unfold boxT2; push_cast; linarith [hb.2]

/-- The sum before the last two roundings. -/
theorem sum_err {a b eps : ℚ} {T : Box} {κ Z : ℝ} (hc : LogC F K ls) (hr : LogRedR F X x e E) (hY : YB F Y G yb)
    (h1 : (a : ℝ) ≤ rval F x) (h2 : rval F x ≤ b) (he : 0 ≤ eps) (hT : Enc F (fMul F e K.ln2Small) (E * ls) T)
    (hok : (boxY1 F yb T a b).ok = true) (hκ : |(E : ℝ) * (355 / 512 + ls - Real.log 2)| ≤ κ) (hZ : |(E : ℝ) * ls| ≤ Z)
    (hG : |rval F x + (G (rval F x) - rval F x * rval F x * (1 / 2)) - Real.log (1 + rval F x)| ≤ eps * |rval F x|) :
    let u := fSub F (fAdd F (Y x) (fMul F e K.ln2Small)) (fMul F (fMul F x x) K.half)
    isFinite F u = true ∧
    |rval F x + rval F u + E * (355 / 512) - (Real.log (1 + rval F x) + E * Real.log 2)| ≤ (((boxY1 F yb T a b).err + eps * max |a| |b| : ℚ) : ℝ) + κ ∧
    |rval F x + rval F u| ≤ 0.3466 + Z + (((boxY1 F yb T a b).err + eps * max |a| |b| : ℚ) : ℝ) ∧
    ((a + (boxY1 F yb T a b).lo : ℚ) : ℝ) - ((boxY1 F yb T a b).err : ℝ) ≤ rval F x + rval F u ∧
    rval F x + rval F u ≤ ((b + (boxY1 F yb T a b).hi : ℚ) : ℝ) + ((boxY1 F yb T a b).err : ℝ) := by
  intro u
  have hy := enc_y1 hc.fw hc.half hY hr.mfin h1 h2 hT hok
  have hex := ex_le h1 h2 hG he
  have hL := log_abs hr.lo hr.hi
  have e1 := hy.err
  have e3 := abs_le.mp e1
  have lo := hy.lo
  have hi := hy.hi
  change |rval F u - _| ≤ _ at e1
  change _ ≤ rval F u - _ ∧ rval F u - _ ≤ _ at e3
  refine ⟨hy.fin, ?_, ?_, ?_, ?_⟩
  · rw [Rat.cast_add]
    rw [show rval F x + rval F u + E * (355 / 512) - (Real.log (1 + rval F x) + E * Real.log 2) =
      (rval F u - (G (rval F x) + E * ls - rval F x * rval F x * (1 / 2))) +
      (rval F x + (G (rval F x) - rval F x * rval F x * (1 / 2)) - Real.log (1 + rval F x)) + E * (355 / 512 + ls - Real.log 2) by ring]
    refine le_trans (abs_add_le _ _) (add_le_add (le_trans (abs_add_le _ _) (add_le_add e1 hex)) hκ)
  · rw [Rat.cast_add]
    rw [show rval F x + rval F u =
      Real.log (1 + rval F x) + E * ls + ((rval F u - (G (rval F x) + E * ls - rval F x * rval F x * (1 / 2))) +
      (rval F x + (G (rval F x) - rval F x * rval F x * (1 / 2)) - Real.log (1 + rval F x))) by ring]
    refine le_trans (abs_add_le _ _) (add_le_add (le_trans (abs_add_le _ _) (add_le_add hL hZ)) (le_trans (abs_add_le _ _) (add_le_add e1 hex)))
  · rw [Rat.cast_add]; linarith [e3.1]
  · rw [Rat.cast_add]; linarith [e3.2]

theorem cell2_spec {a b eps c Z : ℚ} {N n : ℝ} {j : Nat} (hc : LogC F K ls) (hr : LogRedR F X x e E) (hn : n ≤ |(E : ℝ)|) (hN : |(E : ℝ)| ≤ N)
    (hN2 : N ≤ 2000) (hj : (2 : ℝ) ^ j ≤ 0.6931 * n - 0.3466) (hj5 : j ≤ 5) (hY : YB F Y G yb)
    (hZ : N * 0.0002122 ≤ (Z : ℝ)) (hZ1 : Z ≤ 23 / 100)
    (hcell : cell2 F yb Z j eps c a b = true) (h1 : (a : ℝ) ≤ rval F x) (h2 : rval F x ≤ b) (he : 0 ≤ eps) (hc0 : 0 ≤ c) (hc1 : c ≤ 1)
    (hG : |rval F x + (G (rval F x) - rval F x * rval F x * (1 / 2)) - Real.log (1 + rval F x)| ≤ eps * |rval F x|) :
    WithinUlps F (c + 1 / 2) (Real.log (rval F X)) (logEnd (sArith F w) K .e x (fMul F x x) (Y x) e) := by
  have hb := mul_large hc hr
  have hbd := log_bound hc.fw hr
  rw [log_value hr]
  have hEm : |(E : ℝ)| ≤ oneExp F := by exact_mod_cast hr.small
  have hvl := log_large (log_abs hr.lo hr.hi) hn
  unfold cell2 at hcell
  simp only [Bool.and_eq_true, decide_eq_true_eq] at hcell
  obtain ⟨c1, c2⟩ := hcell
  have hκ : |(E : ℝ) * (355 / 512 + ls - Real.log 2)| ≤ 0.2 * uRel F := by
    rw [abs_mul, mul_comm]
    exact le_trans (mul_le_mul_of_nonneg_left hEm (abs_nonneg _)) hc.ln2
  have hZ' : |(E : ℝ) * ls| ≤ Z := by
    rw [abs_mul]
    exact le_trans (mul_le_mul hN hc.lsb (abs_nonneg _) (le_trans (abs_nonneg _) hN)) hZ
  obtain ⟨f, e1, e2, -, -⟩ := sum_err hc hr hY h1 h2 he (enc_T2 hc hr hN hN2 hZ) c1 hκ hZ' hG
  show WithinUlps F _ _ (fAdd F (fAdd F x (fSub F (fAdd F (Y x) (fMul F e K.ln2Small)) (fMul F (fMul F x x) K.half))) (fMul F e K.ln2Large))
  generalize fSub F (fAdd F (Y x) (fMul F e K.ln2Small)) (fMul F (fMul F x x) K.half) = u at f e1 e2 ⊢
  have c2' : (((boxY1 F yb (boxT2 F Z) a b).err + eps * max |a| |b| : ℚ) : ℝ) ≤ (c * 2 ^ j - if Z ≤ 3 / 20 then 9 / 40 else 9 / 25) * 2 ^ (-(F.m : Int)) := by
    have := (Rat.cast_le (K := ℝ)).mpr c2
    rw [Rat.cast_mul, pow2_real, Rat.cast_sub, Rat.cast_mul, pow2_real, zpow_natCast] at this
    refine le_trans this (le_of_eq ?_)
    split <;> norm_num
  generalize (((boxY1 F yb (boxT2 F Z) a b).err + eps * max |a| |b| : ℚ) : ℝ) = D at e1 e2 c2'
  have hc1' : (c : ℝ) ≤ 1 := by exact_mod_cast hc1
  have hZ1' : (Z : ℝ) ≤ 23 / 100 := by
    have := (Rat.cast_le (K := ℝ)).mpr hZ1
    norm_num at this ⊢; linarith
  have hj5' : (2 : ℝ) ^ j ≤ 32 := by
    have := pow_le_pow_right₀ (by norm_num : (1 : ℝ) ≤ 2) hj5
    norm_num at this ⊢; linarith
  have hj0 : (0 : ℝ) < 2 ^ j := by positivity
  have hp : (2 : ℝ) ^ (-(F.m : Int)) ≤ 1 / 100000 := by cases hc.fw <;> norm_num [f32, f64]
  have hp0 : (0 : ℝ) < 2 ^ (-(F.m : Int)) := by positivity
  have hcj : c * (2 : ℝ) ^ j ≤ 32 := le_trans (mul_le_of_le_one_left hj0.le hc1') hj5'
  have hD : D ≤ 1 / 1000 := by
    refine le_trans c2' ?_
    have h3 : (c * (2 : ℝ) ^ j - if Z ≤ 3 / 20 then 9 / 40 else 9 / 25) ≤ 32 := by split <;> linarith
    have := mul_le_mul_of_nonneg_right h3 hp0.le
    linarith
  have hk0 : KRange F 0 := by cases hc.fw <;> decide
  have hk1 : KRange F (-1) := by cases hc.fw <;> decide
  have hu : uRel F = 1 / 2 * 2 ^ (-(F.m : Int)) := by
    unfold uRel
    rw [show -((F.m : Int) + 1) = -F.m - 1 by ring, zpow_sub₀ (by norm_num), zpow_one]; ring
  have hx : isFinite F (fAdd F x u) = true ∧ |rval F (fAdd F x u) - (rval F x + rval F u)| ≤
      (if Z ≤ 3 / 20 then 1 / 8 else 1 / 4) * 2 ^ (-(F.m : Int)) := by
    split
    · rename_i hz
      have hz' : (Z : ℝ) ≤ 3 / 20 := by
        have := (Rat.cast_le (K := ℝ)).mpr hz
        norm_num at this ⊢; linarith
      obtain ⟨g1, g2⟩ := fAdd_err hc.fw hk1 hr.mfin f (by norm_num at e2 ⊢; linarith)
      rw [show -1 - (F.m : Int) - 2 = -F.m + (-3) by ring, zpow_add₀ (by norm_num)] at g2
      refine ⟨g1, le_trans g2 (le_of_eq ?_)⟩
      norm_num; ring
    · obtain ⟨g1, g2⟩ := fAdd_err hc.fw hk0 hr.mfin f (by rw [zpow_zero]; norm_num at e2 ⊢; linarith)
      rw [zero_sub, show -(F.m : Int) - 2 = -F.m + (-2) by ring, zpow_add₀ (by norm_num)] at g2
      refine ⟨g1, le_trans g2 (le_of_eq ?_)⟩
      norm_num; ring
  obtain ⟨g1, g2⟩ := hx
  refine within_add hc.fw g1 hb.1 (j := j) (by rw [zpow_natCast]; exact le_trans hj hvl) (by omega) hbd (by exact_mod_cast hc0) hc1' ?_
  rw [hb.2, sub_eq_add_neg (j : Int), zpow_add₀ (by norm_num), zpow_natCast, ← mul_assoc]
  rw [hu] at e1
  have := abs_add_le (rval F (fAdd F x u) - (rval F x + rval F u)) (rval F x + rval F u + E * (355 / 512) - (Real.log (1 + rval F x) + E * Real.log 2))
  rw [show rval F (fAdd F x u) - (rval F x + rval F u) + (rval F x + rval F u + E * (355 / 512) - (Real.log (1 + rval F x) + E * Real.log 2)) =
    rval F (fAdd F x u) + E * (355 / 512) - (Real.log (1 + rval F x) + E * Real.log 2) by ring] at this
  generalize (2 : ℝ) ^ (-(F.m : Int)) = q at *
  norm_num at e1
  split at g2 <;> rename_i hz
  · rw [if_pos hz] at c2'; linarith
  · rw [if_neg hz] at c2'; linarith

theorem cell1_spec {a b eps c : ℚ} (hc : LogC F K ls) (hr : LogRedR F X x e E) (hE : |E| = 1) (hY : YB F Y G yb)
    (hcell : cell1 F yb eps c a b = true) (h1 : (a : ℝ) ≤ rval F x) (h2 : rval F x ≤ b) (he : 0 ≤ eps) (hc0 : 1 / 2 ≤ c) (hc1 : c ≤ 1)
    (hG : |rval F x + (G (rval F x) - rval F x * rval F x * (1 / 2)) - Real.log (1 + rval F x)| ≤ eps * |rval F x|) :
    WithinUlps F (c + 1 / 2) (Real.log (rval F X)) (logEnd (sArith F w) K .e x (fMul F x x) (Y x) e) := by
  have hb := mul_large hc hr
  have hbd := log_bound hc.fw hr
  rw [log_value hr]
  have hE1 : |(E : ℝ)| = 1 := by exact_mod_cast hE
  have hvl := log_large (log_abs hr.lo hr.hi) hE1.ge
  unfold cell1 at hcell
  simp only [Bool.and_eq_true, Bool.or_eq_true, decide_eq_true_eq] at hcell
  obtain ⟨⟨c1, c2⟩, c3⟩ := hcell
  set g : ℝ := 2 ^ (-(F.m : Int) - 2) with hg
  have hgq : ((pow2 (-F.m - 2) : ℚ) : ℝ) = g := pow2_real _
  have hg10 : ((pow2 (-F.m - 10) : ℚ) : ℝ) = g / 256 := by
    rw [pow2_real, hg, show -(F.m : Int) - 10 = -F.m - 2 - 8 by ring, zpow_sub₀ (by norm_num) _ 8]; norm_num
  have hu : uRel F = 2 * g := by
    unfold uRel
    rw [hg, show -((F.m : Int) + 1) = -F.m - 2 + 1 by ring, zpow_add₀ (by norm_num), zpow_one]; ring
  have hg0 : 0 < g := by positivity
  have hκ : |(E : ℝ) * (355 / 512 + ls - Real.log 2)| ≤ g / 256 := by
    rw [abs_mul, hE1, one_mul]
    have h149 : (149 : ℝ) ≤ oneExp F := by
      have : 149 ≤ oneExp F := by cases hc.fw <;> decide
      exact_mod_cast this
    have a2 := mul_le_mul_of_nonneg_left h149 (abs_nonneg (355 / 512 + ls - Real.log 2))
    have a3 := hc.ln2
    rw [hu] at a3
    norm_num at a2 a3 ⊢
    linarith
  have hZ' : |(E : ℝ) * ls| ≤ 0.0002122 := by
    rw [abs_mul, hE1, one_mul]; exact hc.lsb
  obtain ⟨f, e1, e2, e3, e4⟩ := sum_err hc hr hY h1 h2 he (enc_T1 hc hr hE1.le) c1 hκ hZ' hG
  show WithinUlps F _ _ (fAdd F (fAdd F x (fSub F (fAdd F (Y x) (fMul F e K.ln2Small)) (fMul F (fMul F x x) K.half))) (fMul F e K.ln2Large))
  generalize fSub F (fAdd F (Y x) (fMul F e K.ln2Small)) (fMul F (fMul F x x) K.half) = u at f e1 e2 e3 e4 ⊢
  have c2' : (((boxY1 F yb (boxT1 F) a b).err + eps * max |a| |b| : ℚ) : ℝ) + g / 256 ≤ c * g := by
    have := (Rat.cast_le (K := ℝ)).mpr c2
    rwa [Rat.cast_add, Rat.cast_mul, hg10, hgq] at this
  have c3' : (((boxY1 F yb (boxT1 F) a b).err + eps * max |a| |b| : ℚ) : ℝ) + g / 256 ≤ (c - 1 / 4) * g ∨
      2501 / 10000 ≤ (if 0 < a + (boxY1 F yb (boxT1 F) a b).lo then a + (boxY1 F yb (boxT1 F) a b).lo else -(b + (boxY1 F yb (boxT1 F) a b).hi)) := by
    refine c3.imp (fun h => ?_) id
    have := (Rat.cast_le (K := ℝ)).mpr h
    rw [Rat.cast_add, Rat.cast_mul, Rat.cast_sub, hg10, hgq] at this
    refine le_trans this (le_of_eq ?_)
    norm_num
  have hee : ((boxY1 F yb (boxT1 F) a b).err : ℝ) ≤ (((boxY1 F yb (boxT1 F) a b).err + eps * max |a| |b| : ℚ) : ℝ) := by
    have : 0 ≤ eps * max |a| |b| := by positivity
    exact_mod_cast le_add_of_nonneg_right this
  clear c2 c3
  generalize (((boxY1 F yb (boxT1 F) a b).err + eps * max |a| |b| : ℚ) : ℝ) = D at e1 e2 c2' c3' hee
  have hc1' : (c : ℝ) ≤ 1 := by exact_mod_cast hc1
  have hc0' : 1 / 2 ≤ (c : ℝ) := by
    have : (((1 / 2 : ℚ)) : ℝ) ≤ c := by exact_mod_cast hc0
    simpa using this
  have hgs : g ≤ 1 / 1000000 := by rw [hg]; cases hc.fw <;> norm_num [f32, f64]
  have hcg : c * g ≤ 1 * g := mul_le_mul_of_nonneg_right hc1' hg0.le
  have hD : D ≤ 1 / 1000000 := by linarith
  have hk1 : KRange F (-1) := by cases hc.fw <;> decide
  have hk2 : KRange F (-2) := by cases hc.fw <;> decide
  obtain ⟨g1, g2⟩ := fAdd_err hc.fw hk1 hr.mfin f (by norm_num at e2 ⊢; linarith)
  have hg2 : (2 : ℝ) ^ (-1 - (F.m : Int) - 2) = g / 2 := by
    rw [hg, show -1 - (F.m : Int) - 2 = -F.m - 2 - 1 by ring, zpow_sub₀ (by norm_num), zpow_one]
  rw [hg2] at g2
  set S := rval F x + rval F u with hS
  set v := Real.log (1 + rval F x) + E * Real.log 2 with hv
  have tri : ∀ δ : ℝ, |rval F (fAdd F x u) - S| ≤ δ → |rval F (fAdd F x u) + E * (355 / 512) - v| ≤ δ + (D + g / 256) := by
    intro δ hδ
    have := abs_add_le (rval F (fAdd F x u) - S) (S + E * (355 / 512) - v)
    rw [show rval F (fAdd F x u) - S + (S + E * (355 / 512) - v) = rval F (fAdd F x u) + E * (355 / 512) - v by ring] at this
    linarith
  rcases le_or_gt (1 / 2) |v| with hv2 | hv2
  · refine within_add hc.fw g1 hb.1 (j := -1) (by norm_num at hv2 ⊢; linarith) (by norm_num) hbd (by linarith) hc1' ?_
    rw [hb.2, show -1 - (F.m : Int) = -F.m - 2 + 1 by ring, zpow_add₀ (by norm_num), ← hg, zpow_one]
    refine le_trans (tri _ g2) ?_
    nlinarith
  · have hv4 : (2 : ℝ) ^ (-2 : Int) ≤ |v| := by norm_num at hvl ⊢; linarith
    rcases le_or_gt |S| (1 / 4) with hS4 | hS4
    · -- small
      obtain ⟨-, g4⟩ := fAdd_err hc.fw hk2 hr.mfin f (by rw [← hS]; norm_num at hS4 ⊢; linarith)
      have hg4 : (2 : ℝ) ^ (-2 - (F.m : Int) - 2) = g / 4 := by
        rw [hg, show -2 - (F.m : Int) - 2 = -F.m - 2 - 2 by ring, zpow_sub₀ (by norm_num)]; norm_num
      rw [hg4, ← hS] at g4
      rcases c3' with c3 | c3
      · refine within_add hc.fw g1 hb.1 (j := -2) hv4 (by norm_num) hbd (by linarith) hc1' ?_
        rw [hb.2, show -2 - (F.m : Int) = -F.m - 2 by ring, ← hg]
        refine le_trans (tri _ g4) ?_
        linarith
      · exfalso
        have hS' := abs_le.mp hS4
        split at c3
        · have c4 : (2501 / 10000 : ℝ) ≤ ((a + (boxY1 F yb (boxT1 F) a b).lo : ℚ) : ℝ) := by
            have := (Rat.cast_le (K := ℝ)).mpr c3
            push_cast at this ⊢; linarith
          linarith [hS'.2]
        · have c4 : (2501 / 10000 : ℝ) ≤ -((b + (boxY1 F yb (boxT1 F) a b).hi : ℚ) : ℝ) := by
            have := (Rat.cast_le (K := ℝ)).mpr c3
            push_cast at this ⊢; linarith
          linarith [hS'.1]
    · -- the last addition is exact
      have hx4 : 1 / 4 ≤ |rval F (fAdd F x u)| := by
        have r1 : Repr F (1 / 4) := ⟨1, -2, by norm_num, by cases hc.fw <;> decide, by cases hc.fw <;> decide, by cases hc.fw <;> decide⟩
        have r2 : Repr F (-(1 / 4)) := ⟨-1, -2, by norm_num, by cases hc.fw <;> decide, by cases hc.fw <;> decide, by cases hc.fw <;> decide⟩
        rcases le_total 0 S with h0 | h0
        · rw [abs_of_nonneg h0] at hS4
          have := fAdd_closest hc.fw hr.mfin f r1
          rw [← hS, abs_sub_comm (1 / 4) S, abs_of_pos (show 0 < S - 1 / 4 by linarith)] at this
          refine le_trans ?_ (le_abs_self _)
          linarith [(abs_le.mp this).1]
        · rw [abs_of_nonpos h0] at hS4
          have := fAdd_closest hc.fw hr.mfin f r2
          rw [← hS, abs_of_pos (show 0 < -(1 / 4) - S by linarith)] at this
          refine le_trans ?_ (neg_le_abs _)
          linarith [(abs_le.mp this).2]
      have t := tri _ g2
      have hgr : OnGrid (-2 - F.m) (rval F (fAdd F x u)) := by
        refine grid_of_abs hc.fw ?_ (by norm_num at hx4 ⊢; linarith)
        cases hc.fw <;> decide
      have hgb : OnGrid (-2 - F.m) ((E : ℝ) * (355 / 512)) := by
        have : OnGrid (-9) ((E : ℝ) * (355 / 512)) := ⟨355 * E, by push_cast; norm_num; ring⟩
        exact this.finer (by cases hc.fw <;> decide)
      have hle : |rval F (fAdd F x u) + E * (355 / 512)| ≤ 1 / 2 := by
        have t' := abs_le.mp t
        have v' := abs_lt.mp hv2
        have hE' : (E : ℝ) = 1 ∨ (E : ℝ) = -1 := eq_or_eq_neg_of_abs_eq hE1
        have x' : |rval F (fAdd F x u)| ≤ 3 / 5 := by
          have := abs_add_le (rval F (fAdd F x u) - S) S
          rw [sub_add_cancel] at this
          norm_num at e2 ⊢
          linarith
        have x'' := abs_le.mp x'
        rcases le_total 0 (rval F (fAdd F x u)) with h0 | h0
        · rw [abs_of_nonneg h0] at hx4
          rcases hE' with h1 | h1 <;> rw [h1] at t' ⊢ <;> rw [abs_le] <;> constructor <;> linarith [t'.1, t'.2, v'.1, v'.2, x''.1, x''.2]
        · rw [abs_of_nonpos h0] at hx4
          rcases hE' with h1 | h1 <;> rw [h1] at t' ⊢ <;> rw [abs_le] <;> constructor <;> linarith [t'.1, t'.2, v'.1, v'.2, x''.1, x''.2]
      obtain ⟨f1, f2⟩ := fAdd_repr hc.fw g1 hb.1 (v := rval F (fAdd F x u) + E * (355 / 512))
        (OnGrid.repr (g := -2 - F.m) (hgr.add hgb) (by
          rw [show -2 - (F.m : Int) + ((F.m + 1 : Nat) : Int) = -1 by push_cast; ring]
          norm_num at hle ⊢; linarith) (by cases hc.fw <;> decide) (by cases hc.fw <;> decide)) (by rw [hb.2])
      refine within_of_pow f1 (by linarith) hv4 ?_
      rw [f2, show -2 - (F.m : Int) = -F.m - 2 by ring, ← hg]
      linarith

/-- All arguments: the cells are checked by evaluation. -/
structure LogCells (F : Fmt) (yb : Box → Box) (ef : ℚ → ℚ → ℚ) (c Z : ℚ) (l0p l0n l1 l2 l3 : List ℚ) : Prop where
  hp : l0p.head? = some (pow2 (-F.m - 1)) ∧ l0p.getLast? = some (517767 / 1250000)
  hn : l0n.head? = some (-(2928933 / 10000000)) ∧ l0n.getLast? = some (-pow2 (-F.m - 1))
  h1 : l1.head? = some (-(2928933 / 10000000)) ∧ l1.getLast? = some (517767 / 1250000)
  h2 : l2.head? = some (-(2928933 / 10000000)) ∧ l2.getLast? = some (517767 / 1250000)
  h3 : l3.head? = some (-(2928933 / 10000000)) ∧ l3.getLast? = some (517767 / 1250000)
  cp : cells (fun a b => cell0 F yb (ef a b) c a b) l0p = true
  cn : cells (fun a b => cell0 F yb (ef a b) c a b) l0n = true
  c1 : cells (fun a b => cell1 F yb (ef a b) c a b) l1 = true
  c2 : cells (fun a b => cell2 F yb (7 / 1000) 0 (ef a b) c a b) l2 = true
  c3 : cells (fun a b => cell2 F yb Z 4 (ef a b) c a b) l3 = true

theorem log_cells {ef : ℚ → ℚ → ℚ} {c Z : ℚ} {l0p l0n l1 l2 l3 : List ℚ} (hcs : LogCells F yb ef c Z l0p l0n l1 l2 l3)
    (hc : LogC F K ls) (hr : LogRedR F X x e E) (hY : YB F Y G yb) (hef : ∀ a b, 0 ≤ ef a b)
    (hc0 : 1 / 2 ≤ c) (hc1 : c ≤ 1) (hZ : oneExp F * 0.0002122 ≤ (Z : ℝ)) (hZ1 : Z ≤ 23 / 100)
    (hG : ∀ a b : ℚ, (a : ℝ) ≤ rval F x → rval F x ≤ b →
      |rval F x + (G (rval F x) - rval F x * rval F x * (1 / 2)) - Real.log (1 + rval F x)| ≤ ef a b * |rval F x|)
    (h0 : rval F x = 0 → E = 0 → isFinite F (logEnd (sArith F w) K .e x (fMul F x x) (Y x) e) = true ∧
      rval F (logEnd (sArith F w) K .e x (fMul F x x) (Y x) e) = 0) :
    WithinUlps F (c + 1 / 2) (Real.log (rval F X)) (logEnd (sArith F w) K .e x (fMul F x x) (Y x) e) := by
  have hlo : ((-(2928933 / 10000000) : ℚ) : ℝ) ≤ rval F x := by have := hr.lo; norm_num at this ⊢; linarith
  have hhi : rval F x ≤ ((517767 / 1250000 : ℚ) : ℝ) := by have := hr.hi; norm_num at this ⊢; linarith
  have hc00 : 0 ≤ c := by linarith
  have hsm : pow2 (-F.m - 1) < 517767 / 1250000 ∧ -(2928933 / 10000000) < -pow2 (-F.m - 1) := by
    cases hc.fw <;> decide +kernel
  by_cases hE : E = 0
  · by_cases hx : rval F x = 0
    · obtain ⟨f1, f2⟩ := h0 hx hE
      have hv : Real.log (rval F X) = 0 := by rw [log_value hr, hE, hx]; simp
      rw [hv]
      refine ⟨f1, fun _ => f2, fun e' h1 _ => ?_⟩
      rw [f2, sub_zero, abs_zero]
      have : (0 : ℝ) ≤ ((c : ℚ) : ℝ) := by exact_mod_cast hc00
      positivity
    · have hg : (2 : ℝ) ^ (-(F.m : Int) - 1) ≤ |rval F x| := by
        obtain ⟨k, hk⟩ := hr.grid
        have hk0 : k ≠ 0 := by rintro rfl; apply hx; rw [hk]; simp
        rw [hk, abs_mul, abs_of_pos (show (0 : ℝ) < 2 ^ (-((F.m : Int) + 1)) by positivity), show -(F.m : Int) - 1 = -(F.m + 1) by ring]
        refine le_mul_of_one_le_left (by positivity) ?_
        exact_mod_cast Int.one_le_abs hk0
      rcases le_total 0 (rval F x) with h | h
      · rw [abs_of_nonneg h] at hg
        obtain ⟨a, b, p, q1, q2⟩ := cells_spec hcs.cp hcs.hp.1 hcs.hp.2 (by rw [pow2_real]; exact hg) hhi hsm.1
        exact cell0_spec hc hr hE hY p q1 q2 (hef _ _) hc00 hc1 (hG a b q1 q2)
      · rw [abs_of_nonpos h] at hg
        obtain ⟨a, b, p, q1, q2⟩ := cells_spec hcs.cn hcs.hn.1 hcs.hn.2 hlo (by rw [Rat.cast_neg, pow2_real]; linarith) hsm.2
        exact cell0_spec hc hr hE hY p q1 q2 (hef _ _) hc00 hc1 (hG a b q1 q2)
  · by_cases hE1 : |E| = 1
    · obtain ⟨a, b, p, q1, q2⟩ := cells_spec hcs.c1 hcs.h1.1 hcs.h1.2 hlo hhi (by norm_num)
      exact cell1_spec hc hr hE1 hY p q1 q2 (hef _ _) hc0 hc1 (hG a b q1 q2)
    · have hE2 : (2 : Int) ≤ |E| := by have := Int.one_le_abs hE; omega
      have hE2' : (2 : ℝ) ≤ |(E : ℝ)| := by exact_mod_cast hE2
      by_cases h32 : |E| ≤ 32
      · have h32' : |(E : ℝ)| ≤ 32 := by exact_mod_cast h32
        obtain ⟨a, b, p, q1, q2⟩ := cells_spec hcs.c2 hcs.h2.1 hcs.h2.2 hlo hhi (by norm_num)
        exact cell2_spec hc hr hE2' h32' (by norm_num) (by norm_num) (by norm_num) hY (by norm_num) (by norm_num) p q1 q2 (hef _ _) hc00 hc1 (hG a b q1 q2)
      · have h33 : (33 : ℝ) ≤ |(E : ℝ)| := by exact_mod_cast (by omega : (33 : Int) ≤ |E|)
        have ho : ((oneExp F : Nat) : ℝ) ≤ 2000 := by
          have : oneExp F ≤ 2000 := by cases hc.fw <;> decide
          exact_mod_cast this
        obtain ⟨a, b, p, q1, q2⟩ := cells_spec hcs.c3 hcs.h3.1 hcs.h3.2 hlo hhi (by norm_num)
        exact cell2_spec hc hr h33 (by exact_mod_cast hr.small) ho (by norm_num) (by norm_num) hY hZ hZ1 p q1 q2 (hef _ _) hc00 hc1 (hG a b q1 q2)

end

end Vc.Lemma
