import Verif.Lemma.AtanBase

/-!
Error bounds by computation: boxes.

A box holds rational bounds of an exact value and of the distance of the computed value from it.  The operations on
boxes follow the operations on numbers, with the rounding error of the binary order of magnitude the result is known to
have.  The bounds of a whole computation on a cell of arguments are then found by evaluating a function.
-/

namespace Vc.Lemma
open Vc.Model Vc.Spec

/-- The power of two, as a function that can be evaluated. -/
def pow2 : Int → ℚ
  | .ofNat n => ((2 ^ n : Nat) : ℚ)
  | .negSucc n => mkRat 1 (2 ^ (n + 1))

theorem pow2_real (k : Int) : ((pow2 k : ℚ) : ℝ) = 2 ^ k := by
  cases k with
  | ofNat n => simp [pow2]
  | negSucc n =>
    simp only [pow2, Rat.mkRat_eq_div, zpow_negSucc]
    push_cast
    rw [one_div]

structure Box where
  lo : ℚ
  hi : ℚ
  err : ℚ
  ok : Bool

/-- The smallest exponent whose power of two is at least `M`. -/
def kOf (F : Fmt) (M : ℚ) : Int :=
  let k : Int := (Nat.log2 M.num.natAbs : Int) - (Nat.log2 M.den : Int) + 1
  let k := if M ≤ pow2 (k - 1) then k - 1 else k
  max k (F.m + 1 - oneExp F)

def goodK (F : Fmt) (M : ℚ) : Bool := decide (M ≤ pow2 (kOf F M)) && decide (KRange F (kOf F M))

def rnd (F : Fmt) (M : ℚ) : ℚ := pow2 (kOf F M - F.m - 2)

theorem goodK_spec {F : Fmt} {M : ℚ} (h : goodK F M = true) {v : ℝ} (hv : |v| ≤ M) :
    |v| ≤ 2 ^ kOf F M ∧ KRange F (kOf F M) := by
  unfold goodK at h
  rw [Bool.and_eq_true, decide_eq_true_eq, decide_eq_true_eq] at h
  refine ⟨le_trans hv ?_, h.2⟩
  rw [← pow2_real]
  exact_mod_cast h.1

theorem rnd_real (F : Fmt) (M : ℚ) : ((rnd F M : ℚ) : ℝ) = 2 ^ (kOf F M - F.m - 2) := pow2_real _

namespace Box

/-- The largest absolute value. -/
def mag (A : Box) : ℚ := max |A.lo| |A.hi|

/-- A result with bounds `lo`, `hi`, and error `e` before rounding. -/
def round (F : Fmt) (lo hi e : ℚ) (ok : Bool) : Box :=
  let M := max |lo| |hi| + e
  ⟨lo, hi, e + rnd F M, ok && goodK F M⟩

def var (a b : ℚ) : Box := ⟨a, b, 0, true⟩
def const (q : ℚ) : Box := ⟨q, q, 0, true⟩
def add (F : Fmt) (A B : Box) : Box := round F (A.lo + B.lo) (A.hi + B.hi) (A.err + B.err) (A.ok && B.ok)
def sub (F : Fmt) (A B : Box) : Box := round F (A.lo - B.hi) (A.hi - B.lo) (A.err + B.err) (A.ok && B.ok)

def mulLo (A B : Box) : ℚ := min (min (A.lo * B.lo) (A.lo * B.hi)) (min (A.hi * B.lo) (A.hi * B.hi))
def mulHi (A B : Box) : ℚ := max (max (A.lo * B.lo) (A.lo * B.hi)) (max (A.hi * B.lo) (A.hi * B.hi))

def mul (F : Fmt) (A B : Box) : Box :=
  round F (mulLo A B) (mulHi A B) (A.mag * B.err + B.mag * A.err + A.err * B.err) (A.ok && B.ok)

/-- Multiples of `2 ^ -j`. -/
def up (j : Nat) (q : ℚ) : ℚ := mkRat ⌈q * ((2 ^ j : Nat) : ℚ)⌉ (2 ^ j)
def dn (j : Nat) (q : ℚ) : ℚ := mkRat ⌊q * ((2 ^ j : Nat) : ℚ)⌋ (2 ^ j)

/-- The divisor is positive. -/
def div (F : Fmt) (j : Nat) (A B : Box) : Box :=
  let I : Box := ⟨1 / B.hi, 1 / B.lo, 0, true⟩
  let lo := dn j (mulLo A I)
  let hi := up j (mulHi A I)
  round F lo hi (up j ((A.err + max |lo| |hi| * B.err) / (B.lo - B.err))) (A.ok && B.ok && decide (0 < B.lo - B.err) && decide (0 ≤ B.err))

end Box

/-- The computed number `t` approximates `p`, and both are in the box. -/
structure Enc (F : Fmt) {w : Nat} (t : BitVec w) (p : ℝ) (A : Box) : Prop where
  fin : isFinite F t = true
  err : |rval F t - p| ≤ A.err
  lo : (A.lo : ℝ) ≤ p
  hi : p ≤ A.hi

theorem up_le (j : Nat) (q : ℚ) : q ≤ Box.up j q := by
  unfold Box.up
  rw [Rat.mkRat_eq_div, le_div_iff₀ (by positivity)]
  exact Int.le_ceil _

theorem dn_le (j : Nat) (q : ℚ) : Box.dn j q ≤ q := by
  unfold Box.dn
  rw [Rat.mkRat_eq_div, div_le_iff₀ (by positivity)]
  exact Int.floor_le _

theorem abs_le_mag {a b : ℚ} {p : ℝ} (h1 : (a : ℝ) ≤ p) (h2 : p ≤ b) : |p| ≤ ((max |a| |b| : ℚ) : ℝ) := by
  push_cast
  exact abs_le_max_abs_abs h1 h2

/-- Products of bounded numbers. -/
theorem mul_bounds {a b c d p q : ℝ} (h1 : a ≤ p) (h2 : p ≤ b) (h3 : c ≤ q) (h4 : q ≤ d) :
    min (min (a * c) (a * d)) (min (b * c) (b * d)) ≤ p * q ∧ p * q ≤ max (max (a * c) (a * d)) (max (b * c) (b * d)) := by
  constructor
  · rcases le_total 0 q with hq | hq
    · have e1 : a * q ≤ p * q := mul_le_mul_of_nonneg_right h1 hq
      refine le_trans ?_ e1
      refine le_trans (min_le_left _ _) ?_
      rcases le_total 0 a with ha | ha
      · exact le_trans (min_le_left _ _) (mul_le_mul_of_nonneg_left h3 ha)
      · exact le_trans (min_le_right _ _) (mul_le_mul_of_nonpos_left h4 ha)
    · have e1 : b * q ≤ p * q := mul_le_mul_of_nonpos_right h2 hq
      refine le_trans ?_ e1
      refine le_trans (min_le_right _ _) ?_
      rcases le_total 0 b with ha | ha
      · exact le_trans (min_le_left _ _) (mul_le_mul_of_nonneg_left h3 ha)
      · exact le_trans (min_le_right _ _) (mul_le_mul_of_nonpos_left h4 ha)
  · rcases le_total 0 q with hq | hq
    · have e1 : p * q ≤ b * q := mul_le_mul_of_nonneg_right h2 hq
      refine le_trans e1 ?_
      refine le_trans ?_ (le_max_right _ _)
      rcases le_total 0 b with ha | ha
      · exact le_trans (mul_le_mul_of_nonneg_left h4 ha) (le_max_right _ _)
      · exact le_trans (mul_le_mul_of_nonpos_left h3 ha) (le_max_left _ _)
    · have e1 : p * q ≤ a * q := mul_le_mul_of_nonpos_right h1 hq
      refine le_trans e1 ?_
      refine le_trans ?_ (le_max_left _ _)
      rcases le_total 0 a with ha | ha
      · exact le_trans (mul_le_mul_of_nonneg_left h4 ha) (le_max_right _ _)
      · exact le_trans (mul_le_mul_of_nonpos_left h3 ha) (le_max_left _ _)

namespace Enc
variable {F : Fmt} {w : Nat} {s t : BitVec w} {p q : ℝ} {A B : Box}

theorem nonneg (h : Enc F t p A) : (0 : ℝ) ≤ A.err := le_trans (abs_nonneg _) h.err

theorem abs_le (h : Enc F t p A) : |p| ≤ (A.mag : ℝ) := abs_le_mag h.lo h.hi

theorem var (hf : isFinite F t = true) {a b : ℚ} (h1 : (a : ℝ) ≤ rval F t) (h2 : rval F t ≤ b) : Enc F t (rval F t) (Box.var a b) :=
  ⟨hf, by simp [Box.var], h1, h2⟩

theorem const (hf : isFinite F t = true) {c : ℚ} (h : rval F t = c) : Enc F t c (Box.const c) :=
  ⟨hf, by simp [Box.const, h], le_refl _, le_refl _⟩

/-- One rounding. -/
theorem rounded {r : BitVec w} {v : ℝ} {lo hi e : ℚ} {ok : Bool} (hok : (Box.round F lo hi e ok).ok = true) (h1 : (lo : ℝ) ≤ p) (h2 : p ≤ hi)
    (hv : |v - p| ≤ e)
    (hr : ∀ k : Int, KRange F k → |v| ≤ 2 ^ k → isFinite F r = true ∧ |rval F r - v| ≤ 2 ^ (k - F.m - 2)) :
    Enc F r p (Box.round F lo hi e ok) := by
  unfold Box.round at hok ⊢
  rw [Bool.and_eq_true] at hok
  have hm := abs_le_mag h1 h2
  have hvM : |v| ≤ ((max |lo| |hi| + e : ℚ) : ℝ) := by
    have := abs_add_le (v - p) p
    rw [sub_add_cancel] at this
    push_cast at hm ⊢
    linarith
  obtain ⟨g1, g2⟩ := goodK_spec hok.2 hvM
  obtain ⟨f1, f2⟩ := hr _ g2 g1
  refine ⟨f1, ?_, h1, h2⟩
  show _ ≤ (((e + rnd F (max |lo| |hi| + e) : ℚ)) : ℝ)
  rw [Rat.cast_add, rnd_real]
  have := abs_add_le (rval F r - v) (v - p)
  rw [sub_add_sub_cancel] at this
  linarith

theorem ok_round {lo hi e : ℚ} {ok : Bool} (h : (Box.round F lo hi e ok).ok = true) : ok = true := by
  unfold Box.round at h
  rw [Bool.and_eq_true] at h
  exact h.1

theorem add (h : FmtW F w) (hok : (Box.add F A B).ok = true) (hs : A.ok = true → Enc F s p A) (ht : B.ok = true → Enc F t q B) :
    Enc F (fAdd F s t) (p + q) (Box.add F A B) := by
  have o := ok_round hok
  rw [Bool.and_eq_true] at o
  have hs := hs o.1
  have ht := ht o.2
  refine rounded hok (v := rval F s + rval F t) (by have := hs.lo; have := ht.lo; push_cast; linarith)
    (by have := hs.hi; have := ht.hi; push_cast; linarith) ?_ (fun k hk hv => fAdd_err h hk hs.fin ht.fin hv)
  have e1 := hs.err
  have e2 := ht.err
  have := abs_add_le (rval F s - p) (rval F t - q)
  rw [show rval F s - p + (rval F t - q) = rval F s + rval F t - (p + q) by ring] at this
  push_cast
  linarith

theorem sub (h : FmtW F w) (hok : (Box.sub F A B).ok = true) (hs : A.ok = true → Enc F s p A) (ht : B.ok = true → Enc F t q B) :
    Enc F (fSub F s t) (p - q) (Box.sub F A B) := by
  have o := ok_round hok
  rw [Bool.and_eq_true] at o
  have hs := hs o.1
  have ht := ht o.2
  refine rounded hok (v := rval F s - rval F t) (by have := hs.lo; have := ht.hi; push_cast; linarith)
    (by have := hs.hi; have := ht.lo; push_cast; linarith) ?_ (fun k hk hv => fSub_err h hk hs.fin ht.fin hv)
  have e1 := hs.err
  have e2 := ht.err
  have := abs_sub (rval F s - p) (rval F t - q)
  rw [show rval F s - p - (rval F t - q) = rval F s - rval F t - (p - q) by ring] at this
  push_cast
  linarith

theorem mul (h : FmtW F w) (hok : (Box.mul F A B).ok = true) (hs : A.ok = true → Enc F s p A) (ht : B.ok = true → Enc F t q B) :
    Enc F (fMul F s t) (p * q) (Box.mul F A B) := by
  have o := ok_round hok
  rw [Bool.and_eq_true] at o
  have hs := hs o.1
  have ht := ht o.2
  have hb := mul_bounds hs.lo hs.hi ht.lo ht.hi
  refine rounded hok (v := rval F s * rval F t) (by unfold Box.mulLo; push_cast; exact hb.1)
    (by unfold Box.mulHi; push_cast; exact hb.2) ?_ (fun k hk hv => fMul_err h hk hs.fin ht.fin hv)
  have e1 := hs.err
  have e2 := ht.err
  have m1 := hs.abs_le
  have m2 := ht.abs_le
  have n1 := hs.nonneg
  have n2 := ht.nonneg
  rw [show rval F s * rval F t - p * q = p * (rval F t - q) + q * (rval F s - p) + (rval F s - p) * (rval F t - q) by ring]
  refine le_trans (abs_add_le _ _) ?_
  refine le_trans (add_le_add (abs_add_le _ _) (le_refl _)) ?_
  rw [abs_mul, abs_mul, abs_mul]
  push_cast
  refine add_le_add (add_le_add ?_ ?_) ?_
  · exact mul_le_mul m1 e2 (abs_nonneg _) (le_trans (abs_nonneg _) m1)
  · exact mul_le_mul m2 e1 (abs_nonneg _) (le_trans (abs_nonneg _) m2)
  · exact mul_le_mul e1 e2 (abs_nonneg _) n1

theorem div (h : FmtW F w) {j : Nat} (hok : (Box.div F j A B).ok = true) (hs : A.ok = true → Enc F s p A) (ht : B.ok = true → Enc F t q B) :
    Enc F (fDiv F s t) (p / q) (Box.div F j A B) := by
  have o := ok_round hok
  simp only [Bool.and_eq_true, decide_eq_true_eq] at o
  obtain ⟨⟨⟨oA, oB⟩, hL⟩, hE⟩ := o
  have hs := hs oA
  have ht := ht oB
  have hL' : (0 : ℝ) < (B.lo : ℝ) - B.err := by exact_mod_cast hL
  have n2 := ht.nonneg
  have hlo : (0 : ℝ) < B.lo := by linarith
  have hq : 0 < q := lt_of_lt_of_le hlo ht.lo
  have hhi : (0 : ℝ) < B.hi := lt_of_lt_of_le hq ht.hi
  have i1 : (1 : ℝ) / B.hi ≤ 1 / q := one_div_le_one_div_of_le hq ht.hi
  have i2 : (1 : ℝ) / q ≤ 1 / B.lo := one_div_le_one_div_of_le hlo ht.lo
  have hb := mul_bounds hs.lo hs.hi i1 i2
  rw [mul_one_div p q] at hb
  have b1 : ((Box.dn j (Box.mulLo A ⟨1 / B.hi, 1 / B.lo, 0, true⟩) : ℚ) : ℝ) ≤ p / q := by
    refine le_trans (Rat.cast_le.mpr (dn_le j _)) ?_
    unfold Box.mulLo
    push_cast
    exact hb.1
  have b2 : p / q ≤ ((Box.up j (Box.mulHi A ⟨1 / B.hi, 1 / B.lo, 0, true⟩) : ℚ) : ℝ) := by
    refine le_trans ?_ (Rat.cast_le.mpr (up_le j _))
    unfold Box.mulHi
    push_cast
    exact hb.2
  have hm := abs_le_mag b1 b2
  have e1 := hs.err
  have e2 := ht.err
  have htl : (B.lo : ℝ) - B.err ≤ rval F t := by
    have := (_root_.abs_le.mp e2).1
    have := ht.lo
    linarith
  have ht0 : 0 < rval F t := lt_of_lt_of_le hL' htl
  refine rounded hok (v := rval F s / rval F t) b1 b2 ?_ (fun k hk hv => fDiv_err h hk hs.fin ht.fin (ne_of_gt ht0) hv)
  refine le_trans ?_ (Rat.cast_le.mpr (up_le j _))
  generalize (max |Box.dn j (Box.mulLo A ⟨1 / B.hi, 1 / B.lo, 0, true⟩)| |Box.up j (Box.mulHi A ⟨1 / B.hi, 1 / B.lo, 0, true⟩)|) = R at hm ⊢
  push_cast
  rw [le_div_iff₀ hL']
  refine le_trans (mul_le_mul_of_nonneg_left htl (abs_nonneg _)) ?_
  rw [← abs_of_pos ht0, ← abs_mul]
  rw [abs_of_pos ht0]
  have e : (rval F s / rval F t - p / q) * rval F t = (rval F s - p) - (p / q) * (rval F t - q) := by
    field_simp; ring
  rw [e]
  refine le_trans (abs_sub _ _) (add_le_add e1 ?_)
  rw [abs_mul]
  exact mul_le_mul hm e2 (abs_nonneg _) (le_trans (abs_nonneg _) hm)

end Enc

/-- Cells next to each other: the breakpoints of a list are increasing, and the condition holds between any two of
them that follow each other. -/
def cells (P : ℚ → ℚ → Bool) : List ℚ → Bool
  | a :: b :: l => P a b && cells P (b :: l)
  | _ => true

theorem cells_spec {P : ℚ → ℚ → Bool} {l : List ℚ} (h : cells P l = true) {a b : ℚ} (ha : l.head? = some a) (hb : l.getLast? = some b)
    {v : ℝ} (h1 : (a : ℝ) ≤ v) (h2 : v ≤ b) (hab : a < b) : ∃ c d : ℚ, P c d = true ∧ (c : ℝ) ≤ v ∧ v ≤ d := by
  induction l generalizing a with
  | nil => simp at ha
  | cons x l ih =>
    simp only [List.head?_cons, Option.some.injEq] at ha
    subst ha
    cases l with
    | nil =>
      simp only [List.getLast?_singleton, Option.some.injEq] at hb
      rw [hb] at hab
      exact absurd hab (lt_irrefl _)
    | cons y l =>
      rw [cells, Bool.and_eq_true] at h
      rcases le_or_gt v y with hv | hv
      · exact ⟨x, y, h.1, h1, hv⟩
      · refine ih h.2 rfl (by rw [List.getLast?_cons_cons] at hb; exact hb) hv.le ?_
        have : (y : ℝ) < b := lt_of_lt_of_le hv h2
        exact_mod_cast this

end Vc.Lemma
