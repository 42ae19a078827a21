import Verif.Lemma.FloatOps
import Verif.Model.FloatRound
import Verif.Spec.FloatInt

namespace Vc.Lemma

open Vc.Model Vc.Spec

/-- The number with a given sign. -/
def signed (s : Bool) (n : Nat) : Int := if s then -(n : Int) else n

theorem fval_signed (F : Fmt) {w : Nat} (x : BitVec w) : fval F x = signed (fneg F x) (magVal F (fmag F x)) := rfl

theorem signed_mul (s : Bool) (a b : Nat) : signed s (a * b) = signed s a * (b : Int) := by
  unfold signed; cases s
  · simp
  · simp only [if_true]; rw [Int.natCast_mul, Int.neg_mul]

/-- A finite number is an integer or small. -/
theorem int_or_small {F : Fmt} {w : Nat} (h : FmtW F w) (k : Nat) :
    (k / 2 ^ F.m ≤ oneExp F ∧ magVal F k < 2 ^ F.m * 2 ^ oneExp F) ∨
    (oneExp F < k / 2 ^ F.m ∧ ∃ q, magVal F k = q * 2 ^ oneExp F) := by
  have hp := pow_pos2 F.m
  have hd := Nat.mod_lt k hp
  have hpos : 0 < oneExp F := by cases h <;> decide
  by_cases hc : k / 2 ^ F.m ≤ oneExp F
  · left
    refine ⟨hc, ?_⟩
    unfold magVal
    by_cases h0 : k / 2 ^ F.m = 0
    · rw [if_pos h0]
      have : k < 2 ^ F.m := by
        have := Nat.div_add_mod k (2 ^ F.m)
        rw [h0] at this; omega
      exact Nat.lt_of_lt_of_le this (Nat.le_mul_of_pos_right _ (pow_pos2 _))
    · rw [if_neg h0]
      have h1 : 2 ^ F.m * 2 ^ oneExp F = (2 ^ F.m + 2 ^ F.m) * 2 ^ (oneExp F - 1) := by
        rw [← two_pow_succ, ← Nat.pow_add, ← Nat.pow_add]; congr 1; omega
      rw [h1]
      calc (2 ^ F.m + k % 2 ^ F.m) * 2 ^ (k / 2 ^ F.m - 1)
          ≤ (2 ^ F.m + k % 2 ^ F.m) * 2 ^ (oneExp F - 1) :=
            Nat.mul_le_mul_left _ (Nat.pow_le_pow_right (by decide) (by omega))
        _ < _ := Nat.mul_lt_mul_of_pos_right (by omega) (pow_pos2 _)
  · right
    refine ⟨by omega, (2 ^ F.m + k % 2 ^ F.m) * 2 ^ (k / 2 ^ F.m - 1 - oneExp F), ?_⟩
    unfold magVal
    rw [if_neg (by omega), Nat.mul_assoc, ← Nat.pow_add]
    congr 2; omega

theorem rne_mul (q : Nat) {d : Nat} (hd : 0 < d) : rne (q * d) d = q := rne_exact q hd

/-- Ceiling of a quotient. -/
theorem ceilDiv_spec (v : Nat) {d : Nat} (hd : 0 < d) : v ≤ (v + d - 1) / d * d ∧ (v + d - 1) / d * d < v + d := by
  have h1 := Nat.div_add_mod (v + d - 1) d
  have h2 := Nat.mod_lt (v + d - 1) hd
  rw [Nat.mul_comm] at h1
  generalize (v + d - 1) / d * d = A at *
  omega

theorem ceilDiv_mul (q : Nat) {d : Nat} (hd : 0 < d) : (q * d + d - 1) / d = q := by
  rw [Nat.mul_comm, show d * q + d - 1 = d * q + (d - 1) from by omega, Nat.mul_add_div hd,
    Nat.div_eq_of_lt (by omega)]
  rfl

theorem floorDiv_spec (v : Nat) {d : Nat} (hd : 0 < d) : v / d * d ≤ v ∧ v < v / d * d + d := by
  have h1 := Nat.div_add_mod v d
  have h2 := Nat.mod_lt v hd
  rw [Nat.mul_comm] at h1
  omega

/-- The integer magnitude a rounding mode gives. -/
def roundQ (mode : RMode) (neg : Bool) (v d : Nat) : Nat :=
  match mode with
  | .nearest => rne v d
  | .zero => v / d
  | .down => if neg then (v + d - 1) / d else v / d
  | .up => if neg then v / d else (v + d - 1) / d

theorem roundQ_mul (mode : RMode) (neg : Bool) (q : Nat) {d : Nat} (hd : 0 < d) : roundQ mode neg (q * d) d = q := by
  unfold roundQ
  cases mode <;> simp only
  · exact rne_exact q hd
  · split
    · exact ceilDiv_mul q hd
    · exact Nat.mul_div_cancel _ hd
  · split
    · exact Nat.mul_div_cancel _ hd
    · exact ceilDiv_mul q hd
  · exact Nat.mul_div_cancel _ hd

theorem roundQ_le (mode : RMode) (neg : Bool) {v d b : Nat} (hd : 0 < d) (h : v ≤ b * d) : roundQ mode neg v d ≤ b := by
  have hf : v / d ≤ b := by
    have := Nat.div_le_div_right (c := d) h
    rwa [Nat.mul_div_cancel _ hd] at this
  have hc : (v + d - 1) / d ≤ b := by
    have := Nat.div_le_div_right (c := d) (show v + d - 1 ≤ b * d + d - 1 by omega)
    rwa [ceilDiv_mul b hd] at this
  unfold roundQ
  cases mode <;> simp only
  · exact rne_le v hd h
  · split <;> assumption
  · split <;> assumption
  · exact hf

/-- A signed integer with magnitude at most `2 ^ (m + 1)`. -/
theorem mk_int {F : Fmt} {w : Nat} (h : FmtW F w) {q : Nat} (hq : q ≤ 2 ^ (F.m + 1)) :
    roundMag F (q * 2 ^ oneExp F) 1 < infMag F ∧ magVal F (roundMag F (q * 2 ^ oneExp F) 1) = q * 2 ^ oneExp F := by
  obtain ⟨M, e, hM⟩ := representable F (oneExp F) q hq
  have hi := inf_bound F (j := oneExp F) (by cases h <;> decide) hM
  have hm := roundMag_exact F (M := M) (den := 1) (by decide) (Nat.le_of_lt hi)
  rw [Nat.mul_one, e] at hm
  rw [hm]
  exact ⟨hi, e⟩

/-- The rounding instruction on finite numbers. -/
theorem fRound_finite {F : Fmt} {w : Nat} (h : FmtW F w) (mode : RMode) {x : BitVec w} (hx : isFinite F x = true) :
    isFinite F (fRound F mode x) = true ∧ fneg F (fRound F mode x) = fneg F x ∧
    fval F (fRound F mode x) =
      signed (fneg F x) (roundQ mode (fneg F x) (magVal F (fmag F x)) (2 ^ oneExp F)) * 2 ^ oneExp F := by
  obtain ⟨n1, n2⟩ := isFinite_not hx
  have hd := pow_pos2 (oneExp F)
  have e : fRound F mode x = mkFloat F w (fneg F x)
      (roundMag F (roundQ mode (fneg F x) (magVal F (fmag F x)) (2 ^ oneExp F) * 2 ^ oneExp F) 1) := by
    unfold fRound roundQ
    rw [n1, n2]
    simp only [Bool.false_eq_true, if_false, natAbs_fval]
    cases mode <;> rfl
  have key : roundMag F (roundQ mode (fneg F x) (magVal F (fmag F x)) (2 ^ oneExp F) * 2 ^ oneExp F) 1 < infMag F ∧
      magVal F (roundMag F (roundQ mode (fneg F x) (magVal F (fmag F x)) (2 ^ oneExp F) * 2 ^ oneExp F) 1) =
        roundQ mode (fneg F x) (magVal F (fmag F x)) (2 ^ oneExp F) * 2 ^ oneExp F := by
    rcases int_or_small h (fmag F x) with ⟨-, hs⟩ | ⟨-, q, hq⟩
    · refine mk_int h (Nat.le_trans (roundQ_le mode _ hd (Nat.le_of_lt hs)) ?_)
      exact Nat.pow_le_pow_right (by decide) (by omega)
    · rw [hq, roundQ_mul mode _ q hd, ← hq]
      have hf : fmag F x < infMag F := of_decide_eq_true hx
      have := roundMag_exact F (M := fmag F x) (den := 1) (by decide) (Nat.le_of_lt hf)
      rw [Nat.mul_one] at this
      rw [this]
      exact ⟨hf, rfl⟩
  rw [e]
  have hlt := Nat.lt_trans key.1 (infMag_lt F)
  refine ⟨isFinite_mk F h.lt _ key.1, (fneg_mk F h.lt _ hlt).1, ?_⟩
  rw [fval_mk F h.lt _ hlt, key.2]
  have := signed_mul (fneg F x) (roundQ mode (fneg F x) (magVal F (fmag F x)) (2 ^ oneExp F)) (2 ^ oneExp F)
  rw [Int.natCast_pow] at this
  exact this

/-! ### The integers -/

theorem isTrunc_div (s : Bool) (v : Nat) {d : Nat} (hd : 0 < d) :
    IsTrunc (signed s v) (d : Int) (signed s (v / d)) := by
  have h := floorDiv_spec v hd
  have hm : signed s (v / d * d) = signed s (v / d) * (d : Int) := signed_mul s _ _
  have hs : (signed s (v / d) + 1) * (d : Int) = signed s (v / d * d) + d := by rw [Int.add_mul, hm, Int.one_mul]
  have hs' : (signed s (v / d) - 1) * (d : Int) = signed s (v / d * d) - d := by rw [Int.sub_mul, hm, Int.one_mul]
  unfold IsTrunc
  rw [hs, hs', ← hm]
  generalize v / d * d = A at *
  unfold signed
  cases s <;> simp <;> omega

theorem isFloor_roundQ (s : Bool) (v : Nat) {d : Nat} (hd : 0 < d) :
    IsFloor (signed s v) (d : Int) (signed s (roundQ .down s v d)) := by
  unfold roundQ IsFloor
  simp only
  cases s
  · have h := floorDiv_spec v hd
    have hm : (v / d : Nat) * (d : Int) = ((v / d * d : Nat) : Int) := by rw [Int.natCast_mul]
    simp only [signed, Bool.false_eq_true, if_false, Int.add_mul, Int.one_mul, hm]
    generalize v / d * d = A at *
    omega
  · have h := ceilDiv_spec v hd
    have hm : -(((v + d - 1) / d : Nat) : Int) * (d : Int) = -(((v + d - 1) / d * d : Nat) : Int) := by
      rw [Int.natCast_mul, Int.neg_mul]
    simp only [signed, if_true, Int.add_mul, Int.one_mul, hm]
    generalize (v + d - 1) / d * d = A at *
    omega

theorem isCeil_roundQ (s : Bool) (v : Nat) {d : Nat} (hd : 0 < d) :
    IsCeil (signed s v) (d : Int) (signed s (roundQ .up s v d)) := by
  unfold roundQ IsCeil
  simp only
  cases s
  · have h := ceilDiv_spec v hd
    have hm : (((v + d - 1) / d : Nat) : Int) * (d : Int) = (((v + d - 1) / d * d : Nat) : Int) := by
      rw [Int.natCast_mul]
    simp only [signed, Bool.false_eq_true, if_false, Int.sub_mul, Int.one_mul, hm]
    generalize (v + d - 1) / d * d = A at *
    omega
  · have h := floorDiv_spec v hd
    have hm : -((v / d : Nat) : Int) * (d : Int) = -((v / d * d : Nat) : Int) := by
      rw [Int.natCast_mul, Int.neg_mul]
    simp only [signed, if_true, Int.sub_mul, Int.one_mul, hm]
    generalize v / d * d = A at *
    omega

/-- Ties go to even. -/
theorem rne_tie (v : Nat) {d : Nat} (hd : 0 < d) (h : 2 * v = 2 * (rne v d * d) + d ∨ 2 * (rne v d * d) = 2 * v + d) :
    rne v d % 2 = 0 := by
  have h1 := Nat.div_add_mod v d
  have h2 := Nat.mod_lt v hd
  rw [Nat.mul_comm] at h1
  unfold rne at h ⊢
  simp only at h ⊢
  by_cases a : 2 * (v % d) < d
  · rw [if_pos a] at h
    omega
  · rw [if_neg a] at h ⊢
    by_cases b : d < 2 * (v % d)
    · rw [if_pos b, Nat.add_mul, Nat.one_mul] at h
      omega
    · rw [if_neg b] at h ⊢
      omega

theorem isNearest_rne (s : Bool) (v : Nat) {d : Nat} (hd : 0 < d) :
    IsNearest (signed s v) (d : Int) (signed s (rne v d)) := by
  have h := rne_bounds v hd
  have ht := rne_tie v hd
  have hm : signed s (rne v d * d) = signed s (rne v d) * (d : Int) := signed_mul s _ _
  unfold IsNearest
  rw [← hm]
  generalize rne v d * d = A at *
  generalize rne v d = q at *
  unfold signed
  cases s
  · simp only [Bool.false_eq_true, if_false]
    refine ⟨by omega, by omega, fun h => ?_⟩
    have := ht (by omega)
    omega
  · simp only [if_true]
    refine ⟨by omega, by omega, fun h => ?_⟩
    have := ht (by omega)
    omega

end Vc.Lemma
