import Verif.Model.Float

namespace Vc.Lemma

open Vc.Model Vc.Spec

/-! ### Rounding to integers -/

theorem rne_bounds (num : Nat) {den : Nat} (hd : 0 < den) :
    2 * num ≤ 2 * (rne num den * den) + den ∧ 2 * (rne num den * den) ≤ 2 * num + den := by
  have h := Nat.div_add_mod num den
  have hm := Nat.mod_lt num hd
  rw [Nat.mul_comm] at h
  unfold rne
  simp only
  split
  · omega
  · split
    · rw [Nat.add_mul, Nat.one_mul]; omega
    · rcases Nat.mod_two_eq_zero_or_one (num / den) with e | e
      · rw [e, Nat.add_zero]; omega
      · rw [e, Nat.add_mul, Nat.one_mul]; omega

theorem rne_exact (q : Nat) {den : Nat} (hd : 0 < den) : rne (q * den) den = q := by
  unfold rne
  simp only
  rw [Nat.mul_mod_left, if_pos (by omega), Nat.mul_div_cancel _ hd]

theorem rne_ge (num : Nat) {den q : Nat} (hd : 0 < den) (h : q * den ≤ num) : q ≤ rne num den := by
  have h1 : q ≤ num / den := (Nat.le_div_iff_mul_le hd).mpr h
  unfold rne
  simp only
  split
  · exact h1
  · split <;> omega

theorem rne_le (num : Nat) {den q : Nat} (hd : 0 < den) (h : num ≤ q * den) : rne num den ≤ q := by
  have hdm := Nat.div_add_mod num den
  have hm := Nat.mod_lt num hd
  have h1 : num / den ≤ q := by
    have := Nat.div_le_div_right (c := den) h
    rwa [Nat.mul_div_cancel _ hd] at this
  unfold rne
  simp only
  by_cases he : num / den = q
  · have : num % den = 0 := by
      rw [he, Nat.mul_comm] at hdm; omega
    rw [this, if_pos (by omega)]; exact h1
  · split
    · exact h1
    · split <;> omega

/-! ### Patterns and numbers -/

theorem two_pow_succ (n : Nat) : 2 ^ (n + 1) = 2 ^ n + 2 ^ n := by rw [Nat.pow_succ]; omega

theorem pow_pos2 (n : Nat) : 0 < 2 ^ n := Nat.two_pow_pos n

/-- The pattern of the number `r * 2 ^ k`. -/
theorem magVal_pack (F : Fmt) {k r : Nat} (hr : r ≤ 2 ^ (F.m + 1)) (hk : k = 0 ∨ 2 ^ F.m ≤ r) :
    magVal F (k * 2 ^ F.m + r) = r * 2 ^ k := by
  have hp := pow_pos2 F.m
  rw [two_pow_succ] at hr
  unfold magVal
  have hdiv : ∀ c d : Nat, d < 2 ^ F.m → (c * 2 ^ F.m + d) / 2 ^ F.m = c ∧ (c * 2 ^ F.m + d) % 2 ^ F.m = d := by
    intro c d hd
    constructor
    · rw [Nat.mul_comm, Nat.mul_add_div hp, Nat.div_eq_of_lt hd, Nat.add_zero]
    · rw [Nat.mul_comm, Nat.mul_add_mod, Nat.mod_eq_of_lt hd]
  by_cases h1 : r < 2 ^ F.m
  · have hk0 : k = 0 := by omega
    subst hk0
    rw [(hdiv 0 r h1).1, if_pos rfl]; simp
  · by_cases h2 : r < 2 ^ F.m + 2 ^ F.m
    · have e : k * 2 ^ F.m + r = (k + 1) * 2 ^ F.m + (r - 2 ^ F.m) := by
        rw [Nat.add_mul, Nat.one_mul]; omega
      rw [e, (hdiv (k + 1) _ (by omega)).1, (hdiv (k + 1) _ (by omega)).2, if_neg (by omega),
        Nat.add_sub_cancel]
      congr 1; omega
    · have e : k * 2 ^ F.m + r = (k + 2) * 2 ^ F.m + 0 := by
        rw [Nat.add_mul]; omega
      rw [e, (hdiv (k + 2) _ hp).1, (hdiv (k + 2) _ hp).2, if_neg (by omega)]
      have : r = 2 ^ F.m * 2 := by omega
      rw [this, show k + 2 - 1 = k + 1 from by omega, Nat.pow_succ, Nat.add_zero, Nat.mul_assoc,
        Nat.mul_comm 2]

theorem magVal_lt_succ (F : Fmt) (k : Nat) : magVal F k < magVal F (k + 1) := by
  have hp := pow_pos2 F.m
  -- write k = c * 2^m + d
  have hk := Nat.div_add_mod k (2 ^ F.m)
  have hd := Nat.mod_lt k hp
  generalize hc : k / 2 ^ F.m = c at *
  generalize hdd : k % 2 ^ F.m = d at *
  rw [Nat.mul_comm] at hk
  cases c with
  | zero =>
    have e1 := magVal_pack F (k := 0) (r := k) (by rw [two_pow_succ]; omega) (.inl rfl)
    have e2 := magVal_pack F (k := 0) (r := k + 1) (by rw [two_pow_succ]; omega) (.inl rfl)
    simp only [Nat.zero_mul, Nat.zero_add, Nat.pow_zero, Nat.mul_one] at e1 e2
    omega
  | succ c =>
    have e1 := magVal_pack F (k := c) (r := 2 ^ F.m + d) (by rw [two_pow_succ]; omega) (.inr (by omega))
    have e2 := magVal_pack F (k := c) (r := 2 ^ F.m + d + 1) (by rw [two_pow_succ]; omega) (.inr (by omega))
    have a1 : c * 2 ^ F.m + (2 ^ F.m + d) = k := by rw [Nat.add_mul, Nat.one_mul] at hk; omega
    have a2 : c * 2 ^ F.m + (2 ^ F.m + d + 1) = k + 1 := by omega
    rw [a1] at e1
    rw [a2] at e2
    rw [e1, e2]
    exact Nat.mul_lt_mul_of_pos_right (by omega) (pow_pos2 c)

theorem magVal_lt (F : Fmt) {a b : Nat} (h : a < b) : magVal F a < magVal F b := by
  induction b with
  | zero => omega
  | succ b ih =>
    by_cases h' : a = b
    · subst h'; exact magVal_lt_succ F a
    · exact Nat.lt_trans (ih (by omega)) (magVal_lt_succ F b)

theorem magVal_le (F : Fmt) {a b : Nat} (h : a ≤ b) : magVal F a ≤ magVal F b := by
  rcases Nat.lt_or_eq_of_le h with h | h
  · exact Nat.le_of_lt (magVal_lt F h)
  · rw [h]; exact Nat.le_refl _

theorem magVal_lt_iff (F : Fmt) {a b : Nat} : magVal F a < magVal F b ↔ a < b := by
  refine ⟨fun h => ?_, magVal_lt F⟩
  rcases Nat.lt_or_ge a b with h' | h'
  · exact h'
  · have := magVal_le F h'; omega

theorem magVal_inj (F : Fmt) {a b : Nat} (h : magVal F a = magVal F b) : a = b := by
  rcases Nat.lt_trichotomy a b with h' | h' | h'
  · have := magVal_lt F h'; omega
  · exact h'
  · have := magVal_lt F h'; omega

theorem magVal_zero (F : Fmt) : magVal F 0 = 0 := by
  unfold magVal; rw [Nat.zero_div, if_pos rfl]

/-! ### Sign and magnitude -/

theorem fneg_mk (F : Fmt) {w : Nat} (hw : F.e + F.m < w) (s : Bool) {k : Nat} (hk : k < 2 ^ (F.e + F.m)) :
    fneg F (mkFloat F w s k) = s ∧ fmag F (mkFloat F w s k) = k := by
  unfold fneg fmag mkFloat
  have h2 : 2 ^ (F.e + F.m + 1) ≤ 2 ^ w := Nat.pow_le_pow_right (by decide) hw
  rw [two_pow_succ] at h2
  have ht : (BitVec.ofNat w (k + if s = true then 2 ^ (F.e + F.m) else 0)).toNat =
      k + if s = true then 2 ^ (F.e + F.m) else 0 := by
    rw [BitVec.toNat_ofNat, Nat.mod_eq_of_lt]
    split <;> omega
  rw [ht]
  cases s
  · simp only [Bool.false_eq_true, if_false, Nat.add_zero]
    exact ⟨Nat.testBit_lt_two_pow hk, Nat.mod_eq_of_lt hk⟩
  · simp only [if_true]
    refine ⟨?_, by rw [Nat.add_mod_right, Nat.mod_eq_of_lt hk]⟩
    rw [Nat.add_comm, Nat.testBit_two_pow_add_eq, Nat.testBit_lt_two_pow hk]; rfl

theorem infMag_lt (F : Fmt) : infMag F < 2 ^ (F.e + F.m) := by
  unfold infMag
  rw [Nat.pow_add]
  have h1 := pow_pos2 F.e
  have h2 := pow_pos2 F.m
  exact Nat.mul_lt_mul_of_pos_right (by omega) h2

theorem fval_mk (F : Fmt) {w : Nat} (hw : F.e + F.m < w) (s : Bool) {k : Nat} (hk : k < 2 ^ (F.e + F.m)) :
    fval F (mkFloat F w s k) = if s then -(magVal F k : Int) else magVal F k := by
  unfold fval
  rw [(fneg_mk F hw s hk).1, (fneg_mk F hw s hk).2]

theorem isFinite_mk (F : Fmt) {w : Nat} (hw : F.e + F.m < w) (s : Bool) {k : Nat} (hk : k < infMag F) :
    isFinite F (mkFloat F w s k) = true := by
  unfold isFinite
  rw [(fneg_mk F hw s (Nat.lt_trans hk (infMag_lt F))).2]
  simpa using hk

theorem isFinite_not {F : Fmt} {w : Nat} {x : BitVec w} (h : isFinite F x = true) :
    isNaN F x = false ∧ isInf F x = false := by
  unfold isFinite at h
  unfold isNaN isInf
  have h := of_decide_eq_true h
  exact ⟨decide_eq_false (by omega), decide_eq_false (by omega)⟩

theorem natAbs_fval (F : Fmt) {w : Nat} (x : BitVec w) : (fval F x).natAbs = magVal F (fmag F x) := by
  unfold fval; split <;> simp

/-! ### Rounding -/

/-- The unit in the last place used to round `num / den`. -/
def ulpExp (F : Fmt) (num den : Nat) : Nat := Nat.log2 (num / den) - F.m

theorem log2_bound (F : Fmt) (num : Nat) {den : Nat} (hd : 0 < den) :
    num < 2 ^ (F.m + 1) * (den * 2 ^ ulpExp F num den) ∧
    (0 < ulpExp F num den → 2 ^ F.m * (den * 2 ^ ulpExp F num den) ≤ num) := by
  have hlt : num / den < 2 ^ (Nat.log2 (num / den) + 1) := Nat.lt_log2_self
  unfold ulpExp
  constructor
  · have h1 : num / den < 2 ^ (F.m + 1 + (Nat.log2 (num / den) - F.m)) :=
      Nat.lt_of_lt_of_le hlt (Nat.pow_le_pow_right (by decide) (by omega))
    rw [Nat.div_lt_iff_lt_mul hd, Nat.pow_add] at h1
    calc num < _ := h1
      _ = _ := by rw [Nat.mul_assoc]; congr 1; exact Nat.mul_comm _ _
  · intro hk
    have h0 : num / den ≠ 0 := by
      intro h; rw [h] at hk; simp at hk
    have h2 := Nat.log2_self_le h0
    have h3 : 2 ^ (F.m + (Nat.log2 (num / den) - F.m)) ≤ num / den := by
      rw [show F.m + (Nat.log2 (num / den) - F.m) = Nat.log2 (num / den) from by omega]; exact h2
    rw [Nat.le_div_iff_mul_le hd, Nat.pow_add] at h3
    calc _ = _ := by rw [Nat.mul_comm den, Nat.mul_assoc]
      _ ≤ num := h3

/-- The rounded number, if there is no overflow. -/
theorem magVal_roundMag (F : Fmt) (num : Nat) {den : Nat} (hd : 0 < den) (hno : roundMag F num den < infMag F) :
    magVal F (roundMag F num den) =
      rne num (den * 2 ^ ulpExp F num den) * 2 ^ ulpExp F num den := by
  have hd' : 0 < den * 2 ^ ulpExp F num den := Nat.mul_pos hd (pow_pos2 _)
  obtain ⟨h1, h2⟩ := log2_bound F num hd
  have e : roundMag F num den = ulpExp F num den * 2 ^ F.m + rne num (den * 2 ^ ulpExp F num den) := by
    unfold roundMag at hno ⊢
    simp only at hno ⊢
    show min (ulpExp F num den * 2 ^ F.m + rne num (den * 2 ^ ulpExp F num den)) (infMag F) = _
    change min (ulpExp F num den * 2 ^ F.m + rne num (den * 2 ^ ulpExp F num den)) (infMag F) < _ at hno
    omega
  rw [e]
  refine magVal_pack F (rne_le _ hd' (Nat.le_of_lt h1)) ?_
  by_cases hk : ulpExp F num den = 0
  · exact .inl hk
  · exact .inr (rne_ge _ hd' (h2 (by omega)))

/-- `num / den` below `2 ^ (m + k)` with `k + 1 < 2 ^ e - 1` does not overflow. -/
theorem roundMag_lt (F : Fmt) (num : Nat) {den : Nat} (hd : 0 < den) {k : Nat} (hk : k + 2 < 2 ^ F.e)
    (h : num ≤ den * 2 ^ (F.m + k)) : roundMag F num den < infMag F := by
  have hp := pow_pos2 F.m
  have hd' : 0 < den * 2 ^ ulpExp F num den := Nat.mul_pos hd (pow_pos2 _)
  obtain ⟨h1, -⟩ := log2_bound F num hd
  have hr : rne num (den * 2 ^ ulpExp F num den) ≤ 2 ^ (F.m + 1) := rne_le _ hd' (Nat.le_of_lt h1)
  have hL : ulpExp F num den ≤ k := by
    unfold ulpExp
    have : num / den ≤ 2 ^ (F.m + k) := by
      have := Nat.div_le_div_right (c := den) h
      rwa [Nat.mul_comm den, Nat.mul_div_cancel _ hd] at this
    have h3 : Nat.log2 (num / den) ≤ F.m + k := by
      by_cases h0 : num / den = 0
      · rw [h0]; simp
      · have h4 := Nat.log2_self_le h0
        have := Nat.le_trans h4 this
        exact (Nat.pow_le_pow_iff_right (by decide : 1 < 2)).mp this
    omega
  have e : roundMag F num den ≤ ulpExp F num den * 2 ^ F.m + rne num (den * 2 ^ ulpExp F num den) := by
    unfold roundMag; exact Nat.min_le_left _ _
  have h5 : ulpExp F num den * 2 ^ F.m ≤ k * 2 ^ F.m := Nat.mul_le_mul_right _ hL
  have h6 : (k + 2) * 2 ^ F.m ≤ infMag F := by
    unfold infMag; exact Nat.mul_le_mul_right _ (by omega)
  rw [Nat.add_mul] at h6
  rw [two_pow_succ] at hr
  by_cases hlt : ulpExp F num den < k
  · have : (ulpExp F num den + 1) * 2 ^ F.m ≤ k * 2 ^ F.m := Nat.mul_le_mul_right _ hlt
    rw [Nat.add_mul, Nat.one_mul] at this
    omega
  · have heq : ulpExp F num den = k := by omega
    by_cases hk0 : k = 0
    · subst hk0
      rw [heq] at e hr
      have : rne num (den * 2 ^ 0) ≤ 2 ^ F.m := by
        apply rne_le _ (by simpa using hd)
        rw [Nat.add_zero] at h
        rw [Nat.pow_zero, Nat.mul_one, Nat.mul_comm]; exact h
      omega
    · have : rne num (den * 2 ^ k) ≤ 2 ^ F.m := by
        apply rne_le _ (Nat.mul_pos hd (pow_pos2 _))
        calc num ≤ _ := h
          _ = _ := by rw [Nat.pow_add, Nat.mul_left_comm]
      rw [heq] at e
      omega

theorem log2_eq {n k : Nat} (h1 : 2 ^ k ≤ n) (h2 : n < 2 ^ (k + 1)) : Nat.log2 n = k := by
  have hn : n ≠ 0 := by have := pow_pos2 k; omega
  have a := Nat.log2_self_le hn
  have b : n < 2 ^ (Nat.log2 n + 1) := Nat.lt_log2_self
  have c : k < Nat.log2 n + 1 := (Nat.pow_lt_pow_iff_right (by decide : 1 < 2)).mp (Nat.lt_of_le_of_lt h1 b)
  have d : Nat.log2 n < k + 1 := (Nat.pow_lt_pow_iff_right (by decide : 1 < 2)).mp (Nat.lt_of_le_of_lt a h2)
  omega

/-- Numbers of the format are not changed by rounding. -/
theorem roundMag_exact (F : Fmt) {M den : Nat} (hd : 0 < den) (hM : M ≤ infMag F) :
    roundMag F (magVal F M * den) den = M := by
  have hp := pow_pos2 F.m
  have hk := Nat.div_add_mod M (2 ^ F.m)
  have hdm := Nat.mod_lt M hp
  unfold roundMag
  simp only
  rw [Nat.mul_div_cancel _ hd]
  generalize hc : M / 2 ^ F.m = c at *
  generalize M % 2 ^ F.m = d at *
  rw [Nat.mul_comm] at hk
  cases c with
  | zero =>
    have e : magVal F M = M := by unfold magVal; rw [hc, if_pos rfl]
    have hlog : Nat.log2 M - F.m = 0 := by
      by_cases h0 : M = 0
      · rw [h0]; simp
      · have : M < 2 ^ F.m := by omega
        have := (Nat.log2_lt h0).mpr this
        omega
    rw [e, hlog, Nat.zero_mul, Nat.pow_zero, Nat.mul_one, rne_exact M hd]
    omega
  | succ c =>
    have e := magVal_pack F (k := c) (r := 2 ^ F.m + d) (by rw [two_pow_succ]; omega) (.inr (by omega))
    have a1 : c * 2 ^ F.m + (2 ^ F.m + d) = M := by rw [Nat.add_mul, Nat.one_mul] at hk; omega
    rw [a1] at e
    have hlog : Nat.log2 (magVal F M) = F.m + c := by
      rw [e]
      apply log2_eq
      · rw [Nat.pow_add]; exact Nat.mul_le_mul_right _ (by omega)
      · rw [show F.m + c + 1 = F.m + 1 + c from by omega, Nat.pow_add 2 (F.m + 1)]
        exact Nat.mul_lt_mul_of_pos_right (by rw [two_pow_succ]; omega) (pow_pos2 c)
    rw [hlog, show F.m + c - F.m = c from by omega, e,
      show (2 ^ F.m + d) * 2 ^ c * den = (2 ^ F.m + d) * (den * 2 ^ c) from by
        rw [Nat.mul_assoc, Nat.mul_comm den], rne_exact _ (Nat.mul_pos hd (pow_pos2 c))]
    omega

/-- `r * 2 ^ j` with at most `m + 1` significant bits is a number of the format. -/
theorem representable (F : Fmt) (j : Nat) : ∀ r, r ≤ 2 ^ (F.m + 1) →
    ∃ M, magVal F M = r * 2 ^ j ∧ M ≤ (j + 2) * 2 ^ F.m := by
  induction j with
  | zero =>
    intro r hr
    refine ⟨r, ?_, ?_⟩
    · have := magVal_pack F (k := 0) hr (.inl rfl)
      simpa using this
    · rw [two_pow_succ] at hr; omega
  | succ j ih =>
    intro r hr
    by_cases h : 2 ^ F.m ≤ r
    · refine ⟨(j + 1) * 2 ^ F.m + r, magVal_pack F hr (.inr h), ?_⟩
      rw [two_pow_succ] at hr
      rw [show (j + 1 + 2) * 2 ^ F.m = (j + 1) * 2 ^ F.m + (2 ^ F.m + 2 ^ F.m) from by
        rw [Nat.add_mul (j + 1)]; omega]
      omega
    · obtain ⟨M, e, hM⟩ := ih (2 * r) (by rw [two_pow_succ]; omega)
      refine ⟨M, ?_, Nat.le_trans hM (Nat.mul_le_mul_right _ (by omega))⟩
      rw [e, Nat.pow_succ, Nat.mul_comm 2, Nat.mul_assoc, Nat.mul_comm 2]

theorem inf_bound (F : Fmt) {j M : Nat} (hj : j + 3 < 2 ^ F.e) (hM : M ≤ (j + 2) * 2 ^ F.m) : M < infMag F := by
  have hp := pow_pos2 F.m
  unfold infMag
  have : (j + 3) * 2 ^ F.m ≤ (2 ^ F.e - 1) * 2 ^ F.m := Nat.mul_le_mul_right _ (by omega)
  rw [Nat.add_mul j 3] at this
  rw [Nat.add_mul] at hM
  omega

/-- Rounding a number with few significant bits is exact. -/
theorem roundInt_exact (F : Fmt) {w : Nat} (hw : F.e + F.m < w) {n : Int} (nz : Bool) {r j : Nat}
    (hr : r ≤ 2 ^ (F.m + 1)) (hj : j + 3 < 2 ^ F.e) (hn : n.natAbs = r * 2 ^ j) :
    fval F (roundInt F w n nz) = n ∧ isFinite F (roundInt F w n nz) = true ∧
      (fneg F (roundInt F w n nz) = if n = 0 then nz else decide (n < 0)) := by
  obtain ⟨M, e, hM⟩ := representable F j r hr
  have hi := inf_bound F hj hM
  have hm := roundMag_exact F (M := M) (den := 1) (by decide) (Nat.le_of_lt hi)
  rw [Nat.mul_one, e, ← hn] at hm
  have hlt := Nat.lt_trans hi (infMag_lt F)
  unfold roundInt
  rw [hm]
  refine ⟨?_, isFinite_mk F hw _ hi, (fneg_mk F hw _ hlt).1⟩
  rw [fval_mk F hw _ hlt, e, ← hn]
  by_cases h0 : n = 0
  · subst h0; cases nz <;> simp
  · rw [if_neg h0]
    by_cases h1 : n < 0
    · simp [h1]; omega
    · simp [h1]; omega

/-- Conversion of an integer with few significant bits is exact. -/
theorem cvtI2F_exact (F : Fmt) {w : Nat} (hw : F.e + F.m < w) {a : BitVec 32} {r j : Nat}
    (hr : r ≤ 2 ^ (F.m + 1)) (hj : j + oneExp F + 3 < 2 ^ F.e) (hn : a.toInt.natAbs = r * 2 ^ j) :
    fval F (cvtI2F F w a) = a.toInt * 2 ^ oneExp F ∧ isFinite F (cvtI2F F w a) = true ∧
      (fneg F (cvtI2F F w a) = decide (a.toInt < 0)) := by
  have h := roundInt_exact F hw (n := a.toInt * 2 ^ oneExp F) false hr hj (by
    rw [Int.natAbs_mul, hn, Int.natAbs_pow, show Int.natAbs 2 = 2 from rfl, Nat.mul_assoc, ← Nat.pow_add])
  refine ⟨h.1, h.2.1, h.2.2.trans ?_⟩
  have hp : (0 : Int) < 2 ^ oneExp F := Int.pow_pos (by decide)
  by_cases h0 : a.toInt = 0
  · simp [h0]
  · have hne : a.toInt * 2 ^ oneExp F ≠ 0 := Int.mul_ne_zero h0 (by omega)
    rw [if_neg hne]
    by_cases h1 : a.toInt < 0
    · rw [decide_eq_true h1, decide_eq_true (Int.mul_neg_of_neg_of_pos h1 hp)]
    · rw [decide_eq_false h1, decide_eq_false (by
        have : 0 ≤ a.toInt * 2 ^ oneExp F := Int.mul_nonneg (by omega) (by omega)
        omega)]

theorem fAdd_exact (F : Fmt) {w : Nat} (hw : F.e + F.m < w) {a b : BitVec w} (ha : isFinite F a = true)
    (hb : isFinite F b = true) {r j : Nat} (hr : r ≤ 2 ^ (F.m + 1)) (hj : j + 3 < 2 ^ F.e)
    (hn : (fval F a + fval F b).natAbs = r * 2 ^ j) :
    fval F (fAdd F a b) = fval F a + fval F b ∧ isFinite F (fAdd F a b) = true := by
  obtain ⟨a1, a2⟩ := isFinite_not ha
  obtain ⟨b1, b2⟩ := isFinite_not hb
  unfold fAdd
  rw [a1, b1, a2, b2]
  simp only [Bool.false_eq_true, if_false]
  have := roundInt_exact F hw (fneg F a && fneg F b) hr hj hn
  exact ⟨this.1, this.2.1⟩

theorem fSub_exact (F : Fmt) {w : Nat} (hw : F.e + F.m < w) {a b : BitVec w} (ha : isFinite F a = true)
    (hb : isFinite F b = true) {r j : Nat} (hr : r ≤ 2 ^ (F.m + 1)) (hj : j + 3 < 2 ^ F.e)
    (hn : (fval F a - fval F b).natAbs = r * 2 ^ j) :
    fval F (fSub F a b) = fval F a - fval F b ∧ isFinite F (fSub F a b) = true := by
  obtain ⟨a1, a2⟩ := isFinite_not ha
  obtain ⟨b1, b2⟩ := isFinite_not hb
  unfold fSub
  rw [a1, b1, a2, b2]
  simp only [Bool.false_eq_true, if_false]
  have := roundInt_exact F hw (fneg F a && !fneg F b) hr hj hn
  exact ⟨this.1, this.2.1⟩

end Vc.Lemma
