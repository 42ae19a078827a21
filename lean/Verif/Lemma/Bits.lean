import Verif.Model.Bits
import Verif.Spec.Bits

/-!
# Lemmas on bit scan and population count
-/

namespace Vc.Lemma
open Vc.Model Vc.Spec

theorem bsf_spec : ∀ (x : Nat), x ≠ 0 →
    ∃ i, bsf x = some i ∧ x.testBit i = true ∧ ∀ j, j < i → x.testBit j = false := by
  intro x
  induction x using Nat.strongRecOn with
  | _ x ih =>
    intro hx
    rw [bsf, dif_neg hx]
    by_cases h : x % 2 = 1
    · rw [if_pos h]
      exact ⟨0, rfl, by simp [Nat.testBit_zero, h], fun j hj => by omega⟩
    · rw [if_neg h]
      obtain ⟨i, e, h1, h2⟩ := ih (x / 2) (by omega) (by omega)
      refine ⟨i + 1, by rw [e]; rfl, by rw [Nat.testBit_succ]; exact h1, fun j hj => ?_⟩
      cases j with
      | zero => simp [Nat.testBit_zero]; omega
      | succ j => rw [Nat.testBit_succ]; exact h2 j (by omega)

theorem bsr_spec : ∀ (x : Nat), x ≠ 0 →
    ∃ i, bsr x = some i ∧ x.testBit i = true ∧ ∀ j, i < j → x.testBit j = false := by
  intro x
  induction x using Nat.strongRecOn with
  | _ x ih =>
    intro hx
    rw [bsr, dif_neg hx]
    by_cases h : x = 1
    · rw [dif_pos h]; subst h
      exact ⟨0, rfl, rfl, fun j hj => by
        cases j with
        | zero => omega
        | succ j => rw [Nat.testBit_succ]; simp⟩
    · rw [dif_neg h]
      obtain ⟨i, e, h1, h2⟩ := ih (x / 2) (by omega) (by omega)
      refine ⟨i + 1, by rw [e]; rfl, by rw [Nat.testBit_succ]; exact h1, fun j hj => ?_⟩
      cases j with
      | zero => omega
      | succ j => rw [Nat.testBit_succ]; exact h2 j (by omega)

theorem btr_testBit (x i j : Nat) : (btr x i).testBit j = (x.testBit j && decide (i ≠ j)) := by
  unfold btr
  rw [Nat.testBit_xor, Nat.testBit_and, Nat.testBit_two_pow]
  by_cases h : i = j <;> cases x.testBit j <;> simp [h]

/-- `x & (x - 1)` clears the lowest set bit. -/
theorem and_pred_testBit : ∀ (x i : Nat), bsf x = some i → ∀ j,
    (x &&& (x - 1)).testBit j = (x.testBit j && decide (i ≠ j)) := by
  intro x
  induction x using Nat.strongRecOn with
  | _ x ih =>
    intro i hi j
    have hx : x ≠ 0 := by intro e; subst e; rw [bsf] at hi; simp at hi
    rw [bsf, dif_neg hx] at hi
    by_cases h : x % 2 = 1
    · rw [if_pos h] at hi
      cases hi
      cases j with
      | zero => simp [Nat.testBit_zero]; omega
      | succ j =>
        rw [Nat.testBit_and, Nat.testBit_succ, Nat.testBit_succ,
          show (x - 1) / 2 = x / 2 by omega]
        simp
    · rw [if_neg h] at hi
      cases e : bsf (x / 2) with
      | none => rw [e] at hi; cases hi
      | some k =>
        rw [e] at hi
        cases hi
        cases j with
        | zero => simp [Nat.testBit_zero]; omega
        | succ j =>
          have := ih (x / 2) (by omega) k e j
          rw [Nat.testBit_and] at this
          rw [Nat.testBit_and, Nat.testBit_succ, Nat.testBit_succ,
            show (x - 1) / 2 = x / 2 - 1 by omega, this]
          simp

theorem and_pred_lt (x : Nat) (hx : x ≠ 0) : x &&& (x - 1) < x := by
  have : x &&& (x - 1) ≤ x - 1 := Nat.and_le_right
  omega

theorem btr_le (x i : Nat) : btr x i ≤ x := by
  apply Nat.le_of_testBit
  intro j h
  rw [btr_testBit] at h
  simp at h
  exact h.1

theorem btr_lt (x i : Nat) (h : x.testBit i = true) : btr x i < x := by
  refine Nat.lt_of_le_of_ne (btr_le x i) (fun e => ?_)
  have := btr_testBit x i i
  rw [e, h] at this
  simp at this

/-- The set bits are the lowest one followed by the set bits of `x & (x - 1)`. -/
theorem setBits_cons (k x i : Nat) (h : bsf x = some i) (hi : i < k) :
    setBits k x = i :: setBits k (x &&& (x - 1)) := by
  have hx : x ≠ 0 := by intro e; subst e; rw [bsf] at h; simp at h
  obtain ⟨i', e', h1, h2⟩ := bsf_spec x hx
  rw [h] at e'; cases e'
  unfold setBits
  have hsplit : List.range k = List.range i ++ i :: (List.range (k - i - 1)).map (i + 1 + ·) := by
    have := List.range_add (n := i) (m := k - i)
    rw [show i + (k - i) = k by omega] at this
    rw [this, show k - i = (k - i - 1) + 1 by omega, List.range_succ_eq_map]
    simp [Function.comp_def, Nat.add_assoc, Nat.add_comm 1]
  have hlow : ∀ y : Nat, (∀ j, j < i → y.testBit j = false) →
      (List.range i).filter (fun j => y.testBit j) = [] := by
    intro y hy
    rw [List.filter_eq_nil_iff]
    intro a ha
    rw [hy a (by simpa using ha)]; simp
  rw [hsplit, List.filter_append, List.filter_append, hlow x h2,
    hlow _ (fun j hj => by rw [and_pred_testBit x i h, h2 j hj]; rfl)]
  simp only [List.nil_append, List.filter_cons, h1, if_true, and_pred_testBit x i h]
  simp only [ne_eq, not_true, decide_false, Bool.and_false]
  rw [if_neg (by simp)]
  congr 1
  apply List.filter_congr
  intro a ha
  simp only [List.mem_map] at ha
  obtain ⟨b, _, rfl⟩ := ha
  simp
  intro _; omega

/-! ## Population count -/

theorem fields_testBit (m a b j : Nat) (hb : b < 2 ^ m) :
    (a * 2 ^ m + b).testBit j = if j < m then b.testBit j else a.testBit (j - m) := by
  rw [Nat.mul_comm, Nat.testBit_two_pow_mul_add a hb j]

theorem fields_and (m a b c d : Nat) (hb : b < 2 ^ m) (hd : d < 2 ^ m) :
    (a * 2 ^ m + b) &&& (c * 2 ^ m + d) = (a &&& c) * 2 ^ m + (b &&& d) := by
  apply Nat.eq_of_testBit_eq
  intro j
  rw [Nat.testBit_and, fields_testBit _ _ _ _ hb, fields_testBit _ _ _ _ hd,
    fields_testBit _ _ _ _ (Nat.lt_of_le_of_lt Nat.and_le_left hb), Nat.testBit_and, Nat.testBit_and]
  by_cases h : j < m <;> simp [h]

theorem fields_shift_and (m s a b c : Nat) (hs : s ≤ m) (hb : b < 2 ^ m) (hc : c < 2 ^ (m - s)) :
    ((a * 2 ^ m + b) >>> s) &&& (c * 2 ^ m + c) = ((a >>> s) &&& c) * 2 ^ m + ((b >>> s) &&& c) := by
  have hc' : c < 2 ^ m := Nat.lt_of_lt_of_le hc (Nat.pow_le_pow_right (by omega) (by omega))
  apply Nat.eq_of_testBit_eq
  intro j
  rw [Nat.testBit_and, Nat.testBit_shiftRight, fields_testBit _ _ _ _ hb, fields_testBit _ _ _ _ hc',
    fields_testBit _ _ _ _ (Nat.lt_of_le_of_lt Nat.and_le_right hc'), Nat.testBit_and, Nat.testBit_and,
    Nat.testBit_shiftRight, Nat.testBit_shiftRight]
  have hz : ∀ i, m - s ≤ i → c.testBit i = false := fun i hi =>
    Nat.testBit_lt_two_pow (Nat.lt_of_lt_of_le hc (Nat.pow_le_pow_right (by omega) hi))
  by_cases h : j < m
  · by_cases h2 : s + j < m
    · simp [h, h2]
    · simp [h, h2, hz j (by omega)]
  · have h2 : ¬ s + j < m := by omega
    simp only [if_neg h, if_neg h2]
    by_cases h3 : j - m < m - s
    · rw [show s + (j - m) = s + j - m by omega]
    · rw [hz _ (by omega)]; simp

/-- One step of the population count. -/
def popStep (c s n : Nat) : Nat := (n &&& c) + ((n >>> s) &&& c)

theorem popStep_le (c s n : Nat) : popStep c s n ≤ 2 * c := by
  unfold popStep
  have h1 : n &&& c ≤ c := Nat.and_le_right
  have h2 : (n >>> s) &&& c ≤ c := Nat.and_le_right
  omega

/-- The steps work on both halves of the register independently. -/
theorem popStep_fields (m s c a b : Nat) (hs : s ≤ m) (hb : b < 2 ^ m) (hc : c < 2 ^ (m - s)) :
    popStep (c * 2 ^ m + c) s (a * 2 ^ m + b) = popStep c s a * 2 ^ m + popStep c s b := by
  unfold popStep
  have hc' : c < 2 ^ m := Nat.lt_of_lt_of_le hc (Nat.pow_le_pow_right (by omega) (by omega))
  rw [fields_and m a b c c hb hc', fields_shift_and m s a b c hs hb hc, Nat.add_mul]
  omega

/-- The last step adds the two halves. -/
theorem popStep_last (m a b : Nat) (ha : a < 2 ^ m) (hb : b < 2 ^ m) :
    popStep (2 ^ m - 1) m (a * 2 ^ m + b) = a + b := by
  unfold popStep
  rw [Nat.shiftRight_eq_div_pow, Nat.and_two_pow_sub_one_eq_mod, Nat.and_two_pow_sub_one_eq_mod,
    Nat.mul_comm a, Nat.mul_add_mod, Nat.mul_add_div (Nat.two_pow_pos m), Nat.div_eq_of_lt hb,
    Nat.mod_eq_of_lt hb, Nat.add_zero, Nat.mod_eq_of_lt ha, Nat.add_comm]

theorem popcnt8_halves (a b : Nat) (hb : b < 16) :
    popcnt8 (a * 2 ^ 4 + b) = popcnt4 a + popcnt4 b := by
  show popStep (2 ^ 4 - 1) 4 (popStep (3 * 2 ^ 4 + 3) 2 (popStep (5 * 2 ^ 4 + 5) 1 _)) = _
  rw [popStep_fields 4 1 5 a b (by omega) hb (by omega),
    popStep_fields 4 2 3 _ _ (by omega) (Nat.lt_of_le_of_lt (popStep_le _ _ _) (by omega)) (by omega),
    popStep_last 4 _ _ (Nat.lt_of_le_of_lt (popStep_le _ _ _) (by omega))
      (Nat.lt_of_le_of_lt (popStep_le _ _ _) (by omega))]
  rfl

theorem popcnt16_halves (a b : Nat) (hb : b < 256) :
    popcnt16 (a * 2 ^ 8 + b) = popcnt8 a + popcnt8 b := by
  show popStep (2 ^ 8 - 1) 8 (popStep (0xf * 2 ^ 8 + 0xf) 4 (popStep (0x33 * 2 ^ 8 + 0x33) 2
    (popStep (0x55 * 2 ^ 8 + 0x55) 1 _))) = _
  rw [popStep_fields 8 1 _ a b (by omega) hb (by omega),
    popStep_fields 8 2 _ _ _ (by omega) (Nat.lt_of_le_of_lt (popStep_le _ _ _) (by omega)) (by omega),
    popStep_fields 8 4 _ _ _ (by omega) (Nat.lt_of_le_of_lt (popStep_le _ _ _) (by omega)) (by omega),
    popStep_last 8 _ _ (Nat.lt_of_le_of_lt (popStep_le _ _ _) (by omega))
      (Nat.lt_of_le_of_lt (popStep_le _ _ _) (by omega))]
  rfl

theorem popcnt32_halves (a b : Nat) (hb : b < 65536) :
    popcnt32 (a * 2 ^ 16 + b) = popcnt16 a + popcnt16 b := by
  have h5 : (0x55555555 : Nat) = 0x5555 * 2 ^ 16 + 0x5555 := by decide
  have h3 : (0x33333333 : Nat) = 0x3333 * 2 ^ 16 + 0x3333 := by decide
  have hf : (0x0f0f0f0f : Nat) = 0x0f0f * 2 ^ 16 + 0x0f0f := by decide
  have hff : (0x00ff00ff : Nat) = 0xff * 2 ^ 16 + 0xff := by decide
  have hl : (0xffff : Nat) = 2 ^ 16 - 1 := by decide
  have e : ∀ n, popcnt32 n = popStep 0xffff 16 (popStep 0x00ff00ff 8 (popStep 0x0f0f0f0f 4
    (popStep 0x33333333 2 (popStep 0x55555555 1 n)))) := fun _ => rfl
  rw [e, h5, h3, hf, hff, hl, popStep_fields 16 1 _ a b (by omega) hb (by omega),
    popStep_fields 16 2 _ _ _ (by omega) (Nat.lt_of_le_of_lt (popStep_le _ _ _) (by omega)) (by omega),
    popStep_fields 16 4 _ _ _ (by omega) (Nat.lt_of_le_of_lt (popStep_le _ _ _) (by omega)) (by omega),
    popStep_fields 16 8 _ _ _ (by omega) (Nat.lt_of_le_of_lt (popStep_le _ _ _) (by omega)) (by omega),
    popStep_last 16 _ _ (Nat.lt_of_le_of_lt (popStep_le _ _ _) (by omega))
      (Nat.lt_of_le_of_lt (popStep_le _ _ _) (by omega))]
  rfl

theorem countBits_halves (m a b : Nat) (hb : b < 2 ^ m) :
    countBits (m + m) (a * 2 ^ m + b) = countBits m a + countBits m b := by
  unfold countBits
  rw [List.range_add, List.countP_append, List.countP_map, Nat.add_comm (List.countP _ (List.range m))]
  congr 1
  · apply List.countP_congr
    intro j _
    have : ¬ m + j < m := by omega
    simp [fields_testBit m a b _ hb, this]
  · apply List.countP_congr
    intro j hj
    have : j < m := by simpa using hj
    simp [fields_testBit m a b _ hb, this]

theorem popcnt4_eq : ∀ n, n < 16 → popcnt4 n = countBits 4 n := by decide

theorem popcnt8_eq (n : Nat) (h : n < 256) : popcnt8 n = countBits 8 n := by
  have e := Nat.div_add_mod' n 16
  rw [← e, show (16 : Nat) = 2 ^ 4 from rfl, popcnt8_halves _ _ (by omega),
    show (8 : Nat) = 4 + 4 from rfl, countBits_halves 4 _ _ (by omega), popcnt4_eq _ (by omega),
    popcnt4_eq _ (by omega)]

theorem popcnt16_eq (n : Nat) (h : n < 65536) : popcnt16 n = countBits 16 n := by
  have e := Nat.div_add_mod' n 256
  rw [← e, show (256 : Nat) = 2 ^ 8 from rfl, popcnt16_halves _ _ (by omega),
    show (16 : Nat) = 8 + 8 from rfl, countBits_halves 8 _ _ (by omega), popcnt8_eq _ (by omega),
    popcnt8_eq _ (by omega)]

theorem popcnt32_eq (n : Nat) (h : n < 2 ^ 32) : popcnt32 n = countBits 32 n := by
  have e := Nat.div_add_mod' n 65536
  rw [← e, show (65536 : Nat) = 2 ^ 16 from rfl, popcnt32_halves _ _ (by omega),
    show (32 : Nat) = 16 + 16 from rfl, countBits_halves 16 _ _ (by omega), popcnt16_eq _ (by omega),
    popcnt16_eq _ (by omega)]

end Vc.Lemma
