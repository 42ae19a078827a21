import Verif.Model.Io
import Verif.Spec.Io

/-!
C89: the text that the stream operators write shows the contents.

`Spec.Io.shown false` removes the escape sequences for colours, `Spec.Io.numbers none` finds the numbers
in a text and `Spec.Io.bits` the digits of a mask.
-/

namespace Vc.Prop

open Vc.Model.Io Vc.Spec.Io

private theorem digit_facts : ∀ d, d < 10 → (digit d).isDigit = true ∧ (digit d).toNat - 48 = d ∧
    digit d ≠ '-' ∧ digit d ≠ '\x1b' := by decide

private theorem numbers_nat (n : Nat) (l : List Char) :
    numbers none (decimalNat n ++ l) = numbers (some (false, n)) l := by
  induction n using Nat.strongRecOn generalizing l with
  | ind n ih =>
    rw [decimalNat]
    split
    · obtain ⟨h1, h2, h3, -⟩ := digit_facts n (by assumption)
      show numbers none (digit n :: l) = _
      rw [numbers, if_neg h3, if_pos h1, h2]
    · obtain ⟨h1, h2, -, -⟩ := digit_facts (n % 10) (by omega)
      rw [List.append_assoc, ih (n / 10) (by omega)]
      show numbers (some (false, n / 10)) (digit (n % 10) :: l) = _
      rw [numbers, if_pos h1, h2, Nat.div_add_mod]

private theorem numbers_neg (n : Nat) (l : List Char) :
    numbers (some (true, 0)) (decimalNat n ++ l) = numbers (some (true, n)) l := by
  induction n using Nat.strongRecOn generalizing l with
  | ind n ih =>
    rw [decimalNat]
    split
    · obtain ⟨h1, h2, -, -⟩ := digit_facts n (by assumption)
      show numbers (some (true, 0)) (digit n :: l) = _
      rw [numbers, if_pos h1, h2, Nat.mul_zero, Nat.zero_add]
    · obtain ⟨h1, h2, -, -⟩ := digit_facts (n % 10) (by omega)
      rw [List.append_assoc, ih (n / 10) (by omega)]
      show numbers (some (true, n / 10)) (digit (n % 10) :: l) = _
      rw [numbers, if_pos h1, h2, Nat.div_add_mod]

private theorem numbers_int (x : Int) (c : Char) (hc : c.isDigit = false) (l : List Char) :
    numbers none (decimal x ++ c :: l) = x :: numbers none l := by
  unfold decimal
  split
  · show numbers none ('-' :: (decimalNat x.natAbs ++ c :: l)) = _
    rw [numbers, if_pos rfl, numbers_neg, numbers, if_neg (by simp [hc]), if_pos rfl]
    congr 1
    omega
  · rw [numbers_nat, numbers, if_neg (by simp [hc]), if_neg (by simp)]
    congr 1
    omega

private theorem decimalNat_shown (n : Nat) (l : List Char) :
    shown false (decimalNat n ++ l) = decimalNat n ++ shown false l := by
  induction n using Nat.strongRecOn generalizing l with
  | ind n ih =>
    rw [decimalNat]
    split
    · obtain ⟨-, -, -, h⟩ := digit_facts n (by assumption)
      show shown false (digit n :: l) = _
      rw [shown, if_neg h]; rfl
    · obtain ⟨-, -, -, h⟩ := digit_facts (n % 10) (by omega)
      rw [List.append_assoc, ih (n / 10) (by omega)]
      show _ ++ shown false (digit (n % 10) :: l) = _
      rw [shown, if_neg h, List.append_assoc]; rfl

private theorem decimal_shown (x : Int) (l : List Char) :
    shown false (decimal x ++ l) = decimal x ++ shown false l := by
  unfold decimal
  split
  · show shown false ('-' :: (decimalNat x.natAbs ++ l)) = _
    rw [shown, if_neg (by decide), decimalNat_shown]; rfl
  · exact decimalNat_shown _ _

private theorem color_shown (tty : Bool) (l : List Char) :
    shown false (color tty green ++ l) = shown false l ∧ shown false (color tty blue ++ l) = shown false l ∧
    shown false (color tty yellow ++ l) = shown false l ∧
    shown false (color tty normal ++ l) = shown false l := by
  cases tty <;> exact ⟨rfl, rfl, rfl, rfl⟩

private theorem color_shown_end (tty : Bool) : shown false (color tty normal) = [] := by
  cases tty <;> rfl

private theorem char_shown (c : Char) (h : c ≠ '\x1b') (l : List Char) :
    shown false (c :: l) = c :: shown false l := by rw [shown, if_neg h]

private theorem vectorTail_shown (v : List Int) (l : List Char) :
    shown false (vectorTail v ++ l) = vectorTail v ++ shown false l := by
  induction v with
  | nil => rfl
  | cons x v ih =>
    simp only [vectorTail, List.cons_append, List.append_assoc]
    rw [char_shown _ (by decide), char_shown _ (by decide), decimal_shown, ih]

private theorem vector_shown (tty : Bool) (v0 : Int) (v : List Int) (l : List Char) :
    shown false (vector tty v0 v ++ l) = vector false v0 v ++ shown false l := by
  simp only [vector, List.append_assoc, List.cons_append]
  rw [(color_shown tty _).1, char_shown _ (by decide), decimal_shown, vectorTail_shown,
    char_shown _ (by decide), (color_shown tty _).2.2.2]
  rfl

private theorem vectors_shown (tty : Bool) (m : List (Int × List Int)) (l : List Char) :
    shown false (vectors tty m ++ l) = vectors false m ++ shown false l := by
  induction m with
  | nil => rfl
  | cons v m ih => rw [vectors, vectors, List.append_assoc, vector_shown, ih, List.append_assoc]

private theorem rows_shown (tty : Bool) (i : Nat) (m : List (List (Int × List Int))) (l : List Char) :
    shown false (rows tty i m ++ l) = rows false i m ++ shown false l := by
  induction m generalizing i with
  | nil => rfl
  | cons r m ih =>
    rw [rows, rows, List.append_assoc, List.append_assoc, List.append_assoc, List.append_assoc]
    split
    · simp only [List.cons_append, List.nil_append]
      rw [char_shown _ (by decide), char_shown _ (by decide), vectors_shown, ih]
    · simp only [List.nil_append]
      rw [vectors_shown, ih]

private theorem maskLoop_shown (tty : Bool) (i : Nat) (m : List Bool) (l : List Char) :
    shown false (maskLoop tty i m ++ l) = maskLoop false i m ++ shown false l := by
  induction m generalizing i with
  | nil => rfl
  | cons b m ih =>
    have hb : ∀ t, shown false ((if b then color tty yellow ++ ['1'] else color tty blue ++ ['0']) ++ t) =
        (if b then color false yellow ++ ['1'] else color false blue ++ ['0']) ++ shown false t := by
      intro t; cases b <;> cases tty <;> rfl
    rw [maskLoop, maskLoop, List.append_assoc, List.append_assoc, List.append_assoc, List.append_assoc]
    split
    · simp only [List.cons_append, List.nil_append]
      rw [char_shown _ (by decide), hb, ih]
    · simp only [List.nil_append]
      rw [hb, ih]

private theorem arrayTail_shown (i : Nat) (v : List Int) (l : List Char) :
    shown false (arrayTail i v ++ l) = arrayTail i v ++ shown false l := by
  induction v generalizing i with
  | nil => rfl
  | cons x v ih =>
    simp only [arrayTail, List.cons_append, List.append_assoc]
    split
    · simp only [List.cons_append, List.nil_append]
      rw [char_shown _ (by decide), char_shown _ (by decide), char_shown _ (by decide), decimal_shown, ih]
    · simp only [List.nil_append]
      rw [char_shown _ (by decide), decimal_shown, ih]

/-! ### Colours -/

/-- On a terminal the same text is shown as in a file: only colours are added. -/
theorem C89_colors (tty : Bool) :
    (∀ v0 v, shown false (vector tty v0 v) = vector false v0 v) ∧
    (∀ m, shown false (mask tty m) = mask false m) ∧
    (∀ v0 v, shown false (array tty v0 v) = array false v0 v) ∧
    (∀ m, shown false (maskArray tty m) = maskArray false m) ∧
    (∀ m, shown false (memory tty m) = memory false m) ∧
    (∀ m, shown false (memory2 tty m) = memory2 false m) := by
  refine ⟨fun v0 v => ?_, fun m => ?_, fun v0 v => ?_, fun m => ?_, fun m => ?_, fun m => ?_⟩
  · have := vector_shown tty v0 v []
    rw [List.append_nil] at this
    rw [this]; exact List.append_nil _
  · simp only [mask, List.append_assoc, List.cons_append]
    rw [(color_shown tty _).2.1, char_shown _ (by decide), char_shown _ (by decide), maskLoop_shown,
      (color_shown tty _).2.1, char_shown _ (by decide), color_shown_end]
    rfl
  · simp only [array, List.append_assoc, List.cons_append]
    rw [(color_shown tty _).1, char_shown _ (by decide), decimal_shown, arrayTail_shown,
      char_shown _ (by decide), color_shown_end]
    rfl
  · simp only [maskArray, List.append_assoc, List.cons_append]
    rw [(color_shown tty _).2.1, char_shown _ (by decide), maskLoop_shown,
      (color_shown tty _).2.1, char_shown _ (by decide), color_shown_end]
    rfl
  · simp only [memory, List.append_assoc, List.cons_append]
    rw [(color_shown tty _).2.1, char_shown _ (by decide), (color_shown tty _).2.2.2, vectors_shown,
      (color_shown tty _).2.1, char_shown _ (by decide), color_shown_end]
    rfl
  · simp only [memory2, List.append_assoc, List.cons_append]
    rw [(color_shown tty _).2.1, char_shown _ (by decide), (color_shown tty _).2.2.2, rows_shown,
      (color_shown tty _).2.1, char_shown _ (by decide), color_shown_end]
    rfl

example : vector true 7 [-12] ≠ vector false 7 [-12] := by decide +kernel

/-! ### Vectors -/

private theorem numbers_skip (c : Char) (h1 : c ≠ '-') (h2 : c.isDigit = false) (l : List Char) :
    numbers none (c :: l) = numbers none l := by
  rw [numbers, if_neg h1, if_neg (by simp [h2])]

private theorem numbers_tail (x : Int) (v : List Int) (c : Char) (hc : c.isDigit = false) (l : List Char) :
    numbers none (decimal x ++ (vectorTail v ++ c :: l)) = x :: v ++ numbers none l := by
  induction v generalizing x with
  | nil => exact numbers_int x c hc l
  | cons y v ih =>
    simp only [vectorTail, List.cons_append, List.append_assoc]
    rw [numbers_int x ',' (by decide), numbers_skip _ (by decide) (by decide), ih]
    rfl

private theorem vector_numbers (v0 : Int) (v : List Int) (l : List Char) :
    numbers none (vector false v0 v ++ l) = v0 :: v ++ numbers none l := by
  show numbers none ('[' :: ((decimal v0 ++ vectorTail v ++ [']']) ++ l)) = _
  rw [numbers_skip _ (by decide) (by decide)]
  simp only [List.append_assoc, List.cons_append, List.nil_append]
  exact numbers_tail v0 v ']' (by decide) l

/-- The numbers in the text of a vector are its entries in order. -/
theorem C89_vector (tty : Bool) (v0 : Int) (v : List Int) :
    numbers none (shown false (vector tty v0 v)) = v0 :: v := by
  rw [(C89_colors tty).1]
  have := vector_numbers v0 v []
  rw [List.append_nil] at this
  rw [this]; exact List.append_nil _

private theorem array_numbers (x : Int) (i : Nat) (v : List Int) (c : Char) (hc : c.isDigit = false)
    (l : List Char) :
    numbers none (decimal x ++ (arrayTail i v ++ c :: l)) = x :: v ++ numbers none l := by
  induction v generalizing x i with
  | nil => exact numbers_int x c hc l
  | cons y v ih =>
    simp only [arrayTail, List.cons_append, List.append_assoc]
    split
    · simp only [List.cons_append, List.nil_append]
      rw [numbers_int x ' ' (by decide), numbers_skip _ (by decide) (by decide),
        numbers_skip _ (by decide) (by decide), ih]
      rfl
    · simp only [List.nil_append]
      rw [numbers_int x ' ' (by decide), ih]
      rfl

/-- The numbers in the text of a SimdArray are its entries in order. -/
theorem C89_array (tty : Bool) (v0 : Int) (v : List Int) :
    numbers none (shown false (array tty v0 v)) = v0 :: v := by
  rw [(C89_colors tty).2.2.1]
  show numbers none ('<' :: (decimal v0 ++ arrayTail 1 v ++ ['>'])) = _
  rw [numbers_skip _ (by decide) (by decide), List.append_assoc]
  rw [array_numbers v0 1 v '>' (by decide) []]
  exact List.append_nil _

example : array false 1 [2, -3, 4, 5] = "<1 2 -3 4 | 5>".toList := by decide +kernel

example : vector false 0 [1, 2, 3] = "[0, 1, 2, 3]".toList := by decide +kernel

/-! ### Masks -/

private theorem maskLoop_bits (i : Nat) (m : List Bool) : bits (maskLoop false i m) = m := by
  induction m generalizing i with
  | nil => rfl
  | cons b m ih =>
    have happ : ∀ a c : List Char, bits (a ++ c) = bits a ++ bits c := fun a c => by simp [bits]
    rw [maskLoop, happ, happ, ih]
    have h1 : bits (if i > 0 ∧ i % 4 = 0 then [' '] else []) = [] := by split <;> rfl
    have h2 : bits (if b then color false yellow ++ ['1'] else color false blue ++ ['0']) = [b] := by
      cases b <;> rfl
    rw [h1, h2]; rfl

/-- The digits in the text of a mask or mask array are its entries in order. -/
theorem C89_mask (tty : Bool) (m : List Bool) :
    bits (shown false (mask tty m)) = m ∧ bits (shown false (maskArray tty m)) = m := by
  have happ : ∀ a c : List Char, bits (a ++ c) = bits a ++ bits c := fun a c => by simp [bits]
  rw [(C89_colors tty).2.1, (C89_colors tty).2.2.2.1]
  constructor
  · show bits (['m', '['] ++ (maskLoop false 0 m ++ [] ++ [']'])) = m
    rw [happ, happ, happ, maskLoop_bits]
    exact List.append_nil _ |>.trans (List.append_nil _)
  · show bits (['«'] ++ (maskLoop false 0 m ++ [] ++ ['»'])) = m
    rw [happ, happ, happ, maskLoop_bits]
    exact List.append_nil _ |>.trans (List.append_nil _)

example : mask false [true, true, true, false, false, false, false, false] = "m[1110 0000]".toList := by
  decide +kernel

/-! ### Memory -/

private theorem vectors_numbers (m : List (Int × List Int)) (l : List Char) :
    numbers none (vectors false m ++ l) = (m.map fun v => v.1 :: v.2).flatten ++ numbers none l := by
  induction m with
  | nil => rfl
  | cons v m ih =>
    rw [vectors, List.append_assoc, vector_numbers, ih, List.map_cons, List.flatten_cons,
      List.append_assoc]

private theorem rows_numbers (i : Nat) (m : List (List (Int × List Int))) (l : List Char) :
    numbers none (rows false i m ++ l) =
      (m.map fun r => (r.map fun v => v.1 :: v.2).flatten).flatten ++ numbers none l := by
  induction m generalizing i with
  | nil => rfl
  | cons r m ih =>
    rw [rows, List.append_assoc, List.append_assoc, List.map_cons, List.flatten_cons, List.append_assoc]
    split
    · simp only [List.cons_append, List.nil_append]
      rw [numbers_skip _ (by decide) (by decide), numbers_skip _ (by decide) (by decide),
        vectors_numbers, ih]
    · simp only [List.nil_append]
      rw [vectors_numbers, ih]

/-- The numbers in the text of a memory object are its entries in order (padding included). Missing
from the claim: the documented text, see `C89_memory_violated`. -/
theorem C89_memory_partial (tty : Bool) (m : List (Int × List Int)) :
    numbers none (shown false (memory tty m)) = (m.map fun v => v.1 :: v.2).flatten := by
  rw [(C89_colors tty).2.2.2.2.1]
  show numbers none ('{' :: (vectors false m ++ [] ++ ['}'])) = _
  rw [numbers_skip _ (by decide) (by decide), List.append_nil, vectors_numbers]
  exact List.append_nil _

/-- The same for two-dimensional memory objects. -/
theorem C89_memory2 (tty : Bool) (m : List (List (Int × List Int))) :
    numbers none (shown false (memory2 tty m)) =
      (m.map fun r => (r.map fun v => v.1 :: v.2).flatten).flatten := by
  rw [(C89_colors tty).2.2.2.2.2]
  show numbers none ('{' :: (rows false 0 m ++ [] ++ ['}'])) = _
  rw [numbers_skip _ (by decide) (by decide), List.append_nil, rows_numbers]
  exact List.append_nil _

/-- The example of the documentation (/repo/Vc/IO:181-191): the text has no spaces between vectors. -/
theorem C89_memory_violated :
    memory false [(0, [1, 2, 3]), (4, [5, 6, 7]), (8, [9, 0, 0])] ≠
      "{[0, 1, 2, 3] [4, 5, 6, 7] [8, 9, 0, 0]}".toList ∧
    memory false [(0, [1, 2, 3]), (4, [5, 6, 7]), (8, [9, 0, 0])] =
      "{[0, 1, 2, 3][4, 5, 6, 7][8, 9, 0, 0]}".toList := by
  decide +kernel

/-! ### Contents from text -/

/-- Vectors, masks and memory objects with the same text have the same contents. -/
theorem C89_injective (tty : Bool) :
    (∀ v0 w0 v w, vector tty v0 v = vector tty w0 w → v0 :: v = w0 :: w) ∧
    (∀ v0 w0 v w, array tty v0 v = array tty w0 w → v0 :: v = w0 :: w) ∧
    (∀ m k, mask tty m = mask tty k → m = k) ∧ (∀ m k, maskArray tty m = maskArray tty k → m = k) := by
  refine ⟨fun v0 w0 v w h => ?_, fun v0 w0 v w h => ?_, fun m k h => ?_, fun m k h => ?_⟩
  · rw [← C89_vector tty v0 v, h, C89_vector]
  · rw [← C89_array tty v0 v, h, C89_array]
  · rw [← (C89_mask tty m).1, h, (C89_mask tty k).1]
  · rw [← (C89_mask tty m).2, h, (C89_mask tty k).2]

end Vc.Prop
