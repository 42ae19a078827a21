import Verif.Spec.Cpp
import Mathlib.Tactic.Ring
import Mathlib.Tactic.Linarith

/-!
C83: operators between vectors and scalars of another type.
-/

namespace Vc.Spec.Cpp
open Vc.Model

/-- The integer operations. -/
inductive COp | add | sub | mul
  deriving DecidableEq
def COp.exact : COp → Int → Int → Int
  | .add, a, b => a + b
  | .sub, a, b => a - b
  | .mul, a, b => a * b

/-- `v` is the value of the C++ expression `a op b` for an integer `a` of type `t` and `b` of type `u`: the operands are
converted to the common type, in which signed overflow is undefined. -/
def CppResult (t u : CTy) (op : COp) (a b v : Int) : Prop :=
  ∃ a' b', Wraps (common t u) a a' ∧ Wraps (common t u) b b' ∧
    if (common t u).isUnsigned then Wraps (common t u) (op.exact a' b') v else v = op.exact a' b' ∧ Fits (common t u) v

/-- `v` is the value of the C++ expression `a / b` (or `a % b`): quotients are truncated, division by zero is undefined, and
so are quotients that are no numbers of the common type. -/
def CppDiv (t u : CTy) (rem : Bool) (a b v : Int) : Prop :=
  ∃ a' b', Wraps (common t u) a a' ∧ Wraps (common t u) b b' ∧ b' ≠ 0 ∧ Fits (common t u) (a'.tdiv b') ∧
    v = if rem then a'.tmod b' else a'.tdiv b'

/-- Bit `i` of an integer in two's complement. -/
def bitOf (v : Int) (i : Nat) : Bool := v / 2 ^ i % 2 == 1

end Vc.Spec.Cpp

namespace Vc.Prop
open Vc.Model Vc.Spec.Cpp

/-- Vectors of at least 32 bits per entry: the operation is carried out in the type that C++ uses for a scalar of the
element type and the other scalar. -/
theorem C83_type {t u r : CTy} (ht : validVec t = true) (h4 : 4 ≤ t.size) (h : mixedType t (.arith u) = some r) : r = common t u := by
  have : ∀ t ∈ CTy.all, ∀ u ∈ CTy.all, validVec t = true → 4 ≤ t.size → ∀ r ∈ CTy.all, mixedType t (.arith u) = some r → r = common t u := by decide
  exact this t t.mem_all u u.mem_all ht h4 r r.mem_all h

/-- Vectors of 16 bits per entry: the element size is kept, and the result is unsigned if the vector is, or the scalar is
`unsigned` or `unsigned short`. -/
theorem C83_type16 {t u r : CTy} (ht : validVec t = true) (h2 : t.size = 2) (h : mixedType t (.arith u) = some r) :
    r = if t = .ushort ∨ u = .uint ∨ u = .ushort then .ushort else .short := by
  have : ∀ t ∈ CTy.all, ∀ u ∈ CTy.all, validVec t = true → t.size = 2 → ∀ r ∈ CTy.all, mixedType t (.arith u) = some r →
    r = if t = .ushort ∨ u = .uint ∨ u = .ushort then .ushort else .short := by decide
  exact this t t.mem_all u u.mem_all ht h2 r r.mem_all h

/-- Which operations there are: with `int` and `unsigned` always, otherwise with integers that are not larger than the
entries, floating-point vectors with all integers and with floating-point numbers that are not larger.  In particular
there is none between an integer vector and a floating-point number, or between `float_v` and `double`. -/
theorem C83_exists {t u : CTy} (ht : validVec t = true) : (mixedType t (.arith u)).isSome = true ↔
    u = .int ∨ u = .uint ∨ (if t.isIntegral = true then u.isIntegral = true ∧ u.size ≤ t.size else u.isIntegral = true ∨ u.size ≤ t.size) := by
  have : ∀ t ∈ CTy.all, ∀ u ∈ CTy.all, validVec t = true → ((mixedType t (.arith u)).isSome = true ↔
    u = .int ∨ u = .uint ∨ (if t.isIntegral = true then u.isIntegral = true ∧ u.size ≤ t.size else u.isIntegral = true ∨ u.size ≤ t.size)) := by decide
  exact this t t.mem_all u u.mem_all ht

/-- Two vectors: there is an operation exactly for vectors of the same type and for a signed and an unsigned integer vector
of the same element size; the order does not matter, the result is unsigned in the second case. -/
theorem C83_vectors {t u : CTy} (ht : validVec t = true) (hu : validVec u = true) : mixedVec t u =
    if t = u then some t
    else if (t = .int ∧ u = .uint) ∨ (t = .uint ∧ u = .int) then some .uint
    else if (t = .short ∧ u = .ushort) ∨ (t = .ushort ∧ u = .short) then some .ushort
    else none := by
  have : ∀ t ∈ CTy.all, ∀ u ∈ CTy.all, validVec t = true → validVec u = true → mixedVec t u =
    if t = u then some t
    else if (t = .int ∧ u = .uint) ∨ (t = .uint ∧ u = .int) then some .uint
    else if (t = .short ∧ u = .ushort) ∨ (t = .ushort ∧ u = .short) then some .ushort
    else none := by decide
  exact this t t.mem_all u u.mem_all ht hu

theorem mixed_facts {t u r : CTy} (ht : validVec t = true) (hi : t.isIntegral = true) (h : mixedType t (.arith u) = some r) :
    r.isIntegral = true ∧ r ≠ .bool ∧ r.size = t.size ∧ (common t u).isIntegral = true ∧ common t u ≠ .bool ∧ bits r ≤ bits (common t u) ∧ 1 ≤ bits r ∧
    (4 ≤ t.size → r = common t u) ∧ minVal (common t u) ≤ minVal r ∧ (t.size = 2 → maxVal r ≤ maxVal (common t u)) := by
  have : ∀ t ∈ CTy.all, ∀ u ∈ CTy.all, validVec t = true → t.isIntegral = true → ∀ r ∈ CTy.all, mixedType t (.arith u) = some r →
    r.isIntegral = true ∧ r ≠ .bool ∧ r.size = t.size ∧ (common t u).isIntegral = true ∧ common t u ≠ .bool ∧ bits r ≤ bits (common t u) ∧ 1 ≤ bits r ∧
    (4 ≤ t.size → r = common t u) ∧ minVal (common t u) ≤ minVal r ∧ (t.size = 2 → maxVal r ≤ maxVal (common t u)) := by decide
  exact this t t.mem_all u u.mem_all ht hi r r.mem_all h

/-- The conversion of the model is that of C++. -/
theorem conv_wraps {t : CTy} (h : t.isIntegral = true) (hb : t ≠ .bool) (v : Int) : Wraps t v (CInt.conv t v).val := by
  have h1 : 1 ≤ bits t := by revert h hb; cases t <;> decide
  unfold CInt.conv CInt.val Wraps Fits
  cases hu : t.isUnsigned
  · simp only [Bool.false_eq_true, if_false, minVal, maxVal, hu, hb]
    rw [BitVec.toInt_ofInt]
    show (_ ≤ Int.bmod v (2 ^ bits t) ∧ Int.bmod v (2 ^ bits t) ≤ _) ∧ ∃ k, v = Int.bmod v (2 ^ bits t) + k * 2 ^ bits t
    have hp : (2 : Int) ^ bits t = 2 * 2 ^ (bits t - 1) := by rw [← pow_succ']; congr 1; omega
    have hpn : (2 : Nat) ^ bits t = 2 * 2 ^ (bits t - 1) := by rw [← pow_succ']; congr 1; omega
    have hq : (0 : Int) < 2 ^ (bits t - 1) := by positivity
    have e1 := Int.le_bmod (x := v) (m := 2 ^ bits t) (by positivity)
    have e2 := Int.bmod_lt (x := v) (m := 2 ^ bits t) (by positivity)
    have hc : ((2 ^ bits t : Nat) : Int) = 2 * 2 ^ (bits t - 1) := by rw [hpn]; push_cast; ring
    rw [hc] at e1 e2
    refine ⟨⟨by omega, by omega⟩, ?_⟩
    have := Int.bmod_add_bdiv v (2 ^ bits t)
    refine ⟨v.bdiv (2 ^ bits t), ?_⟩
    rw [hc] at this
    rw [hp]
    linarith
  · simp only [if_true, minVal, maxVal, hu, hb, if_false]
    rw [BitVec.toNat_ofInt]
    show (0 ≤ (((v % ((2 ^ bits t : Nat) : Int)).toNat : Nat) : Int) ∧ (((v % ((2 ^ bits t : Nat) : Int)).toNat : Nat) : Int) ≤ _) ∧
      ∃ k, v = (((v % ((2 ^ bits t : Nat) : Int)).toNat : Nat) : Int) + k * 2 ^ bits t
    have hc : ((2 ^ bits t : Nat) : Int) = 2 ^ bits t := by push_cast; ring
    have hq : (0 : Int) < 2 ^ bits t := by positivity
    rw [hc]
    have e0 := Int.emod_nonneg v (ne_of_gt hq)
    have e1 := Int.emod_lt_of_pos v hq
    rw [Int.toNat_of_nonneg e0]
    refine ⟨⟨e0, by omega⟩, v / 2 ^ bits t, ?_⟩
    have := Int.emod_add_mul_ediv v (2 ^ bits t)
    linarith

/-- There is one value only. -/
theorem wraps_unique {t : CTy} (h : t.isIntegral = true) (hb : t ≠ .bool) {v r s : Int} (h1 : Wraps t v r) (h2 : Wraps t v s) : r = s := by
  have hw : maxVal t - minVal t < 2 ^ bits t := by revert h hb; cases t <;> decide
  obtain ⟨⟨a1, a2⟩, k, hk⟩ := h1
  obtain ⟨⟨b1, b2⟩, l, hl⟩ := h2
  have hd : r - s = (l - k) * 2 ^ bits t := by linarith
  generalize (2 : Int) ^ bits t = q at *
  have hq : 0 < q := by omega
  rcases lt_trichotomy (l - k) 0 with hn | hn | hn
  · have := mul_le_mul_of_nonneg_right (show l - k ≤ -1 by omega) hq.le
    omega
  · rw [hn, zero_mul] at hd; omega
  · have := mul_le_mul_of_nonneg_right (show 1 ≤ l - k by omega) hq.le
    omega

theorem wraps_of_fits {t : CTy} {v : Int} (h : Fits t v) : Wraps t v v := ⟨h, 0, by ring⟩

/-- Congruent values have the same conversion to a type that is not larger. -/
theorem wraps_cong {t : CTy} {n : Nat} (hn : bits t ≤ n) {v w r k : Int} (h : v = w + k * 2 ^ n) (hw : Wraps t w r) : Wraps t v r := by
  obtain ⟨hf, l, hl⟩ := hw
  refine ⟨hf, l + k * 2 ^ (n - bits t), ?_⟩
  rw [h, hl, add_mul, mul_assoc, ← pow_add, Nat.sub_add_cancel hn]
  ring

def COp.model : COp → MOp
  | .add => .add
  | .sub => .sub
  | .mul => .mul

theorem lane_exact (r : CTy) (op : COp) (a b : Int) : mixedLane r (COp.model op) a b = (CInt.conv r (op.exact a b)).val := by
  unfold mixedLane CInt.conv
  cases op
  · show CInt.val (BitVec.ofInt _ a + BitVec.ofInt _ b) = _
    rw [← BitVec.ofInt_add]; rfl
  · show CInt.val (BitVec.ofInt _ a - BitVec.ofInt _ b) = _
    rw [BitVec.sub_eq_add_neg, ← BitVec.ofInt_neg, ← BitVec.ofInt_add]; rfl
  · show CInt.val (BitVec.ofInt _ a * BitVec.ofInt _ b) = _
    rw [← BitVec.ofInt_mul]; rfl

theorem exact_cong (op : COp) {a b a' b' : Int} {q : Int} (ha : ∃ k, a = a' + k * q) (hb : ∃ k, b = b' + k * q) :
    ∃ k, op.exact a b = op.exact a' b' + k * q := by
  obtain ⟨k, rfl⟩ := ha
  obtain ⟨l, rfl⟩ := hb
  cases op
  · exact ⟨k + l, by simp only [COp.exact]; ring⟩
  · exact ⟨k - l, by simp only [COp.exact]; ring⟩
  · exact ⟨a' * l + k * b' + k * l * q, by simp only [COp.exact]; ring⟩

/-- Integer vectors: every entry of `x + y`, `x - y`, `x * y` (in both orders of vector and scalar) is the value of the C++
expression for scalars, converted to the element type of the result.  For vectors of 32 bits per entry that conversion
does not change anything, as the types are the same (`C83_type`). -/
theorem C83_value {t u r : CTy} (ht : validVec t = true) (hi : t.isIntegral = true) (h : mixedType t (.arith u) = some r)
    (op : COp) {a b v : Int} (hv : CppResult t u op a b v) : Wraps r v (mixedLane r (COp.model op) a b) := by
  obtain ⟨r1, r2, -, c1, c2, hbits, -, -⟩ := mixed_facts ht hi h
  obtain ⟨a', b', ha, hb, hv⟩ := hv
  obtain ⟨k, hk⟩ := exact_cong op ha.2 hb.2
  have hL := conv_wraps r1 r2 (op.exact a b)
  rw [lane_exact]
  have hve : ∃ l : Int, op.exact a' b' = v + l * 2 ^ bits (common t u) := by
    split at hv
    · exact hv.2
    · exact ⟨0, by rw [hv.1]; ring⟩
  obtain ⟨l, hl⟩ := hve
  refine wraps_cong hbits (k := -(k + l)) ?_ hL
  rw [hk, hl]; ring

/-- The order of vector and scalar: an entry of `y op x`, for a scalar `y` of type `u`, is the value of that C++ expression. -/
theorem C83_swapped {t u r : CTy} (ht : validVec t = true) (hi : t.isIntegral = true) (h : mixedType t (.arith u) = some r)
    (op : COp) {a b v : Int} (hv : CppResult u t op b a v) : Wraps r v (mixedLane r (COp.model op) b a) := by
  have hc : ∀ t ∈ CTy.all, ∀ u ∈ CTy.all, common u t = common t u := by decide
  unfold CppResult at hv
  rw [hc t t.mem_all u u.mem_all] at hv
  exact C83_value ht hi h op hv

theorem assign_facts {t u r : CTy} (ht : validVec t = true) (hi : t.isIntegral = true) (h : mixedType t (.arith u) = some r) :
    t.isIntegral = true ∧ t ≠ .bool ∧ bits t = bits r := by
  have : ∀ t ∈ CTy.all, ∀ u ∈ CTy.all, validVec t = true → t.isIntegral = true → ∀ r ∈ CTy.all, mixedType t (.arith u) = some r →
    t.isIntegral = true ∧ t ≠ .bool ∧ bits t = bits r := by decide
  exact this t t.mem_all u u.mem_all ht hi r r.mem_all h

/-- `x op= y` leaves the value of the C++ expression `x op y`, converted to the type of the entries, in every entry. -/
theorem C83_assign {t u r : CTy} (ht : validVec t = true) (hi : t.isIntegral = true) (h : mixedType t (.arith u) = some r)
    (op : COp) {a b v : Int} (hv : CppResult t u op a b v) : Wraps t v (mixedAssign t r (COp.model op) a b) := by
  obtain ⟨t1, t2, hb⟩ := assign_facts ht hi h
  obtain ⟨-, k, hk⟩ := C83_value ht hi h op hv
  exact wraps_cong (n := bits r) (le_of_eq hb) hk (conv_wraps t1 t2 _)

/-- The bits of the bitwise operations. -/
def bitSpec : MOp → Option (Bool → Bool → Bool)
  | .and => some (· && ·)
  | .or => some (· || ·)
  | .xor => some Bool.xor
  | _ => none

theorem conv_bit (t : CTy) (v : Int) {i : Nat} (hi : i < bits t) : (CInt.conv t v).getLsbD i = bitOf v i := by
  unfold CInt.conv bitOf
  rw [BitVec.getLsbD, BitVec.toNat_ofInt, Nat.testBit_eq_decide_div_mod_eq]
  have hc : ((2 ^ (8 * t.size) : Nat) : Int) = 2 ^ bits t := by unfold bits; push_cast; ring
  rw [hc]
  have hq : (0 : Int) < 2 ^ bits t := by positivity
  have e0 := Int.emod_nonneg v (ne_of_gt hq)
  have e : (v % 2 ^ bits t) / 2 ^ i % 2 = v / 2 ^ i % 2 := by
    have h1 := Int.emod_add_mul_ediv v (2 ^ bits t)
    have h2 : (2 : Int) ^ bits t = 2 ^ i * (2 * 2 ^ (bits t - i - 1)) := by
      rw [← pow_succ', ← pow_add]; congr 1; omega
    generalize v % 2 ^ bits t = m at *
    rw [← h1, h2, mul_assoc, Int.add_mul_ediv_left _ _ (by positivity), mul_assoc, Int.add_mul_emod_self_left]
  rw [← e]
  generalize v % 2 ^ bits t = m at *
  have : ((m.toNat / 2 ^ i % 2 : Nat) : Int) = m / 2 ^ i % 2 := by
    push_cast; rw [Int.toNat_of_nonneg e0]
  rw [← this]
  rcases Nat.mod_two_eq_zero_or_one (m.toNat / 2 ^ i) with h | h <;> rw [h] <;> decide

theorem val_conv {t : CTy} (x : CInt t) : CInt.conv t x.val = x := by
  unfold CInt.conv CInt.val
  split
  · rw [BitVec.ofInt_natCast, BitVec.ofNat_toNat, BitVec.setWidth_eq]
  · exact BitVec.ofInt_toInt

theorem bit_cong {v w k : Int} {n i : Nat} (h : v = w + k * 2 ^ n) (hi : i < n) : bitOf v i = bitOf w i := by
  have h2 : (2 : Int) ^ n = 2 ^ i * (2 * 2 ^ (n - i - 1)) := by
    rw [← pow_succ', ← pow_add]; congr 1; omega
  unfold bitOf
  rw [h, h2, show w + k * (2 ^ i * (2 * 2 ^ (n - i - 1))) = w + 2 ^ i * (2 * (k * 2 ^ (n - i - 1))) by ring,
    Int.add_mul_ediv_left _ _ (by positivity), Int.add_mul_emod_self_left]

/-- The bitwise operations: every bit of an entry is that of the C++ expression, i.e. of the converted operands. -/
theorem C83_bits {t u r : CTy} (ht : validVec t = true) (hi : t.isIntegral = true) (h : mixedType t (.arith u) = some r)
    {op : MOp} {f : Bool → Bool → Bool} (hop : bitSpec op = some f) {a b a' b' : Int}
    (ha : Wraps (common t u) a a') (hb : Wraps (common t u) b b') {i : Nat} (hn : i < bits r) :
    bitOf (mixedLane r op a b) i = f (bitOf a' i) (bitOf b' i) := by
  obtain ⟨-, -, -, -, -, hbits, -⟩ := mixed_facts ht hi h
  obtain ⟨-, k, hk⟩ := ha
  obtain ⟨-, l, hl⟩ := hb
  rw [← bit_cong hk (by omega), ← bit_cong hl (by omega), ← conv_bit r a hn, ← conv_bit r b hn, ← conv_bit r _ hn]
  unfold mixedLane
  rw [val_conv]
  cases op <;> simp only [bitSpec, Option.some.injEq, reduceCtorEq] at hop <;> subst hop
  · exact BitVec.getLsbD_and
  · exact BitVec.getLsbD_or
  · exact BitVec.getLsbD_xor

/-- Comparisons.  For vectors of at least 32 bits per entry an entry of a comparison is the C++ comparison; for vectors of 16
bits if both operands are values of the type in which the vectors are compared.  Missing: scalars that are not, see
`C83_compare_violated`. -/
theorem C83_compare_partial {t u r : CTy} (ht : validVec t = true) (hi : t.isIntegral = true) (h : mixedType t (.arith u) = some r)
    (c : Int → Int → Bool) {a b a' b' : Int} (h16 : t.size = 2 → Fits r a ∧ Fits r b)
    (ha : Wraps (common t u) a a') (hb : Wraps (common t u) b b') : mixedCmp r c a b = c a' b' := by
  obtain ⟨r1, r2, hs, c1, c2, -, -, h4, hmin, hmax⟩ := mixed_facts ht hi h
  unfold mixedCmp
  by_cases hs2 : t.size = 2
  · obtain ⟨fa, fb⟩ := h16 hs2
    have up : ∀ v, Fits r v → Fits (common t u) v := fun v hv => ⟨le_trans hmin hv.1, le_trans hv.2 (hmax hs2)⟩
    rw [wraps_unique r1 r2 (conv_wraps r1 r2 a) (wraps_of_fits fa), wraps_unique r1 r2 (conv_wraps r1 r2 b) (wraps_of_fits fb),
      wraps_unique c1 c2 ha (wraps_of_fits (up _ fa)), wraps_unique c1 c2 hb (wraps_of_fits (up _ fb))]
  · have e := h4 (by revert ht hi hs2; cases t <;> decide)
    subst e
    rw [wraps_unique r1 r2 (conv_wraps r1 r2 a) ha, wraps_unique r1 r2 (conv_wraps r1 r2 b) hb]

/-- Quotients and remainders: the value of the C++ expression, for vectors of 32 bits per entry always, for vectors of 16 bits
if both operands and the quotient are numbers of the type of the result. -/
theorem C83_division_partial {t u r : CTy} (ht : validVec t = true) (hi : t.isIntegral = true) (h : mixedType t (.arith u) = some r)
    {rem : Bool} {a b v : Int} (h16 : t.size = 2 → Fits r a ∧ Fits r b ∧ Fits r (a.tdiv b)) (hv : CppDiv t u rem a b v) :
    mixedDiv r rem a b = some v := by
  obtain ⟨a', b', ha, hb, h0, hf, rfl⟩ := hv
  obtain ⟨r1, r2, hs, c1, c2, -, -, h4, hmin, hmax⟩ := mixed_facts ht hi h
  have key : (CInt.conv r a).val = a' ∧ (CInt.conv r b).val = b' ∧ Fits r (a'.tdiv b') := by
    by_cases hs2 : t.size = 2
    · obtain ⟨fa, fb, fq⟩ := h16 hs2
      have up : ∀ v, Fits r v → Fits (common t u) v := fun v hv => ⟨le_trans hmin hv.1, le_trans hv.2 (hmax hs2)⟩
      have ea := wraps_unique c1 c2 ha (wraps_of_fits (up _ fa))
      have eb := wraps_unique c1 c2 hb (wraps_of_fits (up _ fb))
      rw [ea, eb]
      exact ⟨wraps_unique r1 r2 (conv_wraps r1 r2 a) (wraps_of_fits fa), wraps_unique r1 r2 (conv_wraps r1 r2 b) (wraps_of_fits fb), fq⟩
    · have e := h4 (by revert ht hi hs2; cases t <;> decide)
      subst e
      exact ⟨wraps_unique r1 r2 (conv_wraps r1 r2 a) ha, wraps_unique r1 r2 (conv_wraps r1 r2 b) hb, hf⟩
  obtain ⟨ea, eb, fq⟩ := key
  simp only [mixedDiv, ea, eb]
  rw [if_neg h0, if_pos (wraps_unique r1 r2 (conv_wraps r1 r2 _) (wraps_of_fits fq))]

/-- With other operands it is not: 1 / 65536 for an entry of a `short_v` is a division by zero, 5 / -1 for an entry of a
`ushort_v` is 0, where C++ has 0 and -5, that is 65531. -/
theorem C83_division_violated :
    (mixedType .short (.arith .int) = some .short ∧ mixedDiv .short false 1 65536 = none ∧ CppDiv .short .int false 1 65536 0) ∧
    (mixedType .ushort (.arith .int) = some .ushort ∧ mixedDiv .ushort false 5 (-1) = some 0 ∧ CppDiv .ushort .int false 5 (-1) (-5) ∧
      Wraps .ushort (-5) 65531) := by
  refine ⟨⟨by decide, by decide, 1, 65536, wraps_of_fits (by decide), wraps_of_fits (by decide), by decide, by decide, by decide⟩,
    by decide, by decide, ⟨5, -1, wraps_of_fits (by decide), wraps_of_fits (by decide), by decide, by decide, by decide⟩, by decide, -1, by decide⟩

/-- The comparison of a vector of `short` with an `int` that is no `short` is wrong: the entry 0 is equal to 65536, and 5 is
less than -1 if the entries are unsigned. -/
theorem C83_compare_violated :
    (mixedType .short (.arith .int) = some .short ∧ mixedCmp .short (· == ·) 0 65536 = true) ∧
    (mixedType .ushort (.arith .int) = some .ushort ∧ mixedCmp .ushort (fun a b => decide (a < b)) 5 (-1) = true) ∧
    Wraps (common .short .int) 65536 65536 ∧ Wraps (common .ushort .int) (-1) (-1) := by
  refine ⟨by decide, by decide, wraps_of_fits (by decide), wraps_of_fits (by decide)⟩

/-- Enumerations are converted to the type of the entries; for vectors of at least 32 bits per entry that is what C++ does if the
underlying type is `int` or smaller. -/
theorem C83_enum_partial {t u : CTy} (ht : validVec t = true) (h4 : 4 ≤ t.size) (hu : u.isIntegral = true) (hr : rank u ≤ rank .int) (hn : u ≠ .uint) :
    mixedType t (.enum u) = some (common t u) := by
  have : ∀ t ∈ CTy.all, ∀ u ∈ CTy.all, validVec t = true → 4 ≤ t.size → u.isIntegral = true → rank u ≤ rank .int → u ≠ .uint →
    mixedType t (.enum u) = some (common t u) := by decide
  exact this t t.mem_all u u.mem_all ht h4 hu hr hn

/-- Otherwise the value can change: the entry 0 of an `int_v` is equal to an enumerator with the value 2^32. -/
theorem C83_enum_violated : mixedType .int (.enum .ullong) = some .int ∧ mixedCmp .int (· == ·) 0 (2 ^ 32) = true ∧
    common .int .ullong = .ullong ∧ Wraps .ullong (2 ^ 32) (2 ^ 32) := by
  refine ⟨by decide, by decide, by decide, wraps_of_fits (by decide)⟩

/-! Concrete cases. -/
example : mixedType .int (.arith .ushort) = some .int ∧ mixedType .int (.arith .uint) = some .uint ∧ mixedType .float (.arith .llong) = some .float ∧
    mixedType .float (.arith .double) = none ∧ mixedType .int (.arith .long) = none ∧ mixedType .short (.arith .uint) = some .ushort := by decide
example : CppResult .short .int .mul 300 1000 300000 := by
  refine ⟨300, 1000, wraps_of_fits (by decide), wraps_of_fits (by decide), ?_⟩
  rw [if_neg (by decide)]
  exact ⟨rfl, by decide⟩
example : mixedLane .short .mul 300 1000 = -27680 ∧ Wraps .short 300000 (-27680) := ⟨by decide, by decide, 5, by decide⟩
example : CppDiv .int .short true (-7) 2 (-1) ∧ mixedDiv .int true (-7) 2 = some (-1) ∧ CppDiv .int .uint false (-1) 2 2147483647 := by
  refine ⟨⟨-7, 2, wraps_of_fits (by decide), wraps_of_fits (by decide), by decide, by decide, by decide⟩, by decide,
    4294967295, 2, ⟨by decide, -1, by decide⟩, wraps_of_fits (by decide), by decide, by decide, by decide⟩

end Vc.Prop
