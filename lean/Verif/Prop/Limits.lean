import Verif.Spec.Limits
import Verif.Lemma.Reg
import Verif.Lemma.SseInt

/-!
C100: `std::numeric_limits` of vector types.
-/

namespace Vc.Prop
open Vc.Model Vc.Spec Vc.Spec.Cpp Vc.Lemma

theorem int_limit_max {sgn : Bool} {w p : Nat} (hw : 1 ≤ w) (hp : p = if sgn then 2 ^ (w - 1) - 1 else 2 ^ w - 1) :
    IsIntLimit sgn w .max p := by
  have h2 : 2 ^ w = 2 * 2 ^ (w - 1) := by rw [← Nat.pow_succ']; congr 1; omega
  have h2' : (2 : Int) ^ w = 2 * 2 ^ (w - 1) := by exact_mod_cast h2
  have hpos : 0 < 2 ^ (w - 1) := Nat.two_pow_pos _
  cases sgn <;> simp only [Bool.false_eq_true, if_false, if_true] at hp <;> refine ⟨by omega, fun q hq => ?_⟩ <;>
    simp only [patVal, Bool.false_and, Bool.false_eq_true, if_false, Bool.true_and, decide_eq_true_eq]
  · omega
  · have hz : ((2 ^ (w - 1) : Nat) : Int) = (2 : Int) ^ (w - 1) := by norm_cast
    split <;> split <;> omega

theorem int_limit_min {sgn : Bool} {w p : Nat} (hw : 1 ≤ w) (hp : p = if sgn then 2 ^ (w - 1) else 0) :
    IsIntLimit sgn w .min p := by
  have h2 : 2 ^ w = 2 * 2 ^ (w - 1) := by rw [← Nat.pow_succ']; congr 1; omega
  have h2' : (2 : Int) ^ w = 2 * 2 ^ (w - 1) := by exact_mod_cast h2
  have hpos : 0 < 2 ^ (w - 1) := Nat.two_pow_pos _
  cases sgn <;> simp only [Bool.false_eq_true, if_false, if_true] at hp <;> refine ⟨by omega, fun q hq => ?_⟩ <;>
    simp only [patVal, Bool.false_and, Bool.false_eq_true, if_false, Bool.true_and, decide_eq_true_eq]
  · omega
  · have hz : ((2 ^ (w - 1) : Nat) : Int) = (2 : Int) ^ (w - 1) := by norm_cast
    split <;> split <;> omega

/-- The constants for the entry types are right. -/
theorem base_limit {t : CTy} (ht : validVec t = true) (f : LimFn) : IsLimit t f (baseLimit t f) := by
  cases t <;> simp only [validVec, Bool.false_eq_true] at ht
  case float => cases f <;> simp only [IsLimit, IsFloatLimit] <;> first | decide | exact ⟨0x7f7fffff, by decide, by decide⟩
  case double => cases f <;> simp only [IsLimit, IsFloatLimit] <;> first | decide | exact ⟨0x7fefffffffffffff, by decide, by decide⟩
  all_goals
    cases f
    case max => exact int_limit_max (by decide) (by decide)
    case min => exact int_limit_min (by decide) (by decide)
    case lowest => exact int_limit_min (by decide) (by decide)
    all_goals exact ⟨by decide, rfl⟩

theorem lane_zero_nat {n w i : Nat} : (lane w (0#n) i).toNat = 0 := by
  simp [lane]

theorem reg_limit {n w i : Nat} (hw : 16 = w ∨ 32 = w) (hi : w * (i + 1) ≤ n) (sgn : Bool) :
    (lane w (if sgn then srliEpi w (BitVec.allOnes n) 1 else BitVec.allOnes n) i).toNat = (if sgn then 2 ^ (w - 1) - 1 else 2 ^ w - 1) ∧
    (lane w (if sgn then set1 w (signBit w) else 0#n) i).toNat = if sgn then 2 ^ (w - 1) else 0 := by
  cases sgn
  · simp only [Bool.false_eq_true, if_false]
    rw [lane_allOnes hi]
    exact ⟨by rw [BitVec.toNat_allOnes], lane_zero_nat⟩
  · simp only [if_true]
    rw [srliEpi, lane_map1 _ _ hi, lane_allOnes hi, lane_set1 _ hi]
    rcases hw with rfl | rfl <;> exact ⟨by decide, by decide⟩

/-- Integer vectors of SSE and AVX2, whatever is included: all entries are the limit of the entry type. -/
theorem C100_integers (included : Bool) {v : LimVec} {t : CTy} (hv : (∃ sgn w, v = .sseInt sgn w) ∨ (∃ sgn w, v = .avxInt sgn w))
    (ht : LimHasType v t) (f : LimFn) {i : Nat} (hi : LimEntry v i) : IsLimit t f (limitEntry included v f i) := by
  have key : ∀ {n : Nat} (sgn : Bool) (w : Nat) (g : LimFn → BitVec n) (i : Nat),
      (t = .int ∨ t = .uint ∨ t = .short ∨ t = .ushort) ∧ sgn = (!t.isUnsigned) ∧ w = bits t → w * (i + 1) ≤ n →
      g .max = (if sgn then srliEpi w (BitVec.allOnes n) 1 else BitVec.allOnes n) → g .min = (if sgn then set1 w (signBit w) else 0#n) →
      g .lowest = g .min → (∀ f, f ≠ .max → f ≠ .min → f ≠ .lowest → g f = 0#n) →
      IsLimit t f (lane w (g f) i).toNat := by
    intro n sgn w g i ⟨ht, hs, hw⟩ hi gmax gmin glow gz
    have hw' : (16 = w ∨ 32 = w) := by rcases ht with rfl | rfl | rfl | rfl <;> subst hw <;> decide
    have hI : ∀ f p, IsIntLimit sgn w f p → IsLimit t f p := by
      intro f p h
      rw [hs, hw] at h
      rcases ht with rfl | rfl | rfl | rfl <;> exact h
    have hr := reg_limit hw' hi sgn
    apply hI
    by_cases h1 : f = .max
    · subst h1
      exact int_limit_max (by rcases hw' with h | h <;> omega) (by rw [gmax]; exact hr.1)
    · by_cases h2 : f = .min
      · subst h2
        exact int_limit_min (by rcases hw' with h | h <;> omega) (by rw [gmin]; exact hr.2)
      · by_cases h3 : f = .lowest
        · subst h3
          have := int_limit_min (sgn := sgn) (w := w) (p := (lane w (g .lowest) i).toNat) (by rcases hw' with h | h <;> omega)
            (by rw [glow, gmin]; exact hr.2)
          exact this
        · rw [gz f h1 h2 h3, lane_zero_nat]
          refine ⟨Nat.two_pow_pos _, ?_⟩
          cases f <;> first | exact absurd rfl h1 | exact absurd rfl h2 | exact absurd rfl h3 | rfl
  rcases hv with ⟨sgn, w, rfl⟩ | ⟨sgn, w, rfl⟩
  · exact key sgn w (sseLimit sgn w) i ht hi rfl rfl rfl (fun f h1 h2 h3 => by cases f <;> first | exact absurd rfl h1 | exact absurd rfl h2 | exact absurd rfl h3 | rfl)
  · exact key sgn w (avxLimit sgn w) i ht hi rfl rfl rfl (fun f h1 h2 h3 => by cases f <;> first | exact absurd rfl h1 | exact absurd rfl h2 | exact absurd rfl h3 | rfl)

/-- `SimdArray`. -/
theorem C100_simdarray (included : Bool) {t : CTy} (ht : validVec t = true) (f : LimFn) (i : Nat) :
    IsLimit t f (limitEntry included (.simdArray t) f i) := base_limit ht f

/-- The other native vectors: right with `Vc/limits` and for the vector types that the build selects. -/
theorem C100_native_partial {t : CTy} (ht : validVec t = true) (f : LimFn) (i : Nat) :
    IsLimit t f (limitEntry true (.native t true) f i) := base_limit ht f

theorem not_limit_zero {t : CTy} (ht : validVec t = true) : ¬IsLimit t .max 0 := by
  cases t <;> simp only [validVec, Bool.false_eq_true] at ht
  case float => simp only [IsLimit, IsFloatLimit]; decide
  case double => simp only [IsLimit, IsFloatLimit]; decide
  all_goals
    rintro ⟨-, h⟩
    exact absurd (h 1 (by decide)) (by decide)

/-- Without the header, for all other native vectors, and for `fixed_size_simd` in any case, the limits are zero: the program compiles,
but the largest `float` is said to be 0. -/
theorem C100_native_violated {t : CTy} (ht : validVec t = true) (best : Bool) (i : Nat) :
    ¬IsLimit t .max (limitEntry false (.native t best) .max i) ∧ ¬IsLimit t .max (limitEntry true (.native t false) .max i) ∧
    ∀ included, ¬IsLimit t .max (limitEntry included (.fixedSize t) .max i) :=
  ⟨not_limit_zero ht, not_limit_zero ht, fun _ => not_limit_zero ht⟩

/-! Concrete cases. -/
example : LimHasType (.sseInt true 16) .short ∧ LimEntry (.sseInt true 16) 7 ∧ LimHasType (.avxInt false 32) .uint := by
  refine ⟨⟨by decide, by decide, by decide⟩, by show 16 * (7 + 1) ≤ 128; decide, ⟨by decide, by decide, by decide⟩⟩
example : limitEntry false (.sseInt true 16) .max 7 = 0x7fff ∧ limitEntry false (.avxInt true 32) .lowest 5 = 0x80000000 := by
  constructor <;> decide +kernel
example : patVal true 16 0x8000 = -32768 ∧ patVal false 16 0x8000 = 32768 := by decide

end Vc.Prop
