import Verif.Prop.SseInt
import Verif.Lemma.SseDiv

/-!
C39: division and remainder of the SSE integer vectors.

`Int.tdiv` and `Int.tmod` are the division of C++, which truncates toward zero.  The statements hold
for every combination of instruction set extensions, for every lane and all operands.
-/

namespace Vc.Prop
open Vc.Model Vc.Lemma

private theorem lane_vDiv16_signed (I : Isa) (a b : M128) {i : Nat} (hi : i < 8) :
    lane 16 (vDiv16 I true a b) i =
      satSigned 16 (cvttF2I Spec.f32 (fDiv Spec.f32 (cvtI2F Spec.f32 32 ((lane 16 a i).signExtend 32))
        (cvtI2F Spec.f32 32 ((lane 16 b i).signExtend 32)))) := by
  simp only [vDiv16, if_true, concatS, cvttpsEpi32, divPs, cvtepi32Ps]
  rw [lane_packs _ _ (by omega)]
  by_cases h : i < 4
  · rw [if_pos (by omega), lane_map1 _ _ (by omega), lane_map2 _ _ _ (by omega),
      lane_map1 _ _ (by omega), lane_map1 _ _ (by omega), lane_expand0S a (by omega),
      lane_expand0S b (by omega)]
  · rw [if_neg (by omega), lane_map1 _ _ (by omega), lane_map2 _ _ _ (by omega),
      lane_map1 _ _ (by omega), lane_map1 _ _ (by omega), lane_expand1S a (by omega),
      lane_expand1S b (by omega)]
    have : 4 + (i - 64 / 16) = i := by omega
    rw [this]

private theorem lane_concatU (I : Isa) (x y : M128) {i : Nat} (hi : i < 8) (z : BitVec 32)
    (hz : z = if i < 4 then lane 32 x i else lane 32 y (i - 4)) (hpos : z.toNat < 2 ^ 16) :
    lane 16 (concatU I x y) i = z.setWidth 16 := by
  by_cases h : I.sse41 = true
  · unfold concatU
    rw [if_pos h, lane_packus _ _ (by omega)]
    have e : (if i < 64 / 16 then satUnsigned 16 (lane (16 * 2) x i)
        else satUnsigned 16 (lane (16 * 2) y (i - 64 / 16))) = satUnsigned 16 z := by
      rw [hz]; by_cases h4 : i < 4
      · rw [if_pos h4, if_pos h4]
      · rw [if_neg h4, if_neg h4]
    rw [e]
    have ht : z.toInt = (z.toNat : Int) := BitVec.toInt_eq_toNat_of_lt (by omega)
    unfold satUnsigned
    rw [ht, if_neg (by omega), if_neg (by omega)]
    apply BitVec.eq_of_toNat_eq
    simp
  · rw [lane_concatU_emul I (by simpa using h) x y hi, hz]
    split <;> rfl

private theorem lane_vDiv16_unsigned (I : Isa) (a b : M128) {i : Nat} (hi : i < 8) (z : BitVec 32)
    (hz : cvttF2I Spec.f32 (fDiv Spec.f32 (cvtI2F Spec.f32 32 ((lane 16 a i).zeroExtend 32))
        (cvtI2F Spec.f32 32 ((lane 16 b i).zeroExtend 32))) = z) (hpos : z.toNat < 2 ^ 16) :
    lane 16 (vDiv16 I false a b) i = z.setWidth 16 := by
  simp only [vDiv16, Bool.false_eq_true, if_false, cvttpsEpi32, divPs, cvtepi32Ps]
  apply lane_concatU I _ _ hi z _ hpos
  rw [← hz]
  by_cases h : i < 4
  · rw [if_pos h, lane_map1 _ _ (by omega), lane_map2 _ _ _ (by omega),
      lane_map1 _ _ (by omega), lane_map1 _ _ (by omega), lane_expand0U a (by omega),
      lane_expand0U b (by omega)]
  · rw [if_neg h, lane_map1 _ _ (by omega), lane_map2 _ _ _ (by omega),
      lane_map1 _ _ (by omega), lane_map1 _ _ (by omega), lane_expand1U a (by omega),
      lane_expand1U b (by omega)]
    have : 4 + (i - 4) = i := by omega
    rw [this]

private theorem toInt_sext (x : BitVec 16) : (x.signExtend 32).toInt = x.toInt :=
  BitVec.toInt_signExtend_of_le (by decide)

private theorem toInt_zext (x : BitVec 16) : (x.zeroExtend 32).toInt = (x.toNat : Int) := by
  have := x.isLt
  rw [BitVec.toInt_eq_toNat_of_lt]
  · simp [BitVec.toNat_setWidth]; omega
  · simp [BitVec.toNat_setWidth]; omega

private theorem bound16 (x : BitVec 16) : -32768 ≤ x.toInt ∧ x.toInt < 32768 := by
  have := x.isLt
  rw [BitVec.toInt_eq_toNat_cond]
  split <;> omega

private theorem tdiv_abs (a b : Int) : (a.tdiv b).natAbs ≤ a.natAbs := by
  rw [Int.natAbs_tdiv]; exact Nat.div_le_self _ _

private theorem tdiv_eq_min {a b : Int} (ha : -32768 ≤ a) (ha2 : a < 32768)
    (h : 32768 ≤ a.tdiv b) : a = -32768 ∧ b = -1 := by
  have h1 : (a.tdiv b).natAbs = a.natAbs / b.natAbs := Int.natAbs_tdiv a b
  have h2 := tdiv_abs a b
  have h3 : a = -32768 := by omega
  refine ⟨h3, ?_⟩
  have h4 : a.natAbs / b.natAbs = 32768 := by omega
  have h5 : a.natAbs = 32768 := by omega
  rw [h5] at h4
  have h6 : b.natAbs = 1 := by
    rcases Nat.lt_or_ge b.natAbs 2 with h | h
    · rcases Nat.eq_zero_or_pos b.natAbs with h0 | h0
      · rw [h0] at h4; simp at h4
      · omega
    · have := Nat.div_le_div_left (a := 32768) h (by decide)
      omega
  rcases Int.natAbs_eq b with hb | hb
  · rw [h6] at hb
    rw [hb, h3] at h
    exact absurd h (by decide)
  · rw [h6] at hb
    exact hb

private theorem satSigned_fits {z : Int} (h1 : -32768 ≤ z) (h2 : z < 32768) :
    (satSigned 16 (BitVec.ofInt 32 z)).toInt = z := by
  have e : (BitVec.ofInt 32 z).toInt = z := by
    rw [BitVec.toInt_ofInt]; apply Int.bmod_eq_of_le <;> simp <;> omega
  have h16 : (2 : Int) ^ (16 - 1) = 32768 := by decide
  unfold satSigned
  rw [e, h16, if_neg (by omega), if_neg (by omega), BitVec.toInt_ofInt]
  apply Int.bmod_eq_of_le <;> simp <;> omega

/-- `ushort_v / ushort_v` is the integer quotient for every divisor but zero. -/
theorem C39_div_ushort (I : Isa) (a b : M128) {i : Nat} (hi : i < 8) (hb : lane 16 b i ≠ 0#16) :
    (lane 16 (vDiv16 I false a b) i).toNat = (lane 16 a i).toNat / (lane 16 b i).toNat := by
  have hx := (lane 16 a i).isLt
  have hy := (lane 16 b i).isLt
  have hb0 : (lane 16 b i).toNat ≠ 0 := fun h => hb (BitVec.eq_of_toNat_eq (by simpa using h))
  have hz := div16_lane (a := (lane 16 a i).zeroExtend 32) (b := (lane 16 b i).zeroExtend 32)
    (by rw [toInt_zext]; omega) (by rw [toInt_zext]; omega) (by rw [toInt_zext]; omega)
  rw [toInt_zext, toInt_zext] at hz
  have hle : (lane 16 a i).toNat / (lane 16 b i).toNat ≤ (lane 16 a i).toNat := Nat.div_le_self _ _
  have hc : (((lane 16 a i).toNat : Int).tdiv ((lane 16 b i).toNat : Int)) =
      (((lane 16 a i).toNat / (lane 16 b i).toNat : Nat) : Int) := rfl
  rw [hc] at hz
  have hn : (BitVec.ofInt 32 (((lane 16 a i).toNat / (lane 16 b i).toNat : Nat) : Int)).toNat =
      (lane 16 a i).toNat / (lane 16 b i).toNat := by
    rw [BitVec.ofInt_natCast, BitVec.toNat_ofNat, Nat.mod_eq_of_lt (by omega)]
  rw [lane_vDiv16_unsigned I a b hi _ hz (by omega), BitVec.toNat_setWidth, hn,
    Nat.mod_eq_of_lt (by omega)]

/-- `ushort_v % ushort_v` is the remainder for every divisor but zero. -/
theorem C39_mod_ushort (I : Isa) (a b : M128) {i : Nat} (hi : i < 8) (hb : lane 16 b i ≠ 0#16) :
    (lane 16 (vMod16 I false a b) i).toNat = (lane 16 a i).toNat % (lane 16 b i).toNat := by
  have hq := C39_div_ushort I a b hi hb
  have hm := C35_mul_unsigned I (w := 16) (.inl rfl) (vDiv16 I false a b) b (i := i) (by omega)
  unfold vMod16 subEpi
  rw [lane_map2 _ _ _ (by omega), BitVec.toNat_sub, hm, hq]
  have h1 := Nat.div_add_mod (lane 16 a i).toNat (lane 16 b i).toNat
  rw [Nat.mul_comm] at h1
  have hx := (lane 16 a i).isLt
  generalize (lane 16 a i).toNat / (lane 16 b i).toNat * (lane 16 b i).toNat = p at *
  omega

example : (lane 16 (vDiv16 sse2 false (set1 16 65535#16) (set1 16 257#16)) 5).toNat = 255 ∧
    (lane 16 (vMod16 sse42 false (set1 16 65534#16) (set1 16 257#16)) 5).toNat = 256 := by
  rw [C39_div_ushort _ _ _ (by decide) (by rw [lane_set1 _ (by decide)]; decide),
    C39_mod_ushort _ _ _ (by decide) (by rw [lane_set1 _ (by decide)]; decide),
    lane_set1 _ (by decide), lane_set1 _ (by decide), lane_set1 _ (by decide)]
  decide

/-- The full claim would be "for every divisor but zero, the quotient modulo `2 ^ 16`" (a short quotient
is computed in int and converted back).  It holds but for `-32768 / -1`. -/
theorem C39_div_short_partial (I : Isa) (a b : M128) {i : Nat} (hi : i < 8) (hb : lane 16 b i ≠ 0#16)
    (hex : ¬((lane 16 a i).toInt = -32768 ∧ (lane 16 b i).toInt = -1)) :
    (lane 16 (vDiv16 I true a b) i).toInt = (lane 16 a i).toInt.tdiv (lane 16 b i).toInt := by
  have hx := bound16 (lane 16 a i)
  have hy := bound16 (lane 16 b i)
  have hb0 : (lane 16 b i).toInt ≠ 0 := fun h => hb (BitVec.eq_of_toInt_eq (by simpa using h))
  have hz := div16_lane (a := (lane 16 a i).signExtend 32) (b := (lane 16 b i).signExtend 32)
    (by rw [toInt_sext]; omega) (by rw [toInt_sext]; omega) (by rw [toInt_sext]; omega)
  rw [toInt_sext, toInt_sext] at hz
  rw [lane_vDiv16_signed I a b hi, hz]
  apply satSigned_fits
  · have := tdiv_abs (lane 16 a i).toInt (lane 16 b i).toInt
    omega
  · rcases Int.lt_or_le ((lane 16 a i).toInt.tdiv (lane 16 b i).toInt) 32768 with h | h
    · exact h
    · exact absurd (tdiv_eq_min hx.1 hx.2 h) hex

/-- `short_v % short_v` likewise. -/
theorem C39_mod_short_partial (I : Isa) (a b : M128) {i : Nat} (hi : i < 8) (hb : lane 16 b i ≠ 0#16)
    (hex : ¬((lane 16 a i).toInt = -32768 ∧ (lane 16 b i).toInt = -1)) :
    (lane 16 (vMod16 I true a b) i).toInt = (lane 16 a i).toInt.tmod (lane 16 b i).toInt := by
  have hq := C39_div_short_partial I a b hi hb hex
  unfold vMod16 subEpi
  rw [lane_map2 _ _ _ (by omega), lane_vMul I (.inl rfl) (by omega), BitVec.toInt_sub, BitVec.toInt_mul, hq]
  have h1 := Int.tmod_add_mul_tdiv (lane 16 a i).toInt (lane 16 b i).toInt
  have hx := bound16 (lane 16 a i)
  have hy := bound16 (lane 16 b i)
  have h2 : ((lane 16 a i).toInt.tmod (lane 16 b i).toInt).natAbs ≤ (lane 16 a i).toInt.natAbs := by
    rw [Int.natAbs_tmod]; exact Nat.mod_le _ _
  have h3 : ((lane 16 b i).toInt * (lane 16 a i).toInt.tdiv (lane 16 b i).toInt) =
      (lane 16 a i).toInt - (lane 16 a i).toInt.tmod (lane 16 b i).toInt := by omega
  rw [Int.mul_comm, h3, Int.sub_bmod_bmod]
  rw [show (lane 16 a i).toInt - ((lane 16 a i).toInt - (lane 16 a i).toInt.tmod (lane 16 b i).toInt) =
    (lane 16 a i).toInt.tmod (lane 16 b i).toInt from by omega]
  have hb0 : (lane 16 b i).toInt ≠ 0 := fun h => hb (BitVec.eq_of_toInt_eq (by simpa using h))
  have h4 : ((lane 16 a i).toInt.tmod (lane 16 b i).toInt).natAbs < (lane 16 b i).toInt.natAbs := by
    rw [Int.natAbs_tmod]; exact Nat.mod_lt _ (by omega)
  apply Int.bmod_eq_of_le <;> simp <;> omega

/-- In the excluded case the result is 32767 instead of -32768, and the remainder -1 instead of 0. -/
theorem C39_short_min_by_minus_one (I : Isa) (a b : M128) {i : Nat} (hi : i < 8)
    (ha : (lane 16 a i).toInt = -32768) (hb : (lane 16 b i).toInt = -1) :
    (lane 16 (vDiv16 I true a b) i).toInt = 32767 ∧ (lane 16 (vMod16 I true a b) i).toInt = -1 := by
  have hz := div16_lane (a := (lane 16 a i).signExtend 32) (b := (lane 16 b i).signExtend 32)
    (by rw [toInt_sext]; omega) (by rw [toInt_sext]; omega) (by rw [toInt_sext]; omega)
  rw [toInt_sext, toInt_sext, ha, hb] at hz
  have hq : lane 16 (vDiv16 I true a b) i = 32767#16 := by
    rw [lane_vDiv16_signed I a b hi, hz]; decide
  have ea : lane 16 a i = 32768#16 := BitVec.eq_of_toInt_eq (by rw [ha]; decide)
  have eb : lane 16 b i = 65535#16 := BitVec.eq_of_toInt_eq (by rw [hb]; decide)
  refine ⟨by rw [hq]; decide, ?_⟩
  unfold vMod16 subEpi
  rw [lane_map2 _ _ _ (by omega), lane_vMul I (.inl rfl) (by omega), hq, ea, eb]
  decide

/-- The unrestricted claim (quotient converted to short, remainder of the C++ operator) is false, with
every instruction set. -/
theorem C39_div_short_violated (I : Isa) :
    ¬ ∀ (a b : M128) (i : Nat), i < 8 → lane 16 b i ≠ 0#16 →
      (lane 16 (vDiv16 I true a b) i) =
        BitVec.ofInt 16 ((lane 16 a i).toInt.tdiv (lane 16 b i).toInt) := by
  intro h
  have h0 := h (set1 16 32768#16) (set1 16 65535#16) 0 (by decide)
    (by rw [lane_set1 _ (by decide)]; decide)
  have h1 := (C39_short_min_by_minus_one I (set1 16 32768#16) (set1 16 65535#16) (i := 0) (by decide)
    (by rw [lane_set1 _ (by decide)]; decide) (by rw [lane_set1 _ (by decide)]; decide)).1
  rw [h0, lane_set1 _ (by decide), lane_set1 _ (by decide)] at h1
  exact absurd h1 (by decide)

theorem C39_mod_short_violated (I : Isa) :
    ¬ ∀ (a b : M128) (i : Nat), i < 8 → lane 16 b i ≠ 0#16 →
      (lane 16 (vMod16 I true a b) i) =
        BitVec.ofInt 16 ((lane 16 a i).toInt.tmod (lane 16 b i).toInt) := by
  intro h
  have h0 := h (set1 16 32768#16) (set1 16 65535#16) 0 (by decide)
    (by rw [lane_set1 _ (by decide)]; decide)
  have h1 := (C39_short_min_by_minus_one I (set1 16 32768#16) (set1 16 65535#16) (i := 0) (by decide)
    (by rw [lane_set1 _ (by decide)]; decide) (by rw [lane_set1 _ (by decide)]; decide)).2
  rw [h0, lane_set1 _ (by decide), lane_set1 _ (by decide)] at h1
  exact absurd h1 (by decide)

example : (lane 16 (vDiv16 sse2 true (set1 16 (-7)) (set1 16 2#16)) 5).toInt = -3 ∧
    (lane 16 (vMod16 sse42 true (set1 16 (-7)) (set1 16 2#16)) 5).toInt = -1 := by
  rw [C39_div_short_partial _ _ _ (by decide) (by rw [lane_set1 _ (by decide)]; decide)
      (by rw [lane_set1 _ (by decide)]; decide),
    C39_mod_short_partial _ _ _ (by decide) (by rw [lane_set1 _ (by decide)]; decide)
      (by rw [lane_set1 _ (by decide)]; decide),
    lane_set1 _ (by decide), lane_set1 _ (by decide)]
  decide

private theorem bound32 (x : BitVec 32) : -2147483648 ≤ x.toInt ∧ x.toInt < 2147483648 := by
  have := x.isLt
  rw [BitVec.toInt_eq_toNat_cond]
  split <;> omega

private theorem divInt_spec (sgn : Bool) (x y : BitVec 32) :
    ((divInt sgn x y).isSome = true ↔ (Spec.val sgn y ≠ 0 ∧
        ¬(sgn = true ∧ Spec.val sgn x = -2147483648 ∧ Spec.val sgn y = -1))) ∧
    ∀ q, divInt sgn x y = some q → Spec.val sgn q = (Spec.val sgn x).tdiv (Spec.val sgn y) ∧
      Spec.val sgn (x - q * y) = (Spec.val sgn x).tmod (Spec.val sgn y) := by
  have e31 : -(2 : Int) ^ 31 = -2147483648 := by decide
  unfold divInt
  rw [e31]
  by_cases h0 : y = 0#32
  · subst h0
    rw [if_pos rfl]
    refine ⟨⟨fun h => by simp at h, fun h => absurd (by cases sgn <;> decide) h.1⟩, fun q h => by simp at h⟩
  rw [if_neg h0]
  cases sgn
  · simp only [Bool.false_eq_true, if_false, Spec.val, false_and, not_false_eq_true, and_true,
      Option.isSome_some, true_iff, Option.some.injEq]
    have hy : y.toNat ≠ 0 := fun h => h0 (BitVec.eq_of_toNat_eq (by simpa using h))
    refine ⟨by omega, fun q hq => ?_⟩
    have hx := x.isLt
    have hle : x.toNat / y.toNat ≤ x.toNat := Nat.div_le_self _ _
    have hqn : q.toNat = x.toNat / y.toNat := by
      rw [← hq, BitVec.toNat_ofNat, Nat.mod_eq_of_lt (by omega)]
    refine ⟨by rw [hqn]; rfl, ?_⟩
    rw [show ((x.toNat : Int).tmod (y.toNat : Int)) = ((x.toNat % y.toNat : Nat) : Int) from rfl,
      BitVec.toNat_sub, BitVec.toNat_mul, hqn]
    have h1 := Nat.div_add_mod x.toNat y.toNat
    rw [Nat.mul_comm] at h1
    generalize x.toNat / y.toNat * y.toNat = p at *
    omega
  · simp only [if_true, Spec.val, true_and]
    have hy : y.toInt ≠ 0 := fun h => h0 (BitVec.eq_of_toInt_eq (by simpa using h))
    by_cases h1 : x.toInt = -2147483648 ∧ y.toInt = -1
    · rw [if_pos h1]
      exact ⟨⟨fun h => by simp at h, fun h => absurd h1 h.2⟩, fun q h => by simp at h⟩
    rw [if_neg h1]
    refine ⟨⟨fun _ => ⟨hy, h1⟩, fun _ => rfl⟩, fun q hq => ?_⟩
    have hx := bound32 x
    have hy2 := bound32 y
    have hq' : BitVec.ofInt 32 (x.toInt.tdiv y.toInt) = q := by simpa using hq
    have habs := tdiv_abs x.toInt y.toInt
    have hlt : x.toInt.tdiv y.toInt < 2147483648 := by
      rcases Int.lt_or_le (x.toInt.tdiv y.toInt) 2147483648 with h | h
      · exact h
      · exfalso
        apply h1
        have n1 : (x.toInt.tdiv y.toInt).natAbs = x.toInt.natAbs / y.toInt.natAbs := Int.natAbs_tdiv _ _
        have n2 : x.toInt.natAbs = 2147483648 := by omega
        rw [n2] at n1
        have n3 : y.toInt.natAbs = 1 := by
          rcases Nat.lt_or_ge y.toInt.natAbs 2 with h | h
          · omega
          · have := Nat.div_le_div_left (a := 2147483648) h (by decide)
            omega
        refine ⟨by omega, ?_⟩
        rcases Int.natAbs_eq y.toInt with hb | hb
        · rw [n3] at hb
          rw [hb, show ((1 : Nat) : Int) = 1 from rfl, Int.tdiv_one] at h
          omega
        · rw [n3] at hb
          exact hb
    have hqi : q.toInt = x.toInt.tdiv y.toInt := by
      rw [← hq', BitVec.toInt_ofInt]; apply Int.bmod_eq_of_le <;> simp <;> omega
    refine ⟨hqi, ?_⟩
    rw [BitVec.toInt_sub, BitVec.toInt_mul, hqi]
    have m1 := Int.tmod_add_mul_tdiv x.toInt y.toInt
    have m2 : (x.toInt.tmod y.toInt).natAbs ≤ x.toInt.natAbs := by
      rw [Int.natAbs_tmod]; exact Nat.mod_le _ _
    have m4 : (x.toInt.tmod y.toInt).natAbs < y.toInt.natAbs := by
      rw [Int.natAbs_tmod]; exact Nat.mod_lt _ (by omega)
    have m3 : (y.toInt * x.toInt.tdiv y.toInt) = x.toInt - x.toInt.tmod y.toInt := by omega
    rw [Int.mul_comm, m3, Int.sub_bmod_bmod,
      show x.toInt - (x.toInt - x.toInt.tmod y.toInt) = x.toInt.tmod y.toInt from by omega]
    apply Int.bmod_eq_of_le <;> simp <;> omega

private theorem vDiv32_lanes {sgn : Bool} {a b q : M128} (h : vDiv32 sgn a b = some q) {i : Nat}
    (hi : i < 4) : divInt sgn (lane 32 a i) (lane 32 b i) = some (lane 32 q i) := by
  unfold vDiv32 at h
  simp only [Option.bind_eq_bind, Option.bind_eq_some_iff, Option.pure_def, Option.some.injEq] at h
  obtain ⟨r0, h0, r1, h1, r2, h2, r3, h3, rfl⟩ := h
  rw [lane_ofLanes _ (by omega)]
  match i, hi with
  | 0, _ => exact h0
  | 1, _ => exact h1
  | 2, _ => exact h2
  | 3, _ => exact h3

/-- Division and remainder of int_v and uint_v: defined exactly when the C++ operation is defined in
every lane, and then the quotient and remainder of C++. -/
theorem C39_div32 (I : Isa) (sgn : Bool) (a b : M128) :
    ((vDiv32 sgn a b).isSome = true ↔ ∀ i, i < 4 → Spec.val sgn (lane 32 b i) ≠ 0 ∧
        ¬(sgn = true ∧ Spec.val sgn (lane 32 a i) = -2147483648 ∧ Spec.val sgn (lane 32 b i) = -1)) ∧
    (∀ q, vDiv32 sgn a b = some q → ∀ i, i < 4 →
      Spec.val sgn (lane 32 q i) = (Spec.val sgn (lane 32 a i)).tdiv (Spec.val sgn (lane 32 b i))) ∧
    (∀ r, vMod32 I sgn a b = some r → ∀ i, i < 4 →
      Spec.val sgn (lane 32 r i) = (Spec.val sgn (lane 32 a i)).tmod (Spec.val sgn (lane 32 b i))) ∧
    (vMod32 I sgn a b).isSome = (vDiv32 sgn a b).isSome := by
  refine ⟨⟨fun h i hi => ?_, fun h => ?_⟩, fun q hq i hi => ?_, fun r hr i hi => ?_, ?_⟩
  · obtain ⟨q, hq⟩ := Option.isSome_iff_exists.mp h
    exact (divInt_spec sgn _ _).1.mp (by rw [vDiv32_lanes hq hi]; rfl)
  · obtain ⟨q0, h0⟩ := Option.isSome_iff_exists.mp ((divInt_spec sgn _ _).1.mpr (h 0 (by decide)))
    obtain ⟨q1, h1⟩ := Option.isSome_iff_exists.mp ((divInt_spec sgn _ _).1.mpr (h 1 (by decide)))
    obtain ⟨q2, h2⟩ := Option.isSome_iff_exists.mp ((divInt_spec sgn _ _).1.mpr (h 2 (by decide)))
    obtain ⟨q3, h3⟩ := Option.isSome_iff_exists.mp ((divInt_spec sgn _ _).1.mpr (h 3 (by decide)))
    simp [vDiv32, h0, h1, h2, h3]
  · exact ((divInt_spec sgn _ _).2 _ (vDiv32_lanes hq hi)).1
  · unfold vMod32 at hr
    simp only [Option.bind_eq_bind, Option.bind_eq_some_iff, Option.pure_def, Option.some.injEq] at hr
    obtain ⟨q, hq, rfl⟩ := hr
    unfold subEpi
    rw [lane_map2 _ _ _ (by omega), lane_vMul I (.inr rfl) (by omega)]
    exact ((divInt_spec sgn _ _).2 _ (vDiv32_lanes hq hi)).2
  · unfold vMod32
    cases vDiv32 sgn a b <;> rfl

/-- A division that is defined, and one that is not. -/
example : (vDiv32 true (set1 32 (-7)) (set1 32 2#32)).isSome = true ∧
    (vDiv32 true (set1 32 0x80000000#32) (set1 32 (-1))).isSome = false := by
  constructor
  · rw [(C39_div32 sse2 true _ _).1]
    intro i hi
    rw [lane_set1 _ (by omega), lane_set1 _ (by omega)]
    decide
  · rw [Bool.eq_false_iff, ne_eq, (C39_div32 sse2 true _ _).1]
    intro h
    have := h 0 (by decide)
    rw [lane_set1 _ (by omega), lane_set1 _ (by omega)] at this
    exact absurd this (by decide)

end Vc.Prop
