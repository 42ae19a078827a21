import Verif.Model.Logical
import Verif.Spec.Logical
import Verif.Lemma.FloatArith
import Verif.Lemma.Fma2
import Verif.Prop.SseInt
import Verif.Prop.AvxInt
import Verif.Prop.SseMask
import Verif.Prop.AvxMask
import Verif.Prop.FloatBits

/-!
C90: logical and unary operators of the vectors.
-/

namespace Vc.Prop
open Vc.Model Vc.Lemma Vc.Spec

/-- The vector types: `n` register bits, `w` bits per entry, which entries are true, and the operations. -/
inductive LogicVec : (n w : Nat) → (BitVec w → Bool) → LogicOps n → Prop
  | sseInt (gcc sgn : Bool) {w : Nat} (hw : IntWidth w) : LogicVec 128 w (intTrue sgn) (sseIntLogic gcc w)
  | avxInt (gcc avx2 sgn : Bool) {w : Nat} (hw : IntWidth w) : LogicVec 256 w (intTrue sgn) (avxIntLogic gcc avx2 w)
  | sseFloat (gcc : Bool) : LogicVec 128 32 (floatTrue f32) (sseFloatLogic gcc f32 32)
  | sseDouble (gcc : Bool) : LogicVec 128 64 (floatTrue f64) (sseFloatLogic gcc f64 64)
  | avxFloat (gcc : Bool) : LogicVec 256 32 (floatTrue f32) (avxFloatLogic gcc f32 32)
  | avxDouble (gcc : Bool) : LogicVec 256 64 (floatTrue f64) (avxFloatLogic gcc f64 64)

private theorem val_zero (sgn : Bool) (w : Nat) : val sgn (0#w) = 0 := by
  cases sgn <;> simp [val]

private theorem not_intTrue (sgn : Bool) {w : Nat} (x : BitVec w) :
    (!intTrue sgn x) = decide (val sgn x = val sgn (0#w)) := by
  unfold intTrue; rw [val_zero]; by_cases h : val sgn x = 0 <;> simp [h]

private theorem numEq_zero {F : Fmt} {w : Nat} (h : FmtW F w) (x : BitVec w) :
    numEq F x (0#w) = !floatTrue F x := by
  have hz : fnum F (0#w) = some 0 := by cases h <;> decide
  unfold numEq floatTrue
  rw [hz]
  cases fnum F x with
  | none => simp
  | some p => simp

private theorem smNot_eq (gcc : Bool) (k : M128) : smNot gcc k = ~~~k := by
  unfold smNot andnot
  cases gcc
  · rw [if_neg Bool.false_ne_true]; exact BitVec.and_allOnes
  · rfl

private theorem amNot_eq (gcc : Bool) (k : M256) : amNot gcc k = ~~~k := by
  unfold amNot andnot
  cases gcc
  · rw [if_neg Bool.false_ne_true]; exact BitVec.and_allOnes
  · rfl

/-- `!v` is true in the entries that are zero, and a mask. -/
theorem C90_not {n w : Nat} {T : BitVec w → Bool} {o : LogicOps n} (h : LogicVec n w T o) (x : BitVec n) :
    IsMask w (o.vecNot x) fun i => !T (lane w x i) := by
  intro i hi
  show lane w (o.vecNot x) i = boolLane w (!T (lane w x i))
  cases h with
  | sseInt gcc sgn hw =>
    refine (C34_eq hw sgn x 0#128 hi).trans ?_
    rw [lane_zero, not_intTrue]
  | avxInt gcc avx2 sgn hw =>
    refine (C34_avx_eq avx2 hw sgn x 0#256 hi).trans ?_
    rw [lane_zero, not_intTrue]
  | sseFloat => refine (C54_eq_ne .sseFloat x _ hi).1.trans ?_; rw [lane_zero, numEq_zero .single]
  | sseDouble => refine (C54_eq_ne .sseDouble x _ hi).1.trans ?_; rw [lane_zero, numEq_zero .double]
  | avxFloat => refine (C54_eq_ne .avxFloat x _ hi).1.trans ?_; rw [lane_zero, numEq_zero .single]
  | avxDouble => refine (C54_eq_ne .avxDouble x _ hi).1.trans ?_; rw [lane_zero, numEq_zero .double]

private theorem isMask_maskNot {n w : Nat} {T : BitVec w → Bool} {o : LogicOps n} (h : LogicVec n w T o) {k : BitVec n}
    {b : Nat → Bool} (hk : IsMask w k b) : IsMask w (o.maskNot k) fun i => !b i := by
  have e : o.maskNot k = ~~~k := by
    cases h with
    | sseInt gcc => exact smNot_eq gcc k
    | avxInt gcc => exact amNot_eq gcc k
    | sseFloat gcc => exact smNot_eq gcc k
    | sseDouble gcc => exact smNot_eq gcc k
    | avxFloat gcc => exact amNot_eq gcc k
    | avxDouble gcc => exact amNot_eq gcc k
  rw [e]
  exact isMask_of fun i hi => by rw [lane_not _ hi, hk.lane_eq hi, not_laneMask]

private theorem isMask_init {n w : Nat} {T : BitVec w → Bool} {o : LogicOps n} (h : LogicVec n w T o) (b : Bool) :
    IsMask w (o.init b) fun _ => b := by
  have e : o.init b = if b then BitVec.allOnes n else 0#n := by cases h <;> rfl
  rw [e]
  refine isMask_of fun i hi => ?_
  cases b
  · exact lane_zero i
  · exact lane_allOnes hi

private theorem isMask_toMask {n w : Nat} {T : BitVec w → Bool} {o : LogicOps n} (h : LogicVec n w T o)
    (x : BitVec n) : IsMask w (o.toMask x) fun i => T (lane w x i) := by
  have := isMask_maskNot h (C90_not h x)
  simp only [Bool.not_not] at this
  exact this

private theorem isMask_andL {n w : Nat} {k k' : BitVec n} {b b' : Nat → Bool} (h : IsMask w k b) (h' : IsMask w k' b') :
    IsMask w (k &&& k') fun i => b i && b' i :=
  isMask_of fun i hi => by rw [lane_and, h.lane_eq hi, h'.lane_eq hi, laneMask_and]

private theorem isMask_orL {n w : Nat} {k k' : BitVec n} {b b' : Nat → Bool} (h : IsMask w k b) (h' : IsMask w k' b') :
    IsMask w (k ||| k') fun i => b i || b' i :=
  isMask_of fun i hi => by rw [lane_or, h.lane_eq hi, h'.lane_eq hi, laneMask_or]

/-- `x && y` and `x || y` are the conjunction and disjunction per entry, and masks. -/
theorem C90_and_or {n w : Nat} {T : BitVec w → Bool} {o : LogicOps n} (h : LogicVec n w T o) (x y : BitVec n) :
    IsMask w (o.and x y) (fun i => T (lane w x i) && T (lane w y i)) ∧
    IsMask w (o.or x y) (fun i => T (lane w x i) || T (lane w y i)) :=
  ⟨isMask_andL (isMask_toMask h x) (isMask_toMask h y), isMask_orL (isMask_toMask h x) (isMask_toMask h y)⟩

/-- Whether a scalar operand is true. -/
def argTrue : ScalarArg → Bool
  | .bool b => b
  | .int y => intTrue false y
  | .float F y => floatTrue F y

/-- A scalar of a type that exists. -/
def ArgWF : ScalarArg → Prop
  | .float F (k := k) _ => FmtW F k
  | _ => True

private theorem not_arg {y : ScalarArg} (h : ArgWF y) : (!y.not) = argTrue y := by
  cases y with
  | bool b => exact Bool.not_not b
  | int y =>
    show (!(y == 0)) = decide (val false y ≠ 0)
    by_cases hy : y = 0
    · subst hy; simp [val]
    · have : y.toNat ≠ 0 := fun e => hy (BitVec.eq_of_toNat_eq (by simpa using e))
      have hy' : (y == 0) = false := beq_eq_false_iff_ne.mpr hy
      rw [hy']; simp [val, this]
  | float F y =>
    show (!fEq F y 0) = floatTrue F y
    have := numEq_zero h y
    rw [fEq_numEq]
    show (!numEq F y (0#_)) = _
    rw [this, Bool.not_not]

/-- With a scalar on either side: its truth value combined with every entry. -/
theorem C90_scalar {n w : Nat} {T : BitVec w → Bool} {o : LogicOps n} (h : LogicVec n w T o) (x : BitVec n)
    {y : ScalarArg} (hy : ArgWF y) :
    IsMask w (o.andScalar x y) (fun i => T (lane w x i) && argTrue y) ∧
    IsMask w (o.orScalar x y) (fun i => T (lane w x i) || argTrue y) ∧
    IsMask w (o.scalarAnd y x) (fun i => argTrue y && T (lane w x i)) ∧
    IsMask w (o.scalarOr y x) (fun i => argTrue y || T (lane w x i)) := by
  have hm := isMask_toMask h x
  have hi := isMask_init h (!y.not)
  rw [not_arg hy] at hi
  unfold LogicOps.andScalar LogicOps.orScalar LogicOps.scalarAnd LogicOps.scalarOr
  rw [not_arg hy]
  exact ⟨isMask_andL hm hi, isMask_orL hm hi, isMask_andL hi hm, isMask_orL hi hm⟩

/-- Scalar::Vector: the built-in operators. -/
theorem C90_scalar_abi {x y : ScalarArg} (hx : ArgWF x) (hy : ArgWF y) :
    scalarAnd x y = (argTrue x && argTrue y) ∧ scalarOr x y = (argTrue x || argTrue y) := by
  unfold scalarAnd scalarOr
  rw [not_arg hx, not_arg hy]; exact ⟨rfl, rfl⟩

/-- A NaN and 1.5 are true, both zeros false. -/
example : LogicVec 128 32 (floatTrue f32) (sseFloatLogic false f32 32) ∧
    (floatTrue f32 0x7fc00000#32, floatTrue f32 0x3fc00000#32, floatTrue f32 0#32, floatTrue f32 0x80000000#32) =
      (true, true, false, false) ∧ ArgWF (.float f32 0x7fc00000#32) :=
  ⟨.sseFloat false, by decide, .single⟩

/-- The bitwise complement of every entry; as numbers `-1 - x`, and `2 ^ w - 1 - x` of unsigned types. -/
theorem C90_complement {n w : Nat} (hw : 0 < w) (x : BitVec n) {i : Nat} (hi : w * (i + 1) ≤ n) :
    val true (lane w (vCompl x) i) = -1 - val true (lane w x i) ∧
    val false (lane w (vCompl x) i) = 2 ^ w - 1 - val false (lane w x i) ∧
    ∀ j, j < w → (lane w (vCompl x) i).getLsbD j = !(lane w x i).getLsbD j := by
  have e : lane w (vCompl x) i = ~~~lane w x i := by
    unfold vCompl andnot
    rw [BitVec.and_allOnes, lane_not _ hi]
  rw [e]
  generalize lane w x i = y
  have hy := y.isLt
  have hp : (2 : Nat) ^ w = 2 * 2 ^ (w - 1) := by rw [← Nat.pow_succ']; congr 1; omega
  have hc : (2 ^ w : Int) = ((2 ^ w : Nat) : Int) := by norm_cast
  refine ⟨?_, ?_, fun j hj => by simp [hj]⟩
  · simp only [val, if_true, BitVec.toInt_eq_toNat_cond, BitVec.toNat_not]
    split <;> split <;> omega
  · simp only [val, Bool.false_eq_true, if_false, BitVec.toNat_not]
    rw [hc]
    omega

example : (0 : Nat) < 16 ∧ 16 * (3 + 1) ≤ 128 := by decide

/-! ### `++` and `--` -/

private theorem stepInt_ofInt (sgn : Bool) (d : Int) {w : Nat} (hw : 0 < w) (x : BitVec w) :
    StepInt sgn d x (BitVec.ofInt w (val sgn x + d)) := by
  have hp : (2 : Nat) ^ w = 2 * 2 ^ (w - 1) := by rw [← Nat.pow_succ']; congr 1; omega
  have hc : (2 ^ w : Int) = ((2 ^ w : Nat) : Int) := by norm_cast
  have hc' : (2 ^ (w - 1) : Int) = ((2 ^ (w - 1) : Nat) : Int) := by norm_cast
  have hpos : 0 < (2 : Nat) ^ w := Nat.two_pow_pos w
  unfold StepInt
  generalize val sgn x + d = z
  cases sgn
  · simp only [val, Bool.false_eq_true, if_false, BitVec.toNat_ofInt]
    rw [hc]
    have h0 : 0 ≤ z % ((2 ^ w : Nat) : Int) := Int.emod_nonneg _ (by omega)
    rw [Int.toNat_of_nonneg h0]
    exact ⟨Int.emod_eq_zero_of_dvd (Int.dvd_of_emod_eq_zero (by rw [Int.sub_emod]; simp)),
      fun h => Int.emod_eq_of_lt h.1 h.2⟩
  · simp only [val, if_true, BitVec.toInt_ofInt]
    rw [hc, hc']
    refine ⟨?_, fun h => ?_⟩
    · apply Int.emod_eq_zero_of_dvd
      have := Int.dvd_self_sub_bmod (x := z) (m := 2 ^ w)
      have h2 := Int.dvd_neg.mpr this
      rwa [Int.neg_sub] at h2
    · exact Int.bmod_eq_of_le (by omega) (by omega)

private theorem ofInt_val (sgn : Bool) {w : Nat} (x : BitVec w) : BitVec.ofInt w (val sgn x) = x := by
  cases sgn <;> simp [val]

private theorem add_one_eq (sgn : Bool) {w : Nat} (x : BitVec w) : x + 1#w = BitVec.ofInt w (val sgn x + 1) := by
  rw [BitVec.ofInt_add, ofInt_val]; rfl

private theorem sub_one_eq (sgn : Bool) {w : Nat} (x : BitVec w) : x - 1#w = BitVec.ofInt w (val sgn x + -1) := by
  rw [BitVec.ofInt_add, ofInt_val, BitVec.ofInt_neg, BitVec.sub_eq_add_neg]; rfl

private theorem pos_of {w : Nat} (hw : IntWidth w) : 0 < w := by rcases hw with rfl | rfl <;> decide

/-- `++v` and `--v` of the SSE integer vectors store the entries plus and minus one and return the new
vector; `v++` and `v--` store the same and return the old one. -/
theorem C90_step_sse {w : Nat} (hw : IntWidth w) (sgn : Bool) (x : M128) {i : Nat} (hi : w * (i + 1) ≤ 128) :
    StepInt sgn 1 (lane w x i) (lane w (prefixStep (addEpi w) (sseOne w) x).stored i) ∧
    StepInt sgn (-1) (lane w x i) (lane w (prefixStep (subEpi w) (sseOne w) x).stored i) := by
  unfold prefixStep addEpi subEpi sseOne
  dsimp only
  rw [lane_map2 _ _ _ hi, lane_map2 _ _ _ hi, lane_set1 _ hi, add_one_eq sgn, sub_one_eq sgn]
  exact ⟨stepInt_ofInt sgn 1 (pos_of hw) _, stepInt_ofInt sgn (-1) (pos_of hw) _⟩

private theorem lane_avxOne {w : Nat} (hw : IntWidth w) {i : Nat} (hi : w * (i + 1) ≤ 256) :
    lane w (avxOne w) i = 1#w := by
  rcases hw with rfl | rfl
  · have : ∀ j < 16, lane 16 (avxOne 16) j = 1#16 := by decide +kernel
    exact this i (by omega)
  · exact lane_set1 _ hi

/-- The same for the AVX integer vectors. -/
theorem C90_step_avx (avx2 : Bool) {w : Nat} (hw : IntWidth w) (sgn : Bool) (x : M256) {i : Nat}
    (hi : w * (i + 1) ≤ 256) :
    StepInt sgn 1 (lane w x i) (lane w (prefixStep (avxAdd avx2 w) (avxOne w) x).stored i) ∧
    StepInt sgn (-1) (lane w x i) (lane w (prefixStep (avxSub avx2 w) (avxOne w) x).stored i) := by
  have h := C35_avx_add_sub avx2 hw sgn x (avxOne w) hi
  have e1 : BitVec.ofInt w (val sgn (1#w)) = 1#w := ofInt_val sgn _
  rw [lane_avxOne hw hi] at h
  unfold prefixStep
  dsimp only
  rw [h.1, h.2, BitVec.ofInt_add, Int.sub_eq_add_neg, BitVec.ofInt_add, BitVec.ofInt_neg, ofInt_val, e1,
    ← BitVec.sub_eq_add_neg, add_one_eq sgn, sub_one_eq sgn]
  exact ⟨stepInt_ofInt sgn 1 (pos_of hw) _, stepInt_ofInt sgn (-1) (pos_of hw) _⟩

private theorem one_facts {F : Fmt} {n w : Nat} {K : FConst n} (h : Platform F n w K) {i : Nat}
    (hi : w * (i + 1) ≤ n) :
    isFinite F (lane w K.one i) = true ∧ fval F (lane w K.one i) = 2 ^ oneExp F := by
  cases h <;> (unfold FConst.one; first | unfold sseFloat | unfold sseDouble | unfold avxFloat | unfold avxDouble) <;>
    dsimp only <;> rw [lane_set1 _ hi] <;> decide +kernel

/-- Floating-point vectors: `x ± 1` rounded to nearest, infinities and NaNs kept. -/
theorem C90_step_float {F : Fmt} {n w : Nat} {K : FConst n} (h : Platform F n w K) (x : BitVec n) {i : Nat}
    (hi : w * (i + 1) ≤ n) :
    StepFloat F 1 (lane w x i) (lane w (prefixStep (vFAdd F w) K.one x).stored i) ∧
    StepFloat F (-1) (lane w x i) (lane w (prefixStep (vFSub F w) K.one x).stored i) := by
  obtain ⟨hf, hv⟩ := one_facts h hi
  obtain ⟨n1, n2⟩ := isFinite_not hf
  unfold prefixStep vFAdd vFSub
  dsimp only
  rw [lane_map2 _ _ _ hi, lane_map2 _ _ _ hi]
  generalize lane w x i = y
  refine ⟨⟨fun hy => ?_, fun hy => ?_, fun hy => fAdd_nan (.inl hy)⟩,
    ⟨fun hy => ?_, fun hy => ?_, fun hy => isNaN_fSub_left hy _⟩⟩
  · rw [Int.one_mul, ← hv]; exact fAdd_nearest h.fmtW hy hf
  · have hn : isNaN F y = false := by
      unfold isInf at hy; unfold isNaN; simp only [decide_eq_true_eq, decide_eq_false_iff_not] at hy ⊢; omega
    unfold fAdd; rw [hn, n1, hy, n2]; rfl
  · have e : fval F y + -1 * 2 ^ oneExp F = fval F y - fval F (lane w K.one i) := by rw [hv]; omega
    rw [e]; exact fSub_nearest h.fmtW hy hf
  · have hn : isNaN F y = false := by
      unfold isInf at hy; unfold isNaN; simp only [decide_eq_true_eq, decide_eq_false_iff_not] at hy ⊢; omega
    unfold fSub; rw [hn, n1, hy, n2]; rfl

/-- Whatever the type: the prefix forms return what they store, the postfix forms store the same and
return the old vector. -/
theorem C90_returned {n : Nat} (op : BitVec n → BitVec n → BitVec n) (one x : BitVec n) :
    (prefixStep op one x).returned = (prefixStep op one x).stored ∧
    (postfixStep op one x).stored = (prefixStep op one x).stored ∧ (postfixStep op one x).returned = x :=
  ⟨rfl, rfl, rfl⟩

/-- Scalar::Vector: whenever the built-in operator is defined the result is that of the native vectors,
and it is defined if the mathematical result is in range. -/
theorem C90_step_scalar {w : Nat} (hw : 0 < w) (sgn : Bool) (d : Int) (x : BitVec w) :
    (∀ r, scalarStep sgn d x = some r → StepInt sgn d x r) ∧
    ((if sgn then -(2 ^ (w - 1) : Int) ≤ val sgn x + d ∧ val sgn x + d < 2 ^ (w - 1)
      else 0 ≤ val sgn x + d ∧ val sgn x + d < 2 ^ w) → ∃ r, scalarStep sgn d x = some r ∧ val sgn r = val sgn x + d) := by
  have key : ∀ r, scalarStep sgn d x = some r → StepInt sgn d x r := by
    intro r hr
    unfold scalarStep at hr
    have hr : (if _ then none else some (BitVec.ofInt w (val sgn x + d))) = some r := hr
    by_cases hc : (sgn = true ∧ 32 ≤ w ∧ (val sgn x + d < -(2 ^ (w - 1) : Int) ∨ (2 ^ (w - 1) : Int) ≤ val sgn x + d))
    · have h2 := (if_pos hc).symm.trans hr
      exact absurd h2 (by simp)
    · have h2 := (if_neg hc).symm.trans hr
      rw [← Option.some.inj h2]
      exact stepInt_ofInt sgn d hw x
  refine ⟨key, fun h => ?_⟩
  have e : scalarStep sgn d x = some (BitVec.ofInt w (val sgn x + d)) := by
    unfold scalarStep
    dsimp only
    rw [if_neg]
    · rfl
    · rintro ⟨hs, _, hr⟩
      subst hs
      simp only [if_true, val] at h hr
      omega
  exact ⟨_, e, (key _ e).2 h⟩

/-- 32767 + 1 wraps in a vector of shorts; INT_MAX + 1 of Scalar::int_v is undefined. -/
example : IntWidth 16 ∧ lane 16 (prefixStep (addEpi 16) (sseOne 16) (set1 16 0x7fff#16)).stored 5 = 0x8000#16 ∧
    scalarStep true 1 0x7fff#16 = some 0x8000#16 ∧ scalarStep true 1 0x7fffffff#32 = none :=
  ⟨.inl rfl, by decide +kernel, by decide +kernel, by decide +kernel⟩

example : Platform f64 256 64 avxDouble ∧ isFinite f64 0x4000000000000000#64 = true :=
  ⟨.avxDouble, by decide +kernel⟩

end Vc.Prop
