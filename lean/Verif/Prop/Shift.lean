import Verif.Model.Shift
import Verif.Spec.Shift
import Verif.Lemma.SseConv
import Verif.Lemma.SortNet2
import Verif.Prop.AvxInt

/-!
C91: the shift operators.

A count is valid if C++ defines the shift of a single entry by it: 0 to 31, also for entries of 16 bits,
which are promoted to `int`.  The XOP instructions are specified for counts below the width of the entries.
-/

namespace Vc.Prop
open Vc.Model Vc.Lemma Vc.Spec

private theorem shlOf_shl (sgn : Bool) {w : Nat} (a : BitVec w) (c : Nat) : ShlOf sgn a c (a <<< c) := by
  have hc : (2 ^ w : Int) = ((2 ^ w : Nat) : Int) := by norm_cast
  unfold ShlOf
  cases sgn
  · simp only [val, Bool.false_eq_true, if_false, BitVec.toNat_shiftLeft, Nat.shiftLeft_eq]
    rw [hc]
    push_cast
    rw [Int.emod_sub_emod]; simp
  · simp only [val, if_true, BitVec.toInt_shiftLeft, Nat.shiftLeft_eq]
    rw [hc]
    have h1 : ((2 ^ w : Nat) : Int) ∣ ((a.toNat * 2 ^ c : Nat) : Int) - Int.bmod ((a.toNat * 2 ^ c : Nat) : Int) (2 ^ w) :=
      Int.dvd_self_sub_bmod
    have h2 : ((2 ^ w : Nat) : Int) ∣ (a.toNat : Int) - a.toInt := by
      have := @Int.dvd_self_sub_bmod (a.toNat : Int) (2 ^ w)
      rwa [← BitVec.toInt_eq_toNat_bmod] at this
    obtain ⟨p, hp⟩ := h1
    obtain ⟨q, hq⟩ := h2
    apply Int.emod_eq_zero_of_dvd
    refine ⟨q * 2 ^ c - p, ?_⟩
    push_cast at hp hq ⊢
    have e : (a.toNat : Int) = a.toInt + 2 ^ w * q := by omega
    rw [e] at hp
    rw [Int.mul_sub, ← Int.mul_assoc]
    have : ((a.toInt + 2 ^ w * q) * 2 ^ c : Int) = a.toInt * 2 ^ c + 2 ^ w * q * 2 ^ c := Int.add_mul ..
    rw [e]
    omega

private theorem shr_div {v : Int} {c : Nat} : (v / 2 ^ c) * 2 ^ c ≤ v ∧ v < (v / 2 ^ c + 1) * 2 ^ c := by
  have hp : (0 : Int) < 2 ^ c := Int.pow_pos (by decide)
  have h := Int.emod_add_mul_ediv v (2 ^ c)
  have h1 := Int.emod_nonneg v (b := 2 ^ c) (by omega)
  have h2 := Int.emod_lt_of_pos v hp
  rw [Int.add_mul, Int.mul_comm (v / 2 ^ c)]
  omega

private theorem shrOf_sshr {w : Nat} (a : BitVec w) (c : Nat) : ShrOf true a c (a.sshiftRight c) := by
  unfold ShrOf
  simp only [val, if_true, BitVec.toInt_sshiftRight, Int.shiftRight_eq_div_pow]
  have := @shr_div a.toInt c
  push_cast
  exact this

private theorem shrOf_ushr {w : Nat} (a : BitVec w) (c : Nat) : ShrOf false a c (a >>> c) := by
  unfold ShrOf
  simp only [val, Bool.false_eq_true, if_false, BitVec.toNat_ushiftRight, Nat.shiftRight_eq_div_pow]
  have := @shr_div a.toNat c
  push_cast
  exact this

private theorem countReg_eq {c : Nat} (h : c < 32) : countReg (cvtsi32 c) = c := by
  have : ∀ c < 32, countReg (cvtsi32 (c : Nat)) = c := by decide +kernel
  exact this c h

/-- `v << c` and `v >> c` of the SSE vectors with an `int` count. -/
theorem C91_sse {w : Nat} (_hw : IntWidth w) (sgn : Bool) (x : M128) {c : Nat} (hc : c < 32) {i : Nat}
    (hi : w * (i + 1) ≤ 128) :
    ShlOf sgn (lane w x i) c (lane w (sseShl w x c) i) ∧ ShrOf sgn (lane w x i) c (lane w (sseShr sgn w x c) i) := by
  unfold sseShl sseShr
  rw [countReg_eq hc]
  refine ⟨?_, ?_⟩
  · unfold slliEpi
    rw [lane_map1 _ _ hi]; exact shlOf_shl ..
  · cases sgn
    · rw [if_neg Bool.false_ne_true]; unfold srliEpi; rw [lane_map1 _ _ hi]; exact shrOf_ushr ..
    · rw [if_pos rfl]; unfold sraiEpi; rw [lane_map1 _ _ hi]; exact shrOf_sshr ..

private theorem lane_avxHalves {w : Nat} (hw : IntWidth w) (avx2 : Bool) (g : BitVec w → BitVec w) (x : M256) {i : Nat}
    (hi : w * (i + 1) ≤ 256) : lane w (avxHalves avx2 (map1 w g) (map1 w g) x) i = g (lane w x i) := by
  unfold avxHalves
  cases avx2
  · rw [if_neg Bool.false_ne_true]
    obtain ⟨k, hk, hi'⟩ := hw.halves hi
    rw [lane_concat128 hk _ _ hi']
    have room : ∀ j, j < k → w * (j + 1) ≤ 128 := fun j hj => hk ▸ Nat.mul_le_mul_left _ hj
    split
    · rename_i h; rw [lane_map1 _ _ (room i h), lane_lo128 hk _ h]
    · rename_i h
      rw [lane_map1 _ _ (room _ (by omega)), lane_hi128 hk _ (by omega)]
      congr 2; omega
  · rw [if_pos rfl, lane_map1 _ _ hi]

/-- `v << c` and `v >> c` of the AVX vectors with an `int` count. -/
theorem C91_avx (avx2 : Bool) {w : Nat} (hw : IntWidth w) (sgn : Bool) (x : M256) {c : Nat} (hc : c < 32) {i : Nat}
    (hi : w * (i + 1) ≤ 256) :
    ShlOf sgn (lane w x i) c (lane w (avxShl avx2 w x c) i) ∧
    ShrOf sgn (lane w x i) c (lane w (avxShr avx2 sgn w x c) i) := by
  unfold avxShl avxShr
  rw [countReg_eq hc]
  refine ⟨?_, ?_⟩
  · rw [show lane w (avxHalves avx2 (fun a => slliEpi w a c) (fun a => slliEpi w a c) x) i = lane w x i <<< c from
      lane_avxHalves hw avx2 (· <<< c) x hi]
    exact shlOf_shl ..
  · cases sgn
    · rw [if_neg Bool.false_ne_true,
        show lane w (avxHalves avx2 (fun a => srliEpi w a c) (fun a => srliEpi w a c) x) i = lane w x i >>> c from
        lane_avxHalves hw avx2 (· >>> c) x hi]
      exact shrOf_ushr ..
    · rw [if_pos rfl,
        show lane w (avxHalves avx2 (fun a => sraiEpi w a c) (fun a => sraiEpi w a c) x) i = (lane w x i).sshiftRight c
        from lane_avxHalves hw avx2 (·.sshiftRight c) x hi]
      exact shrOf_sshr ..

/-- -5 >> 1 is -3, and counts past the width of a 16 bit entry are fine. -/
example : IntWidth 16 ∧ (20 : Nat) < 32 ∧ lane 16 (sseShr true 16 (set1 16 0xfffb#16) 1) 3 = 0xfffd#16 :=
  ⟨.inl rfl, by decide, by decide +kernel⟩

/-! ### Shifts by a vector -/

private theorem shiftCount_val {sgn : Bool} {w : Nat} {b : BitVec w} {c : Nat} (hb : val sgn b = c) (hc : c < 32) :
    shiftCount sgn b = some c := by
  unfold shiftCount
  have : (if sgn = true then b.toInt else (b.toNat : Int)) = c := hb
  simp only [this]
  rw [if_pos ⟨by omega, by omega⟩]; simp

private theorem cShl_some {w : Nat} (hw : IntWidth w) {sgn : Bool} {a b : BitVec w} {c : Nat} (hb : val sgn b = c)
    (hc : c < 32) : ∃ r, cShl sgn a b = some r ∧ ShlOf sgn a c r := by
  refine ⟨(promote sgn a <<< c).setWidth w, ?_, ?_⟩
  · unfold cShl; rw [shiftCount_val hb hc]; rfl
  · have e : (promote sgn a <<< c).setWidth w = a <<< c := by
      unfold promote
      apply BitVec.eq_of_getLsbD_eq
      intro j hj
      have hw32 : w ≤ 32 := by rcases hw with rfl | rfl <;> decide
      cases sgn
      · rw [if_neg Bool.false_ne_true]
        simp [-BitVec.getLsbD_eq_getElem, BitVec.getLsbD_setWidth, BitVec.getLsbD_shiftLeft, hj, show j < 32 by omega,
          show j - c < 32 by omega]
      · rw [if_pos rfl]
        simp only [BitVec.getLsbD_setWidth, BitVec.getLsbD_shiftLeft, BitVec.getLsbD_signExtend, hj,
          show j < 32 by omega, show j - c < 32 by omega, show j - c < w by omega, if_true, decide_true, Bool.true_and]
    rw [e]; exact shlOf_shl ..

private theorem cShr_some {w : Nat} (hw : IntWidth w) {sgn : Bool} {a b : BitVec w} {c : Nat} (hb : val sgn b = c)
    (hc : c < 32) : ∃ r, cShr sgn a b = some r ∧ ShrOf sgn a c r := by
  refine ⟨(if w = 32 ∧ sgn = false then promote sgn a >>> c else (promote sgn a).sshiftRight c).setWidth w, ?_, ?_⟩
  · unfold cShr; rw [shiftCount_val hb hc]; rfl
  · have hw32 : w ≤ 32 := by rcases hw with rfl | rfl <;> decide
    cases sgn
    · have e : (if w = 32 ∧ false = false then promote false a >>> c else (promote false a).sshiftRight c).setWidth w =
          a >>> c := by
        unfold promote
        rw [if_neg Bool.false_ne_true]
        apply BitVec.eq_of_toNat_eq
        have ha := a.isLt
        rcases hw with rfl | rfl
        · rw [if_neg (by decide)]
          have hm : (a.zeroExtend 32).msb = false := by
            rw [BitVec.msb_eq_decide]; simp; omega
          rw [BitVec.sshiftRight_eq_of_msb_false hm]
          simp only [BitVec.toNat_setWidth, BitVec.toNat_ushiftRight, Nat.shiftRight_eq_div_pow, BitVec.zeroExtend]
          have : a.toNat / 2 ^ c ≤ a.toNat := Nat.div_le_self ..
          rw [Nat.mod_eq_of_lt (a := a.toNat) (by omega), Nat.mod_eq_of_lt (by omega)]
        · rw [if_pos ⟨rfl, rfl⟩]; simp
      rw [e]; exact shrOf_ushr ..
    · have e : (if w = 32 ∧ true = false then promote true a >>> c else (promote true a).sshiftRight c).setWidth w =
          a.sshiftRight c := by
        unfold promote
        rw [if_neg (by simp), if_pos rfl]
        apply BitVec.eq_of_getLsbD_eq
        intro j hj
        simp only [BitVec.getLsbD_setWidth, BitVec.getLsbD_sshiftRight, BitVec.getLsbD_signExtend, hj, decide_true,
          Bool.true_and, BitVec.msb_signExtend]
        have h0 : 0 < w := by omega
        by_cases h1 : c + j < w
        · simp [h1, show c + j < 32 by omega, show ¬ 32 ≤ j by omega, show ¬ w ≤ j by omega]
        · have hm : a.msb = a.getLsbD (w - 1) := BitVec.msb_eq_getLsbD_last a
          by_cases h2 : c + j < 32
          · simp [h1, h2, show ¬ 32 ≤ j by omega, show ¬ w ≤ j by omega]
          · rcases hw with rfl | rfl
            · simp [h1, h2, show ¬ 32 ≤ j by omega, hm]; omega
            · rw [hm]; simp [h2, show ¬ 32 ≤ j by omega, BitVec.getMsbD_eq_getLsbD]
      rw [e]; exact shrOf_sshr ..

private theorem generate_lanes {n w : Nat} {f : Nat → Option (BitVec w)} {P : Nat → BitVec w → Prop}
    (h : ∀ i, i < n / w → ∃ r, f i = some r ∧ P i r) :
    ∃ r : BitVec n, generateOpt w f = some r ∧ ∀ i, i < n / w → w * (i + 1) ≤ n → P i (lane w r i) := by
  refine ⟨ofLanes w fun i => (f i).getD 0#w, ?_, fun i hi hn => ?_⟩
  · unfold generateOpt
    rw [if_pos]
    intro i hi
    obtain ⟨r, e, _⟩ := h i hi
    rw [e]; rfl
  · obtain ⟨r, e, p⟩ := h i hi
    rw [lane_ofLanes _ hn, e]; exact p

/-- The counts of all entries are numbers `c i` that are valid. -/
def Counts {n : Nat} (sgn : Bool) (w : Nat) (s : BitVec n) (c : Nat → Nat) (bound : Nat) : Prop :=
  ∀ i, w * (i + 1) ≤ n → val sgn (lane w s i) = c i ∧ c i < bound

private theorem fits {w n i : Nat} (hw : IntWidth w) (hn : n = 128 ∨ n = 256) (h : i < n / w) : w * (i + 1) ≤ n := by
  rcases hw with rfl | rfl <;> rcases hn with rfl | rfl <;> omega

private theorem fits' {w n i : Nat} (hw : IntWidth w) (hn : n = 128 ∨ n = 256) (h : w * (i + 1) ≤ n) : i < n / w := by
  rcases hw with rfl | rfl <;> rcases hn with rfl | rfl <;> omega

private theorem vec_generic {n w : Nat} (hw : IntWidth w) (hn : n = 128 ∨ n = 256) {sgn : Bool} {x s : BitVec n}
    {c : Nat → Nat} (hc : Counts sgn w s c 32) :
    (∃ r : BitVec n, (generateOpt w fun i => cShl sgn (lane w x i) (lane w s i)) = some r ∧
      ∀ i, w * (i + 1) ≤ n → ShlOf sgn (lane w x i) (c i) (lane w r i)) ∧
    (∃ r : BitVec n, (generateOpt w fun i => cShr sgn (lane w x i) (lane w s i)) = some r ∧
      ∀ i, w * (i + 1) ≤ n → ShrOf sgn (lane w x i) (c i) (lane w r i)) := by
  constructor
  · obtain ⟨r, e, h⟩ := generate_lanes (n := n) (f := fun i => cShl sgn (lane w x i) (lane w s i))
      (P := fun i r => ShlOf sgn (lane w x i) (c i) r)
      fun i hi => cShl_some hw (hc i (fits hw hn hi)).1 (hc i (fits hw hn hi)).2
    exact ⟨r, e, fun i hi => h i (fits' hw hn hi) hi⟩
  · obtain ⟨r, e, h⟩ := generate_lanes (n := n) (f := fun i => cShr sgn (lane w x i) (lane w s i))
      (P := fun i r => ShrOf sgn (lane w x i) (c i) r)
      fun i hi => cShr_some hw (hc i (fits hw hn hi)).1 (hc i (fits hw hn hi)).2
    exact ⟨r, e, fun i hi => h i (fits' hw hn hi) hi⟩

private theorem toNat_of_val {sgn : Bool} {b : BitVec 32} {c : Nat} (hb : val sgn b = c) (hc : c < 32) : b.toNat = c := by
  have := b.isLt
  cases sgn
  · simp only [val, Bool.false_eq_true, if_false] at hb; omega
  · simp only [val, if_true, BitVec.toInt_eq_toNat_cond] at hb
    split at hb <;> omega

private theorem vec_avx2 {n : Nat} {sgn : Bool} {x s : BitVec n} {c : Nat → Nat} (hc : Counts sgn 32 s c 32) :
    (∀ i, 32 * (i + 1) ≤ n → ShlOf sgn (lane 32 x i) (c i) (lane 32 (sllvEpi 32 x s) i)) ∧
    (∀ i, 32 * (i + 1) ≤ n → ShrOf sgn (lane 32 x i) (c i)
      (lane 32 (if sgn then sravEpi 32 x s else srlvEpi 32 x s) i)) := by
  constructor <;> intro i hi
  · unfold sllvEpi
    rw [lane_map2 _ _ _ hi, toNat_of_val (hc i hi).1 (hc i hi).2]; exact shlOf_shl ..
  · have e := toNat_of_val (hc i hi).1 (hc i hi).2
    cases sgn
    · rw [if_neg Bool.false_ne_true]; unfold srlvEpi; rw [lane_map2 _ _ _ hi, e]; exact shrOf_ushr ..
    · rw [if_pos rfl]; unfold sravEpi; rw [lane_map2 _ _ _ hi, e]; exact shrOf_sshr ..

private theorem low_byte {w : Nat} (hw : IntWidth w) {sgn : Bool} {b : BitVec w} {c : Nat} (hb : val sgn b = c)
    (hc : c < w) : (b.setWidth 8).toInt = c ∧ ((-b).setWidth 8).toInt = -(c : Int) := by
  have hn : b.toNat = c := by
    have := b.isLt
    rcases hw with rfl | rfl <;> cases sgn <;> simp only [val, Bool.false_eq_true, if_false, if_true,
      BitVec.toInt_eq_toNat_cond] at hb <;> (try split at hb) <;> omega
  have hb' : b = BitVec.ofNat w c := BitVec.eq_of_toNat_eq (by
    rw [hn, BitVec.toNat_ofNat, Nat.mod_eq_of_lt]; rcases hw with rfl | rfl <;> omega)
  rw [hb']
  rcases hw with rfl | rfl
  · have : ∀ c < 16, ((BitVec.ofNat 16 c).setWidth 8).toInt = (c : Int) ∧
        ((-BitVec.ofNat 16 c).setWidth 8).toInt = -(c : Int) := by decide +kernel
    exact this c hc
  · have : ∀ c < 32, ((BitVec.ofNat 32 c).setWidth 8).toInt = (c : Int) ∧
        ((-BitVec.ofNat 32 c).setWidth 8).toInt = -(c : Int) := by decide +kernel
    exact this c hc

private theorem vec_xop {w : Nat} (hw : IntWidth w) (I : Isa) {sgn : Bool} {u x s : M128} {c : Nat → Nat}
    (hc : Counts sgn w s c w) :
    (∀ i, w * (i + 1) ≤ 128 → ShlOf sgn (lane w x i) (c i) (lane w (xopShift sgn w u x s) i)) ∧
    (∀ i, w * (i + 1) ≤ 128 → ShrOf sgn (lane w x i) (c i) (lane w (xopShift sgn w u x (vNeg I w s)) i)) := by
  have hpos : 0 < w := by rcases hw with rfl | rfl <;> decide
  constructor <;> intro i hi
  · obtain ⟨h1, h2⟩ := hc i hi
    unfold xopShift
    rw [lane_ofLanes _ hi]
    simp only [(low_byte hw h1 h2).1]
    rw [if_pos ⟨by omega, by omega⟩]
    simpa using shlOf_shl sgn (lane w x i) (c i)
  · obtain ⟨h1, h2⟩ := hc i hi
    unfold xopShift
    rw [lane_ofLanes _ hi]
    simp only [lane_vNeg I hpos hi, (low_byte hw h1 h2).2]
    by_cases h0 : c i = 0
    · rw [h0, if_pos ⟨by omega, by omega⟩]
      unfold ShrOf; simp; omega
    · rw [if_neg (by omega), if_pos ⟨by omega, by omega⟩]
      rw [show (- -(c i : Int)).toNat = c i by omega]
      cases sgn
      · rw [if_neg Bool.false_ne_true]; exact shrOf_ushr ..
      · rw [if_pos rfl]; exact shrOf_sshr ..

/-- `v << s` and `v >> s` of the SSE vectors by a vector of counts, each of them valid. -/
theorem C91_sse_vector (I : Isa) (isa : ShiftIsa) {w : Nat} (hw : IntWidth w) (sgn : Bool) (u x s : M128)
    {c : Nat → Nat} (hc : Counts sgn w s c (if isa = .xop then w else 32)) :
    (∃ r, sseShlVec isa sgn w u x s = some r ∧
      ∀ i, w * (i + 1) ≤ 128 → ShlOf sgn (lane w x i) (c i) (lane w r i)) ∧
    (∃ r, sseShrVec I isa sgn w u x s = some r ∧
      ∀ i, w * (i + 1) ≤ 128 → ShrOf sgn (lane w x i) (c i) (lane w r i)) := by
  cases isa with
  | xop =>
    rw [if_pos rfl] at hc
    exact ⟨⟨_, rfl, (vec_xop hw I hc).1⟩, ⟨_, rfl, (vec_xop hw I hc).2⟩⟩
  | none => exact vec_generic hw (.inl rfl) (by simpa using hc)
  | avx2 =>
    have hc' : Counts sgn w s c 32 := by simpa using hc
    unfold sseShlVec sseShrVec
    by_cases h32 : w = 32
    · subst h32
      exact ⟨⟨_, rfl, (vec_avx2 hc').1⟩, ⟨_, rfl, (vec_avx2 hc').2⟩⟩
    · simp only [if_neg h32]
      exact vec_generic hw (.inl rfl) hc'

/-- The same for the AVX vectors, if AVX2 is enabled. -/
theorem C91_avx_vector_partial {w : Nat} (hw : IntWidth w) (sgn : Bool) (x s : M256) {c : Nat → Nat}
    (hc : Counts sgn w s c 32) :
    (∃ r, avxShlVec true sgn w x s = some r ∧
      ∀ i, w * (i + 1) ≤ 256 → ShlOf sgn (lane w x i) (c i) (lane w r i)) ∧
    (∃ r, avxShrVec true sgn w x s = some r ∧
      ∀ i, w * (i + 1) ≤ 256 → ShrOf sgn (lane w x i) (c i) (lane w r i)) := by
  unfold avxShlVec avxShrVec
  by_cases h32 : w = 32
  · subst h32
    exact ⟨⟨_, rfl, (vec_avx2 hc).1⟩, ⟨_, rfl, (vec_avx2 hc).2⟩⟩
  · simp only [if_pos, if_neg h32]
    exact vec_generic hw (.inr rfl) hc

/-- Without AVX2 shifting an AVX integer vector by a vector is undefined behaviour, whatever the counts. -/
theorem C91_avx_vector_violated (sgn : Bool) (w : Nat) (x s : M256) :
    avxShlVec false sgn w x s = none ∧ avxShrVec false sgn w x s = none := ⟨rfl, rfl⟩

/-- Counts 0 to 7 in a vector of shorts. -/
example : Counts true 16 (ofLanes 16 fun i => BitVec.ofNat 16 i : M128) (fun i => i) 16 := by
  intro i hi
  have : ∀ i < 8, val true (lane 16 (ofLanes 16 fun i => BitVec.ofNat 16 i : M128) i) = (i : Int) := by decide +kernel
  exact ⟨this i (by omega), show i < 16 by omega⟩

/-- The compound assignments store and return the result of the shift. -/
theorem C91_assign {n : Nat} (r : Option (BitVec n)) (v : BitVec n) :
    shiftAssign r = some (v, v) ↔ r = some v := by
  unfold shiftAssign
  cases r <;> simp

/-- Scalar vectors: the built-in operator, for valid counts. -/
theorem C91_scalar {w : Nat} (hw : IntWidth w) {sgn : Bool} {a b : BitVec w} {c : Nat} (hb : val sgn b = c) (hc : c < 32) :
    (∃ r, cShl sgn a b = some r ∧ ShlOf sgn a c r) ∧ (∃ r, cShr sgn a b = some r ∧ ShrOf sgn a c r) :=
  ⟨cShl_some hw hb hc, cShr_some hw hb hc⟩

example : val true 7#16 = (7 : Nat) ∧ (7 : Nat) < 32 := by decide

end Vc.Prop
