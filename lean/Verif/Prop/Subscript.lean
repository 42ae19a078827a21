import Verif.Lemma.Subscript
import Verif.Lemma.InterleaveP
import Verif.Prop.SimdArrayMove
import Verif.Prop.ExCfg

/-!
# C47, C59: index scaling

Interleaved memory multiplies the indexes with the struct size, by shifts or multiplications. Subscript
expressions `data[indexes][&S::member][i]...` collect the scale factor at compile time. The theorems
compare the addresses with those of the objects that the expression names in C++ (`Spec.subscriptAddress`).
-/

namespace Vc.Prop
open Vc.Model Vc.Spec Vc.Lemma

/-! ## Interleaved memory -/

/-- `wrapper[idx]`: the scaled index is the offset of the struct, for every struct size. -/
theorem C47_interleaved_scaling (S : Nat) (x : BitVec 32) (h1 : -2 ^ 31 ≤ x.toInt * Int.ofNat S)
    (h2 : x.toInt * Int.ofNat S < 2 ^ 31) : (scaleIndex S x).toInt = x.toInt * Int.ofNat S :=
  scaleIndex_toInt S x h1 h2

example : (scaleIndex 8 (-3)).toInt = -24 ∧ (scaleIndex 7 5).toInt = 35 := by decide

/-- `wrapper[first]`: index `l` of the successive entries is the offset of struct `first + l`. -/
theorem C47_successive_scaling (S : Nat) (first : BitVec 64) (l : Nat)
    (h : (first.toNat + l) * S < 2 ^ 64) :
    (successive S (scaleFirst S first) l).toNat = (first.toNat + l) * S :=
  successive_toNat S first l h

example : (successive 16 (scaleFirst 16 2) 3).toNat = 80 := by decide

/-- The check of debug builds accepts exactly the index vectors without duplicates. `natSort` is the
`sorted()` of the native vectors (C31). -/
theorem C47_unique_check {C : Cfg} (hC : C.Valid) (natSort : List (BitVec 32) → List (BitVec 32))
    (hs : ∀ l, IsSorted (fun a b : BitVec 32 => a.sle b) l (natSort l)) (n : Nat) (hn : 1 ≤ n)
    (x : SA (BitVec 32)) (hx : SA.WF C n x) :
    ∃ r, indexesUnique C natSort n x = some r ∧ (r = true ↔ x.toList.Nodup) := by
  have hle : LinOrd (fun a b : BitVec 32 => a.sle b) := by
    refine ⟨?_, ?_, ?_⟩
    · intro a b c h1 h2
      simp only [BitVec.sle_iff_toInt_le] at *
      omega
    · intro a b
      simp only [Bool.or_eq_true, BitVec.sle_iff_toInt_le]
      omega
    · intro a b h1 h2
      simp only [BitVec.sle_iff_toInt_le] at *
      exact BitVec.eq_of_toInt_eq (by omega)
  have htop : ∀ a : BitVec 32, a.sle (BitVec.ofInt 32 (2 ^ 31 - 1)) = true := by
    intro a
    rw [BitVec.sle_iff_toInt_le]
    have : (BitVec.ofInt 32 (2 ^ 31 - 1)).toInt = 2 ^ 31 - 1 := by decide
    rw [this]
    have := a.toInt_lt
    omega
  obtain ⟨t, e1, w1, s1⟩ := C23_sorted hC (0 : BitVec 32) (BitVec.ofInt 32 (2 ^ 31 - 1))
    (fun a b => a.sle b) hle htop natSort hs n hn x hx
  obtain ⟨r, e2, w2, t2⟩ := C19_rotated hC (0 : BitVec 32) n hn 1 t w1
  obtain ⟨e, e3, w3, t3⟩ := zipWith_wf hC (fun a b : BitVec 32 => a == b) n hn t r w1 w2
  refine ⟨n == 1 || e.isEmpty, ?_, ?_⟩
  · unfold indexesUnique
    simp only [e1, e2, e3, Option.bind_eq_bind, Option.bind_some]
    rfl
  · have hlen : x.toList.length = n := WF.length hC hn hx
    have hlt : t.toList.length = n := WF.length hC hn w1
    rw [← s1.2.nodup_iff]
    by_cases h1 : n = 1
    · subst h1
      simp only [beq_self_eq_true, Bool.true_or, true_iff]
      match ht : t.toList, hlt with
      | [a], _ => simp
    · rw [beq_false_of_ne h1, Bool.false_or, isEmpty_iff, t3, t2]
      exact sorted_nodup_iff 0 hle s1.1 (by omega)

/-- The hypotheses hold for the indexes of eight floats, with merge sort as native sort. -/
example : ∃ (x : SA (BitVec 32)) (natSort : List (BitVec 32) → List (BitVec 32)),
    SA.WF exCfg 8 x ∧ x.toList = [5, 0, 1, 7, 3, 8, 2, 0] ∧
    ∀ l, IsSorted (fun a b : BitVec 32 => a.sle b) l (natSort l) := by
  obtain ⟨x, wx, tx⟩ := exists_of_lanes exCfg_valid [5, 0, 1, 7, 3, 8, 2, (0 : BitVec 32)] (by decide)
  refine ⟨x, fun l => l.mergeSort fun a b => a.sle b, wx, tx,
    fun l => ⟨List.pairwise_mergeSort ?_ ?_ l, List.mergeSort_perm l _⟩⟩
  · intro a b c h1 h2
    simp only [BitVec.sle_iff_toInt_le] at *
    omega
  · intro a b
    simp only [Bool.or_eq_true, BitVec.sle_iff_toInt_le]
    omega

/-! ## Subscript expressions -/

variable {b : Nat} {base : Int} {size l : Nat} {idx : Nat → BitVec b} {steps : List Step} {hw sgn : Bool}

/-- Number of elements of the final type that the index-dependent part of the address amounts to. -/
def ElementOffset (sgn : Bool) (size : Nat) (idx : Nat → BitVec b) (steps : List Step) (l : Nat)
    (n : Int) : Prop :=
  indexValue sgn (idx l) * Int.ofNat size + varBytes l steps = n * Int.ofNat (endSize size steps)

private theorem start_inv (hs : 0 < size) :
    SubInv l (subStart base size idx) size (indexValue sgn (idx l)) :=
  ⟨by simp [subStart], hs, by simp [subStart], (ofInt_indexValue sgn (idx l)).symm⟩

/-- A gather from `data[idx]...` accesses for each component the object that the expression names. `hd`:
every nested array that is subscripted with an index vector has elements whose size divides the distance
of the arrays; `hr`: the offset is a value of the index type (and with the gather instructions of AVX2, of
`int`). -/
theorem C59_gather_address_partial (hb : 0 < b) (hs : 0 < size) (hp : Positive steps) (hd : Divides size steps)
    {n : Int} (hn : ElementOffset sgn size idx steps l n)
    (hr : Representable b sgn n ∧ (hw = true → Representable b true n)) {a : Int}
    (ha : gatherAddress hw sgn (subscript base size idx steps) l = some a) :
    a = subscriptAddress base size (fun l => indexValue sgn (idx l)) steps l := by
  obtain ⟨v, hi, he, h3, h4⟩ := sub_final l steps (subStart base size idx) size _
    (start_inv (sgn := sgn) hs) hp hd
  unfold subscriptAddress
  have h4' : (subscript base size idx steps).addr + v * Int.ofNat (endStride size steps) =
    stepAddress l (base + indexValue sgn (idx l) * Int.ofNat size) steps := h4
  rw [← h4']
  have hi' : SubInv l (subscript base size idx steps) (endStride size steps) v := hi
  have he' : (subscript base size idx steps).esize = endSize size steps := he
  generalize subscript base size idx steps = o at *
  have hs0 : 0 < endStride size steps := endStride_pos steps hs hp
  generalize endStride size steps = s at *
  have hev : v * Int.ofNat s = n * Int.ofNat o.esize := by rw [h3, hn, he']
  have hmod : o.num % o.den = 0 := by
    unfold gatherAddress at ha
    by_cases hm : o.num % o.den = 0
    · exact hm
    · have hx : needExplicitScaling o = true := by simp [needExplicitScaling, hm]
      rw [if_pos hx] at ha
      unfold applyScale at ha
      rw [if_neg (by intro e; rw [e, Nat.mod_self] at hm; exact hm rfl), if_neg hm] at ha
      cases ha
  have hsd : s % o.esize = 0 := (ratio_dvd hi'.den hi'.esize hi'.ratio).mp hmod
  have hq := ratio_quot hi'.den hi'.esize hi'.ratio hsd
  have hse : s / o.esize * o.esize = s := Nat.div_mul_cancel (Nat.dvd_of_mod_eq_zero hsd)
  have hnv : v * Int.ofNat (s / o.esize) = n := by
    have h0 : (Int.ofNat o.esize) ≠ 0 := by
      have := hi'.esize
      simp only [Int.ofNat_eq_natCast]; omega
    refine Int.eq_of_mul_eq_mul_right h0 ?_
    rw [← hev, Int.mul_assoc]
    congr 1
    simp only [Int.ofNat_eq_natCast]
    rw [← Int.natCast_mul, hse]
  rw [hev]
  unfold gatherAddress at ha
  by_cases hx : needExplicitScaling o = true
  · rw [if_pos hx] at ha
    have hsc : applyScale o.num o.den (o.idx l) = some (BitVec.ofInt b n) := by
      unfold applyScale
      rw [hi'.idx]
      by_cases h1 : o.num = o.den
      · rw [if_pos h1]
        have : s / o.esize = 1 := by rw [← hq, h1, Nat.div_self hi'.den]
        rw [this] at hnv
        simp at hnv
        rw [hnv]
      · rw [if_neg h1, if_pos hmod, ofInt_mul_ofNat, hq, hnv]
    rw [hsc] at ha
    simp only [Option.map_some, Option.some.injEq] at ha
    rw [← ha]
    congr 2
    cases hw with
    | true => rw [Bool.true_or, indexValue_ofInt (hr.2 rfl) hb]
    | false => rw [Bool.false_or, indexValue_ofInt hr.1 hb]
  · rw [if_neg hx] at ha
    cases hw with
    | true =>
      rw [if_pos rfl] at ha
      by_cases hsc : o.esize * (o.num / o.den) ∈ [1, 2, 4, 8]
      case neg => rw [if_neg hsc] at ha; cases ha
      rw [if_pos hsc, Option.some.injEq] at ha
      rw [← ha, ← hev]
      congr 1
      rw [hq, Nat.mul_comm, hse]
      congr 1
      rw [hi'.idx]
      have hk : 0 < s / o.esize := by
        rcases Nat.eq_zero_or_pos (s / o.esize) with h | h
        · rw [h] at hse; omega
        · exact h
      have := representable_of_mul hk (hnv.symm ▸ hr.2 rfl)
      have := indexValue_ofInt this hb
      simpa [indexValue] using this
    | false =>
      simp only [Bool.false_eq_true, if_false, Option.some.injEq] at ha
      rw [← ha, BitVec.mul_comm, hi'.idx, ofInt_mul_ofNat, hq, hnv, indexValue_ofInt hr.1 hb]

/-- The same for a scatter `data[idx]... = v`. -/
theorem C59_scatter_address_partial (hb : 0 < b) (hs : 0 < size) (hp : Positive steps)
    (hd : Divides size steps) {n : Int} (hn : ElementOffset sgn size idx steps l n)
    (hr : Representable b sgn n) {a : Int}
    (ha : scatterAddress sgn (subscript base size idx steps) l = some a) :
    a = subscriptAddress base size (fun l => indexValue sgn (idx l)) steps l := by
  refine C59_gather_address_partial (hw := false) hb hs hp hd hn ⟨hr, by simp⟩ ?_
  rw [← ha]
  unfold gatherAddress scatterAddress
  by_cases hx : needExplicitScaling (subscript base size idx steps) = true
  · rw [if_pos hx, Bool.false_or]
  · rw [if_neg hx]
    have hm : (subscript base size idx steps).num % (subscript base size idx steps).den = 0 := by
      simp [needExplicitScaling] at hx
      exact hx.1
    have hden : 0 < (subscript base size idx steps).den :=
      (sub_final l steps (subStart base size idx) size _ (start_inv (sgn := sgn) hs) hp hd).choose_spec.1.den
    unfold applyScale
    by_cases h1 : (subscript base size idx steps).num = (subscript base size idx steps).den
    · rw [if_pos h1, h1, Nat.div_self hden]
      simp
    · rw [if_neg h1, if_pos hm]
      simp [BitVec.mul_comm]

/-- Gathers and scatters compile exactly if the size of the final type divides the distance of the
objects, and with gather instructions (`hw`) the distance is a power of two or more than 8 bytes. -/
theorem C59_defined (hs : 0 < size) (hp : Positive steps) (hd : Divides size steps) :
    ((gatherAddress hw sgn (subscript base size idx steps) l).isSome ↔
        endStride size steps % endSize size steps = 0 ∧
          (hw = true → endStride size steps ≤ 8 → endStride size steps ∈ [1, 2, 4, 8])) ∧
      ((scatterAddress sgn (subscript base size idx steps) l).isSome ↔
        endStride size steps % endSize size steps = 0) := by
  obtain ⟨v, hi, he, -, -⟩ := sub_final l steps (subStart base size idx) size _
    (start_inv (sgn := sgn) hs) hp hd
  have hi' : SubInv l (subscript base size idx steps) (endStride size steps) v := hi
  have he' : (subscript base size idx steps).esize = endSize size steps := he
  rw [← he', ← ratio_dvd hi'.den hi'.esize hi'.ratio]
  generalize subscript base size idx steps = o at *
  have hst : o.num % o.den = 0 → o.esize * (o.num / o.den) = endStride size steps := by
    intro hm
    have hsd := (ratio_dvd hi'.den hi'.esize hi'.ratio).mp hm
    rw [ratio_quot hi'.den hi'.esize hi'.ratio hsd, Nat.mul_comm]
    exact Nat.div_mul_cancel (Nat.dvd_of_mod_eq_zero hsd)
  have hap : (applyScale o.num o.den (o.idx l)).isSome ↔ o.num % o.den = 0 := by
    unfold applyScale
    by_cases h1 : o.num = o.den
    · simp [h1]
    · rw [if_neg h1]
      by_cases h2 : o.num % o.den = 0 <;> simp [h2]
  constructor
  · unfold gatherAddress
    by_cases hx : needExplicitScaling o = true
    · rw [if_pos hx, Option.isSome_map, hap]
      constructor
      · intro hm
        refine ⟨hm, fun _ h8 => absurd hx ?_⟩
        have := hst hm
        rw [Nat.mul_comm] at this
        simp [needExplicitScaling, hm, this, h8]
      · exact fun h => h.1
    · rw [if_neg hx]
      have hm : o.num % o.den = 0 := by
        simp [needExplicitScaling] at hx
        exact hx.1
      have h8 : endStride size steps ≤ 8 := by
        have := hst hm
        rw [Nat.mul_comm] at this
        simp [needExplicitScaling, this] at hx
        exact hx.2
      rw [hst hm]
      cases hw
      · simp [hm]
      · simp only [if_true, hm, h8, true_and, true_implies]
        by_cases hin : endStride size steps ∈ [1, 2, 4, 8]
        · rw [if_pos hin]; simp [hin]
        · rw [if_neg hin]; simp [hin]
  · unfold scatterAddress
    rw [Option.isSome_map]
    exact hap

/-- `struct P { double m[3]; float x, y, z[2]; }` (40 bytes): `data[idx][&P::z][idx2]` for `idx[0] = 5` and
`idx2[0] = 1`; the hypotheses hold and the address is `base + 5 * 40 + 32 + 1 * 4`. -/
example : Positive [.member 32 8, .elems (fun _ => 1) 4] ∧
    Divides 40 [.member 32 8, .elems (fun _ => 1) 4] ∧
    ElementOffset true 40 (fun _ => (5 : BitVec 32)) [.member 32 8, .elems (fun _ => 1) 4] 0 51 ∧
    Representable 32 true 51 ∧
    gatherAddress false true (subscript 1000 40 (fun _ => (5 : BitVec 32))
      [.member 32 8, .elems (fun _ => 1) 4]) 0 = some 1236 ∧
    gatherAddress true true (subscript 1000 40 (fun _ => (5 : BitVec 32)) [.member 28 4]) 0 = some 1228 := by
  refine ⟨⟨by decide, by decide, trivial⟩, ⟨by decide, trivial⟩, ?_, ?_, by decide, by decide⟩
  · show (5 : BitVec 32).toInt * 40 + (1 * 4 + 0) = 51 * 4
    decide
  · unfold Representable; decide

/-- Without the hypothesis on the sizes the address can be wrong: `applyScaleAndAdd` rounds the quotient
and does not check it. For an array of `struct { int i; double d[1]; }` with 12 bytes (32 bit ABI),
`data[idx][&S::d][idx2]` with `idx[0] = 1`, `idx2[0] = 0` accesses byte 12, the element is at byte 16. -/
theorem C59_nested_size_violated :
    gatherAddress false true (subscript 0 12 (fun _ => (1 : BitVec 32))
        [.member 4 8, .elems (fun _ => 0) 8]) 0 = some 12 ∧
      subscriptAddress 0 12 (fun _ => 1) [.member 4 8, .elems (fun _ => 0) 8] 0 = 16 := by
  decide

/-- With the gather instructions of AVX2 members of 16 bit in a struct of six bytes cannot be gathered:
`need_explicit_scaling` is false, but 6 is not a scale of the instructions; the scatter is defined. -/
theorem C59_scale_violated (idx : Nat → BitVec 32) (off l : Nat) (base : Int) :
    gatherAddress true true (subscript base 6 idx [.member off 2]) l = none ∧
      (scatterAddress true (subscript base 6 idx [.member off 2]) l).isSome := by
  constructor
  · simp [gatherAddress, needExplicitScaling, subscript, subStep, subStart, ratioMultiply]
  · simp [scatterAddress, applyScale, subscript, subStep, subStart, ratioMultiply]

/-- With the gather instructions of AVX2 unsigned indexes from 2^31 on are taken as negative: for an
array of `float`, `data[idx]` with `uint_v` indexes. -/
theorem C59_unsigned_index_violated :
    gatherAddress true false (subscript 0 4 (fun _ => (0x80000000 : BitVec 32)) []) 0 = some (-2 ^ 33) ∧
      subscriptAddress 0 4 (fun _ => indexValue false (0x80000000 : BitVec 32)) [] 0 = 2 ^ 33 := by
  decide

end Vc.Prop
