import Verif.Model.TieGather
import Verif.Prop.Subscript
import Verif.Prop.Interleave

/-!
# C106: `Vc::tie(v0, v1, ...) = data[indexes]...`

Vector `j` receives for component `l` the entry `j` positions after the object that the expression names for
component `l`.
-/

namespace Vc.Prop
open Vc.Model Vc.Spec Vc.Lemma

variable {V : ILVec} {k : Nat} {m : Int → Option (BitVec V.width)} {base : Int} {size : Nat}
  {idx : Nat → BitVec 32} {steps : List Step} {vs : List (BitVec V.bits)}

private theorem fits_one (f : Nat → BitVec 32) (n : Nat) : Fits 1 f n := by
  intro l _
  have h1 := (f l).toInt_lt
  have h2 := (f l).le_toInt
  simp only [Int.ofNat_eq_natCast, Int.natCast_one, Int.mul_one]
  omega

/-- What a read with struct size 1 returns. -/
private theorem read_one (hk : 2 ≤ k ∧ k ≤ 8) {m' : ILMem V.width} {f : Nat → BitVec 32}
    (hr : ilRead V 1 k m' 0 f = some vs) :
    vs.length = k ∧ ∀ l, l < V.size → ∀ j, j < k →
      m' ((f l).toInt + Int.ofNat j) = some (lane V.width (vs.getD j 0) l) := by
  obtain ⟨h1, h2⟩ := C32_read hk (fits_one f V.size) hr
  refine ⟨h1, fun l hl j hj => ?_⟩
  have := h2 l hl j hj
  simpa [member, structs] using this

private theorem sub_facts (hs : 0 < size) (hp : Positive steps) (hd : Divides size steps) :
    0 < (subscript base size idx steps).den ∧ 0 < (subscript base size idx steps).esize ∧
    (subscript base size idx steps).esize = endSize size steps ∧
    (subscript base size idx steps).num * (subscript base size idx steps).esize =
      endStride size steps * (subscript base size idx steps).den := by
  obtain ⟨v, hi, he, -, -⟩ := sub_final 0 steps (subStart base size idx) size (indexValue true (idx 0))
    ⟨by simp [subStart], hs, by simp [subStart], (ofInt_indexValue true (idx 0)).symm⟩ hp hd
  exact ⟨hi.den, hi.esize, he, hi.ratio⟩

/-- The claim holds if the objects are the entries of an array, or more than 8 bytes apart. The other hypotheses are
those of C59: the sizes of nested arrays divide their distance and the offsets fit into `int`. -/
theorem C106_tie_partial (hk : 2 ≤ k ∧ k ≤ 8) (hs : 0 < size) (hp : Positive steps) (hd : Divides size steps)
    (hst : 8 < endStride size steps ∨ endStride size steps = endSize size steps) {n : Nat → Int}
    (hn : ∀ l, l < V.size → ElementOffset true size idx steps l (n l))
    (hr : ∀ l, l < V.size → Representable 32 true (n l))
    (ht : tieAssign V k m (subscript base size idx steps) = some vs) :
    vs.length = k ∧ ∀ l, l < V.size → ∀ j, j < k →
      m (subscriptAddress base size (fun l => indexValue true (idx l)) steps l +
        Int.ofNat j * Int.ofNat (endSize size steps)) = some (lane V.width (vs.getD j 0) l) := by
  obtain ⟨f1, f2, f3, f4⟩ := sub_facts (base := base) (idx := idx) hs hp hd
  have addr : ∀ l, l < V.size → ∀ x, applyScale (subscript base size idx steps).num
      (subscript base size idx steps).den ((subscript base size idx steps).idx l) = some x →
      (subscript base size idx steps).addr + x.toInt * Int.ofNat (subscript base size idx steps).esize =
        subscriptAddress base size (fun l => indexValue true (idx l)) steps l := by
    intro l hl x hx
    refine C59_scatter_address_partial (sgn := true) (by decide) hs hp hd (hn l hl) (hr l hl) ?_
    unfold scatterAddress
    rw [hx]
    rfl
  rw [← f3]
  generalize subscript base size idx steps = o at *
  have fin : ∀ f : Nat → BitVec 32, (∀ l, applyScale o.num o.den (o.idx l) = some (f l)) →
      ilRead V 1 k (fun a => m (o.addr + a * Int.ofNat o.esize)) 0 f = some vs → vs.length = k ∧
      ∀ l, l < V.size → ∀ j, j < k →
        m (subscriptAddress base size (fun l => indexValue true (idx l)) steps l + Int.ofNat j * Int.ofNat o.esize) =
          some (lane V.width (vs.getD j 0) l) := by
    intro f hf he
    obtain ⟨h1, h2⟩ := read_one hk he
    refine ⟨h1, fun l hl j hj => ?_⟩
    rw [← addr l hl (f l) (hf l), ← h2 l hl j hj]
    show m _ = m _
    congr 1
    rw [Int.add_mul]
    omega
  unfold tieAssign at ht
  split at ht
  case isFalse => cases ht
  split at ht
  · split at ht
    case isFalse => cases ht
    rename_i hx hsome
    refine fin _ (fun l => ?_) ht
    unfold applyScale at hsome ⊢
    by_cases h1 : o.num = o.den
    · simp [h1]
    · rw [if_neg h1] at hsome ⊢
      by_cases h2 : o.num % o.den = 0
      · simp [h2]
      · simp [h2] at hsome
  · rename_i hx
    refine fin o.idx (fun l => ?_) ht
    have h1 : o.num % o.den = 0 ∧ o.num / o.den * o.esize ≤ 8 := by
      simpa [needExplicitScaling] using hx
    have h2 : o.num / o.den * o.esize = endStride size steps := by
      refine Nat.eq_of_mul_eq_mul_right f1 ?_
      rw [← f4, Nat.mul_right_comm, Nat.div_mul_cancel (Nat.dvd_of_mod_eq_zero h1.1)]
    have h3 : o.num = o.den := by
      have : endStride size steps = o.esize := by
        rcases hst with h | h
        · omega
        · rw [h, f3]
      rw [this, Nat.mul_comm o.esize] at f4
      exact Nat.eq_of_mul_eq_mul_right f2 f4
    unfold applyScale
    rw [if_pos h3]

/-- For objects that are at most 8 bytes apart the entries are those at distance `indexes[l]` from the first object,
whatever the distance of the objects is. -/
theorem C106_small_structs (hk : 2 ≤ k ∧ k ≤ 8) (u off : Nat) (hu : 0 < u) (hd : size % u = 0) (h8 : size ≤ 8)
    (ht : tieAssign V k m (subscript base size idx [.member off u]) = some vs) :
    vs.length = k ∧ ∀ l, l < V.size → ∀ j, j < k →
      m (base + Int.ofNat off + ((idx l).toInt + Int.ofNat j) * Int.ofNat u) =
        some (lane V.width (vs.getD j 0) l) := by
  have hg : Nat.gcd size u = u := Nat.gcd_eq_right (Nat.dvd_of_mod_eq_zero hd)
  have hx : needExplicitScaling (subscript base size idx [.member off u]) = false := by
    have : size / u * u = size := Nat.div_mul_cancel (Nat.dvd_of_mod_eq_zero hd)
    simp [needExplicitScaling, subscript, subStep, subStart, ratioMultiply, hg, Nat.div_self hu, this, h8, Nat.mod_one]
  unfold tieAssign at ht
  rw [hx] at ht
  split at ht
  case isFalse => cases ht
  simp only [Bool.false_eq_true, if_false] at ht
  obtain ⟨h1, h2⟩ := read_one hk ht
  exact ⟨h1, fun l hl j hj => h2 l hl j hj⟩

/-- A memory of floats that hold their own address, for 80 bytes. -/
def tieMem : Int → Option (BitVec 32) := fun a => if 0 ≤ a ∧ a < 80 then some (BitVec.ofInt 32 a) else none

/-- `struct P { float x, y; }`: `Vc::tie(a, b) = data[indexes][&P::x]` with the index 3 reads the floats at bytes 12 and
16, which are `data[1].y` and `data[2].x`; `data[3]` is at byte 24. -/
theorem C106_tie_violated :
    (tieAssign (.scalar 32) 2 tieMem (subscript 0 8 (fun _ => 3) [.member 0 4])).map (·.map BitVec.toNat) =
        some [12, 16] ∧
      subscriptAddress 0 8 (fun _ => 3) [.member 0 4] 0 = 24 ∧ tieMem 24 = some 24#32 ∧ tieMem 28 = some 28#32 := by
  decide

/-- With three members (12 bytes) the right entries are read, and from an array of floats. -/
example : (tieAssign (.scalar 32) 3 tieMem (subscript 0 12 (fun _ => 3) [.member 0 4])).map (·.map BitVec.toNat) =
      some [36, 40, 44] ∧
    (tieAssign (.scalar 32) 2 tieMem (subscript 0 4 (fun _ => 3) [])).map (·.map BitVec.toNat) = some [12, 16] ∧
    (8 < endStride 12 [.member 0 4] ∧ endStride 4 [] = endSize 4 []) ∧ Positive [.member 0 4] ∧
    ElementOffset true 12 (fun _ => (3 : BitVec 32)) [.member 0 4] 0 9 := by
  refine ⟨by decide, by decide, by decide, ⟨by decide, trivial⟩, ?_⟩
  show (3 : BitVec 32).toInt * 12 + 0 = 9 * 4
  decide

end Vc.Prop
