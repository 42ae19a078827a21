import Verif.Lemma.InterleaveR
import Verif.Spec.Interleave

/-!
From `Scatters` and `Gathers` to arrays of structs; index scaling.
-/

namespace Vc.Lemma
open Vc.Model Vc.Spec

theorem member_inj {data : Int} {S k : Nat} {e e' : Int} {j j' : Nat} (hk : k ≤ S) (hj : j < k)
    (hj' : j' < k) (h : member data S e j = member data S e' j') : e = e' ∧ j = j' := by
  unfold member at h
  simp only [Int.ofNat_eq_natCast] at h
  have hS : (0 : Int) < S := by omega
  have h1 : e * (S : Int) + j = e' * S + j' := by omega
  have d1 : (e * (S : Int) + j) / S = e := by
    rw [Int.add_comm, Int.add_mul_ediv_right _ _ (by omega), Int.ediv_eq_zero_of_lt (by omega) (by omega)]
    omega
  have d2 : (e' * (S : Int) + j') / S = e' := by
    rw [Int.add_comm, Int.add_mul_ediv_right _ _ (by omega), Int.ediv_eq_zero_of_lt (by omega) (by omega)]
    omega
  have he : e = e' := by rw [← d1, ← d2, h1]
  subst he
  exact ⟨rfl, by omega⟩

/-- `i l` is the offset of struct number `e l`. -/
def Offsets (S size : Nat) (e i : Nat → Int) : Prop := ∀ l, l < size → i l = e l * Int.ofNat S

theorem scatters_some {n w size S : Nat} {f : ILMem w → Option (ILMem w)} {data : Int}
    {i e : Nat → Int} {vs : List (BitVec n)} (h : Scatters size f data i vs)
    (hi : Offsets S size e i) (hk : vs.length ≤ S) (hd : Distinct e size) {m : ILMem w}
    (hm : MembersExist m data S e size vs.length) :
    ∃ m', f m = some m' ∧
      Holds m' data S e size vs.length (fun j l => lane w (vs.getD j 0) l) ∧
      SameOutside m m' data S e size vs.length := by
  obtain ⟨ws, hf, hw⟩ := h
  have hsome : (writes m ws).isSome := by
    rw [writes_isSome]
    intro p hp
    obtain ⟨l, hl, j, hj, rfl⟩ := (hw p).mp hp
    have := hm l hl j hj
    unfold member at this
    rw [← hi l hl] at this
    exact this
  obtain ⟨m', hm'⟩ := Option.isSome_iff_exists.mp hsome
  refine ⟨m', by rw [hf, hm'], ?_, ?_⟩
  · intro l hl j hj
    have hp : (data + i l + Int.ofNat j, lane w (vs.getD j 0) l) ∈ ws := (hw _).mpr ⟨l, hl, j, hj, rfl⟩
    have := writes_get hm' hp (by
      intro q hq hqp
      obtain ⟨l', hl', j', hj', rfl⟩ := (hw q).mp hq
      simp only at hqp ⊢
      rw [hi l hl, hi l' hl'] at hqp
      obtain ⟨he, rfl⟩ := member_inj hk hj' hj hqp
      rw [hd l' l hl' hl he])
    simp only at this
    unfold member
    rw [← hi l hl]
    exact this
  · intro a ha
    refine writes_frame hm' ?_
    intro p hp
    obtain ⟨l, hl, j, hj, rfl⟩ := (hw p).mp hp
    intro e'
    refine ha l hl j hj ?_
    unfold member
    rw [← hi l hl]
    exact e'.symm

theorem scatters_none {n w size S : Nat} {f : ILMem w → Option (ILMem w)} {data : Int}
    {i e : Nat → Int} {vs : List (BitVec n)} (h : Scatters size f data i vs)
    (hi : Offsets S size e i) {m : ILMem w} (hm : ¬ MembersExist m data S e size vs.length) :
    f m = none := by
  obtain ⟨ws, hf, hw⟩ := h
  rw [hf]
  rw [← Option.not_isSome_iff_eq_none]
  intro hs
  rw [writes_isSome] at hs
  refine hm ?_
  intro l hl j hj
  have := hs (data + i l + Int.ofNat j, lane w (vs.getD j 0) l) ((hw _).mpr ⟨l, hl, j, hj, rfl⟩)
  unfold member
  rw [← hi l hl]
  exact this

theorem mapped_iff {w size S s : Nat} {m : ILMem w} {data : Int} {i e : Nat → Int}
    (hi : Offsets S size e i) : Mapped size s m data i ↔ MembersExist m data S e size s := by
  unfold Mapped MembersExist member
  constructor
  · intro h l hl j hj
    rw [← hi l hl]; exact h l hl j hj
  · intro h l hl j hj
    rw [hi l hl]; exact h l hl j hj

theorem gathers_some {n w size S s k : Nat} {g : ILMem w → Option (List (BitVec n))} {data : Int}
    {i e : Nat → Int} (h : Gathers size s k g data i) (hi : Offsets S size e i) {m : ILMem w}
    (hm : MembersExist m data S e size s) :
    ∃ vs, g m = some vs ∧ vs.length = k ∧
      Holds m data S e size k (fun j l => lane w (vs.getD j 0) l) := by
  obtain ⟨vs, h1, h2, h3⟩ := (h m).1 ((mapped_iff hi).mpr hm)
  refine ⟨vs, h1, h2, ?_⟩
  intro l hl j hj
  unfold member
  rw [← hi l hl]
  exact h3 l hl j hj

theorem gathers_none {n w size S s k : Nat} {g : ILMem w → Option (List (BitVec n))} {data : Int}
    {i e : Nat → Int} (h : Gathers size s k g data i) (hi : Offsets S size e i) {m : ILMem w}
    (hm : ¬ MembersExist m data S e size s) : g m = none :=
  (h m).2 fun h => hm ((mapped_iff hi).mp h)

/-! ### Index scaling -/

theorem shl_eq_mul {n : Nat} (x : BitVec n) (k : Nat) : x <<< k = x * BitVec.ofNat n (2 ^ k) := by
  apply BitVec.eq_of_toNat_eq
  simp [BitVec.toNat_shiftLeft, Nat.shiftLeft_eq]

theorem scaleIndex_eq (S : Nat) (x : BitVec 32) : scaleIndex S x = x * BitVec.ofNat 32 S := by
  unfold scaleIndex
  by_cases h1 : S = 1
  · subst h1; simp
  by_cases h2 : S = 2
  · subst h2; simpa using shl_eq_mul x 1
  by_cases h4 : S = 4
  · subst h4; simpa using shl_eq_mul x 2
  by_cases h8 : S = 8
  · subst h8; simpa using shl_eq_mul x 3
  by_cases h16 : S = 16
  · subst h16; simpa using shl_eq_mul x 4
  simp [h1, h2, h4, h8, h16]

theorem scaleFirst_eq (S : Nat) (x : BitVec 64) : scaleFirst S x = x * BitVec.ofNat 64 S := by
  unfold scaleFirst
  by_cases h1 : S = 1
  · subst h1; simp
  by_cases h2 : S = 2
  · subst h2; simpa using shl_eq_mul x 1
  by_cases h4 : S = 4
  · subst h4; simpa using shl_eq_mul x 2
  by_cases h8 : S = 8
  · subst h8; simpa using shl_eq_mul x 3
  by_cases h16 : S = 16
  · subst h16; simpa using shl_eq_mul x 4
  simp [h1, h2, h4, h8, h16]

theorem scaleIndex_toInt (S : Nat) (x : BitVec 32) (h1 : -2 ^ 31 ≤ x.toInt * Int.ofNat S)
    (h2 : x.toInt * Int.ofNat S < 2 ^ 31) :
    (scaleIndex S x).toInt = x.toInt * Int.ofNat S := by
  rw [scaleIndex_eq, BitVec.toInt_mul, BitVec.toInt_ofNat']
  have : (x.toInt * (Int.bmod (S : Int) (2 ^ 32))).bmod (2 ^ 32) = (x.toInt * (S : Int)).bmod (2 ^ 32) :=
    Int.mul_bmod_bmod
  rw [this]
  simp only [Int.ofNat_eq_natCast] at h1 h2 ⊢
  exact Int.bmod_eq_of_le (by omega) (by omega)

theorem successive_toNat (S : Nat) (first : BitVec 64) (l : Nat)
    (h : (first.toNat + l) * S < 2 ^ 64) :
    (successive S (scaleFirst S first) l).toNat = (first.toNat + l) * S := by
  rw [scaleFirst_eq]
  unfold successive
  rw [BitVec.toNat_add, BitVec.toNat_mul, BitVec.toNat_mul, BitVec.toNat_ofNat, BitVec.toNat_ofNat]
  simp only [Nat.add_mod_mod, Nat.mod_add_mod, Nat.mul_mod_mod, Nat.mod_mul_mod]
  rw [← Nat.add_mul]
  exact Nat.mod_eq_of_lt h

end Vc.Lemma
