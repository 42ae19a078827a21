import Verif.Lemma.LoadStore
import Verif.Lemma.AvxMask

/-!
Lemmas about stores.
-/

namespace Vc.Lemma

open Vc.Model Vc.Spec

theorem storeBytes_some {m : ByteMem} {a : Int} {k : Nat} {en : Nat → Bool} {b : Nat → BitVec 8} :
    (∀ j, j < k → en j = true → ∃ v, m (a + j) = some v) ↔ ∃ m', storeBytes m a k en b = some m' := by
  unfold storeBytes
  constructor
  · intro h
    refine ⟨_, if_pos ?_⟩
    rw [List.all_eq_true]
    intro j hj
    rw [List.mem_range] at hj
    rcases he : en j
    · rfl
    · obtain ⟨v, hv⟩ := h j hj he
      rw [hv]; rfl
  · rintro ⟨m', h⟩ j hj he
    by_cases hc : ((List.range k).all fun j => !en j || (m (a + j)).isSome) = true
    · rw [List.all_eq_true] at hc
      have := hc j (List.mem_range.mpr hj)
      rw [he] at this
      exact Option.isSome_iff_exists.mp this
    · rw [if_neg hc] at h; exact absurd h (by simp)

theorem storeBytes_eq {m m' : ByteMem} {a : Int} {k : Nat} {en : Nat → Bool} {b : Nat → BitVec 8}
    (h : storeBytes m a k en b = some m') :
    m' = fun x => if a ≤ x ∧ x < a + k ∧ en (x - a).toNat = true then some (b (x - a).toNat) else m x := by
  unfold storeBytes at h
  by_cases hc : ((List.range k).all fun j => !en j || (m (a + j)).isSome) = true
  · rw [if_pos hc] at h
    exact (Option.some.inj h).symm
  · rw [if_neg hc] at h; exact absurd h (by simp)

theorem storeBytes_byte {m m' : ByteMem} {a : Int} {k : Nat} {en : Nat → Bool} {b : Nat → BitVec 8}
    (h : storeBytes m a k en b = some m') {j : Nat} (hj : j < k) (he : en j = true) : m' (a + j) = some (b j) := by
  rw [storeBytes_eq h]
  have e : (a + (j : Int) - a).toNat = j := by omega
  show (if _ then _ else _) = _
  rw [e, if_pos ⟨by omega, by omega, he⟩]

theorem storeBytes_other {m m' : ByteMem} {a : Int} {k : Nat} {en : Nat → Bool} {b : Nat → BitVec 8}
    (h : storeBytes m a k en b = some m') {x : Int} (hx : ∀ j : Nat, j < k → en j = true → x ≠ a + j) : m' x = m x := by
  rw [storeBytes_eq h]
  show (if _ then _ else _) = _
  refine if_neg fun hc => ?_
  obtain ⟨h1, h2, h3⟩ := hc
  exact hx (x - a).toNat (by omega) h3 (by omega)

theorem storeBytes_congr {m : ByteMem} {a : Int} {k : Nat} {en en' : Nat → Bool} {b b' : Nat → BitVec 8}
    (h : ∀ j, j < k → en j = en' j) (hb : ∀ j, j < k → b j = b' j) :
    storeBytes m a k en b = storeBytes m a k en' b' := by
  unfold storeBytes
  have e : ((List.range k).all fun j => !en j || (m (a + j)).isSome) =
      ((List.range k).all fun j => !en' j || (m (a + j)).isSome) := by
    rw [Bool.eq_iff_iff, List.all_eq_true, List.all_eq_true]
    constructor <;> intro g j hj <;> have := g j hj <;> have hj' := List.mem_range.mp hj
    · rw [← h j hj']; exact this
    · rw [h j hj']; exact this
  rw [e]
  split
  · refine congrArg some (funext fun x => ?_)
    by_cases hx : a ≤ x ∧ x < a + k
    · have hj : (x - a).toNat < k := by omega
      rw [h _ hj, hb _ hj]
    · rw [if_neg (fun g => hx ⟨g.1, g.2.1⟩), if_neg (fun g => hx ⟨g.1, g.2.1⟩)]
  · rfl

/-- Two stores one behind the other. -/
theorem storeBytes_append (m : ByteMem) (a : Int) (k1 k2 : Nat) (en : Nat → Bool) (b : Nat → BitVec 8) :
    ((storeBytes m a k1 en b).bind fun m1 =>
      storeBytes m1 (a + k1) k2 (fun j => en (k1 + j)) (fun j => b (k1 + j))) = storeBytes m a (k1 + k2) en b := by
  rcases h1 : storeBytes m a k1 en b with _ | m1
  · rw [Option.bind_none]
    symm
    rw [Option.eq_none_iff_forall_ne_some]
    intro m' hm
    have := storeBytes_some.mpr ⟨m', hm⟩
    obtain ⟨m2, h2⟩ := storeBytes_some (b := b).mp fun j (hj : j < k1) he => this j (by omega) he
    rw [h1] at h2; exact absurd h2 (by simp)
  · rw [Option.bind_some]
    have acc : ∀ j : Nat, (m1 (a + k1 + j)) = m (a + (k1 + j : Nat)) := fun j => by
      have e : a + (k1 : Int) + (j : Int) = a + ((k1 + j : Nat) : Int) := by omega
      rw [e]
      exact storeBytes_other h1 fun i hi _ => by omega
    rcases h2 : storeBytes m1 (a + k1) k2 (fun j => en (k1 + j)) (fun j => b (k1 + j)) with _ | m2
    · symm
      rw [Option.eq_none_iff_forall_ne_some]
      intro m' hm
      have := storeBytes_some.mpr ⟨m', hm⟩
      obtain ⟨m2, h3⟩ := storeBytes_some (m := m1) (a := a + k1) (k := k2) (en := fun j => en (k1 + j))
        (b := fun j => b (k1 + j)).mp fun j hj he => by
          rw [acc j]; exact this (k1 + j) (by omega) he
      rw [h2] at h3; exact absurd h3 (by simp)
    · have hs : ∀ j, j < k1 + k2 → en j = true → ∃ v, m (a + j) = some v := fun j hj he => by
        by_cases hlt : j < k1
        · exact storeBytes_some.mpr ⟨m1, h1⟩ j hlt he
        · have := storeBytes_some.mpr ⟨m2, h2⟩ (j - k1) (by omega)
            (by show en (k1 + (j - k1)) = true; rw [show k1 + (j - k1) = j by omega]; exact he)
          rw [acc, show k1 + (j - k1) = j by omega] at this
          exact this
      obtain ⟨m3, h3⟩ := storeBytes_some (b := b).mp hs
      rw [h3]
      refine congrArg some (funext fun x => ?_)
      by_cases hx : ∃ j : Nat, j < k1 + k2 ∧ en j = true ∧ x = a + j
      · obtain ⟨j, hj, he, rfl⟩ := hx
        rw [storeBytes_byte h3 hj he]
        by_cases hlt : j < k1
        · rw [storeBytes_other h2 (fun i hi _ => by omega), storeBytes_byte h1 hlt he]
        · have := storeBytes_byte h2 (j := j - k1) (by omega)
            (by show en (k1 + (j - k1)) = true; rw [show k1 + (j - k1) = j by omega]; exact he)
          rw [show a + (k1 : Int) + ((j - k1 : Nat) : Int) = a + j by omega,
            show k1 + (j - k1) = j by omega] at this
          exact this
      · rw [storeBytes_other h3 (fun j hj he hxe => hx ⟨j, hj, he, hxe⟩),
          storeBytes_other h2 (fun j hj he hxe => hx ⟨k1 + j, by omega, he, by omega⟩),
          storeBytes_other h1 (fun j hj he hxe => hx ⟨j, by omega, he, hxe⟩)]

/-- From bytes to entries. -/
theorem stored_of_bytes {w c n k N : Nat} (hw : w = 8 * c) (hc : 0 < c) (hk : k = c * n) {m m' : ByteMem} {a : Int}
    {enb en : Nat → Bool} (hen : ∀ j, j < k → enb j = en (j / c)) {x : BitVec N}
    (h : storeBytes m a k enb (Model.lane 8 x) = some m') : Stored m m' a n en (Model.lane w x) := by
  subst hw
  have h8 : 8 * c / 8 = c := by omega
  have room : ∀ {i j : Nat}, i < n → j < c → c * i + j < k ∧ (c * i + j) / c = i := fun {i j} hi hj => by
    constructor
    · have : c * (i + 1) ≤ c * n := Nat.mul_le_mul_left _ hi
      rw [Nat.mul_add] at this; omega
    · rw [Nat.mul_add_div hc, Nat.div_eq_of_lt hj, Nat.add_zero]
  refine ⟨fun i hi he j hj => ?_, fun y hy => ?_⟩
  · have hj' : j < c := by omega
    obtain ⟨r1, r2⟩ := room hi hj'
    have := storeBytes_byte h r1 (by rw [hen _ r1, r2]; exact he)
    rw [h8]
    have e : a + ((c * i + j : Nat) : Int) = a + (c : Nat) * (i : Int) + j := by push_cast; omega
    rw [e] at this
    rw [this, ← lane_lane 8 c x i hj']
    rfl
  · refine storeBytes_other h fun j hj he => ?_
    intro hyj
    have hjn : j / c < n := by
      rw [Nat.div_lt_iff_lt_mul hc, Nat.mul_comm n c, ← hk]; exact hj
    refine hy (j / c) hjn (by rw [← hen j hj]; exact he) ?_
    unfold InEntry
    rw [h8]
    have hm := Nat.mod_lt j hc
    have hd : ((c * (j / c) + j % c : Nat) : Int) = j := by rw [Nat.div_add_mod]
    rw [Int.natCast_add, Int.natCast_mul] at hd
    generalize hg : ((c : Nat) : Int) * ((j / c : Nat) : Int) = g at hd ⊢
    omega

/-- The entries that are to be written can be written. -/
theorem bytes_of_entries {c n k : Nat} (hc : 0 < c) (hk : k = c * n) {m : ByteMem} {a : Int} {enb en : Nat → Bool}
    (hen : ∀ j, j < k → enb j = en (j / c))
    (hr : ∀ i, i < n → en i = true → Readable m (a + (c : Nat) * i) c) :
    ∀ j, j < k → enb j = true → ∃ v, m (a + j) = some v := by
  intro j hj he
  have hjn : j / c < n := by
    rw [Nat.div_lt_iff_lt_mul hc, Nat.mul_comm n c, ← hk]; exact hj
  obtain ⟨v, hv⟩ := hr (j / c) hjn (by rw [← hen j hj]; exact he) (j % c) (Nat.mod_lt j hc)
  refine ⟨v, ?_⟩
  have hd : ((c * (j / c) + j % c : Nat) : Int) = j := by rw [Nat.div_add_mod]
  rw [Int.natCast_add, Int.natCast_mul] at hd
  rw [Int.add_assoc, hd] at hv
  exact hv

theorem store_entries {w c n k N : Nat} (hw : w = 8 * c) (hc : 0 < c) (hk : k = c * n) {m : ByteMem} {a : Int}
    {enb en : Nat → Bool} (hen : ∀ j, j < k → enb j = en (j / c)) (x : BitVec N)
    (hr : ∀ i, i < n → en i = true → Readable m (a + (c : Nat) * i) c) :
    ∃ m', storeBytes m a k enb (Model.lane 8 x) = some m' ∧ Stored m m' a n en (Model.lane w x) := by
  obtain ⟨m', h⟩ := storeBytes_some.mp (bytes_of_entries hc hk hen hr)
  exact ⟨m', h, stored_of_bytes hw hc hk hen h⟩

/-! ### The instructions -/

theorem streamStore256_eq (m : ByteMem) (a : Int) (x k : M256) :
    streamStore256 m a x k = storeBytes m a 32 (fun j => (Model.lane 8 k j).msb) (Model.lane 8 x) := by
  unfold streamStore256 maskmoveu
  rw [show (32 : Nat) = 16 + 16 from rfl, ← storeBytes_append]
  show (storeBytes m a 16 _ _).bind _ = _
  rw [storeBytes_congr (en' := fun j => (Model.lane 8 k j).msb) (b' := Model.lane 8 x)
    (fun j hj => by rw [lane_lo128 (k := 16) rfl _ hj]) (fun j hj => lane_lo128 (k := 16) rfl _ hj)]
  refine congrArg _ (funext fun m1 => ?_)
  exact storeBytes_congr (fun j hj => by rw [lane_hi128 (k := 16) rfl _ hj]) (fun j hj => lane_hi128 (k := 16) rfl _ hj)

/-- The bytes of a mask. -/
theorem mask_byte {n w c : Nat} (hw : w = 8 * c) {k : BitVec n} {b : Nat → Bool} (hk : IsMask w k b) {j : Nat}
    (hc : 0 < c) (hj : w * (j / c + 1) ≤ n) : (Model.lane 8 k j).msb = b (j / c) := by
  subst hw
  have h := hk (j / c) hj
  have h2 := lane_lane 8 c k (j / c) (Nat.mod_lt j hc)
  rw [Nat.div_add_mod] at h2
  rw [← h2]
  show (Model.lane 8 (k.extractLsb' (8 * c * (j / c)) (8 * c)) (j % c)).msb = _
  rw [h]
  show (Model.lane 8 (laneMask (b (j / c)) : BitVec (8 * c)) (j % c)).msb = _
  rw [lane_laneMask (Nat.mod_lt j hc), laneMask_msb (by decide)]

theorem mask_lane {n w : Nat} (hw : 0 < w) {k : BitVec n} {b : Nat → Bool} (hk : IsMask w k b) {i : Nat}
    (hi : w * (i + 1) ≤ n) : (Model.lane w k i).msb = b i := by
  have h : Model.lane w k i = laneMask (b i) := hk i hi
  rw [h, laneMask_msb hw]

end Vc.Lemma
