import Verif.Lemma.InterleaveW

/-!
Every `deinterleave` function gathers.
-/

namespace Vc.Lemma
open Vc.Model

/-- All the entries that the function accesses are mapped: `s` entries from each struct. -/
def Mapped {w : Nat} (size s : Nat) (m : ILMem w) (data : Int) (i : Nat → Int) : Prop :=
  ∀ l, l < size → ∀ j, j < s → (m (data + i l + Int.ofNat j)).isSome

/-- The function `g` accesses the first `s` entries of each struct, and yields the first `k`. -/
def Gathers {n w : Nat} (size s k : Nat) (g : ILMem w → Option (List (BitVec n))) (data : Int)
    (i : Nat → Int) : Prop :=
  ∀ m, (Mapped size s m data i → ∃ vs, g m = some vs ∧ vs.length = k ∧
      ∀ l, l < size → ∀ j, j < k → m (data + i l + Int.ofNat j) = some (lane w (vs.getD j 0) l)) ∧
    (¬ Mapped size s m data i → g m = none)

theorem all2 {P : Nat → Prop} (h0 : P 0) (h1 : P 1) : ∀ j, j < 2 → P j
  | 0, _ => h0
  | 1, _ => h1

theorem all3 {P : Nat → Prop} (h0 : P 0) (h1 : P 1) (h2 : P 2) : ∀ j, j < 3 → P j
  | 0, _ => h0
  | 1, _ => h1
  | 2, _ => h2

theorem all4 {P : Nat → Prop} (h0 : P 0) (h1 : P 1) (h2 : P 2) (h3 : P 3) : ∀ j, j < 4 → P j
  | 0, _ => h0
  | 1, _ => h1
  | 2, _ => h2
  | 3, _ => h3

theorem all6 {P : Nat → Prop} (h0 : P 0) (h1 : P 1) (h2 : P 2) (h3 : P 3) (h4 : P 4) (h5 : P 5) :
    ∀ j, j < 6 → P j
  | 0, _ => h0
  | 1, _ => h1
  | 2, _ => h2
  | 3, _ => h3
  | 4, _ => h4
  | 5, _ => h5

theorem all8 {P : Nat → Prop} (h0 : P 0) (h1 : P 1) (h2 : P 2) (h3 : P 3) (h4 : P 4) (h5 : P 5)
    (h6 : P 6) (h7 : P 7) : ∀ j, j < 8 → P j
  | 0, _ => h0
  | 1, _ => h1
  | 2, _ => h2
  | 3, _ => h3
  | 4, _ => h4
  | 5, _ => h5
  | 6, _ => h6
  | 7, _ => h7

theorem all16 {P : Nat → Prop} (a : ∀ j, j < 8 → P j) (b : ∀ j, j < 8 → P (8 + j)) :
    ∀ j, j < 16 → P j := by
  intro j hj
  by_cases h : j < 8
  · exact a j h
  · have := b (j - 8) (by omega)
    rwa [show 8 + (j - 8) = j by omega] at this

theorem loadAll_some {w n cnt k : Nat} {m : ILMem w} {data : Int} {i : Nat → Int}
    (h : Mapped cnt k m data i) (hk : w * k ≤ n) :
    ∃ r, loadAll n cnt k m data i = some r ∧
      ∀ l, l < cnt → ∀ j, j < k → m (data + i l + Int.ofNat j) = some (lane w (r l) j) := by
  unfold Mapped at h
  unfold loadAll
  rw [if_pos h]
  refine ⟨_, rfl, ?_⟩
  intro l hl j hj
  have hwj : w * (j + 1) ≤ n := Nat.le_trans (Nat.mul_le_mul_left _ hj) hk
  rw [lane_ofLanes _ hwj, if_pos hj]
  have := h l hl j hj
  cases hm : m (data + i l + Int.ofNat j) with
  | none => rw [hm] at this; cases this
  | some v => rfl

theorem loadAll_none {w n cnt k : Nat} {m : ILMem w} {data : Int} {i : Nat → Int}
    (h : ¬ Mapped cnt k m data i) : loadAll n cnt k m data i = none := by
  unfold Mapped at h
  unfold loadAll
  rw [if_neg h]

/-- The functions that load one register from each struct. -/
theorem gathers_of_load {n n' w size s k : Nat} {g : ILMem w → Option (List (BitVec n))} {data : Int}
    {i : Nat → Int} (F : (Nat → BitVec n') → List (BitVec n)) (hw : w * s ≤ n') (hk : k ≤ s)
    (hg : ∀ m, g m = (loadAll n' size s m data i) >>= fun r => some (F r))
    (hlen : ∀ r, (F r).length = k)
    (hF : ∀ r, ∀ l, l < size → ∀ j, j < k → lane w (r l) j = lane w ((F r).getD j 0) l) :
    Gathers size s k g data i := by
  intro m
  constructor
  · intro h
    obtain ⟨r, hr, hv⟩ := loadAll_some h hw
    refine ⟨F r, ?_, hlen r, ?_⟩
    · rw [hg, hr]; rfl
    · intro l hl j hj
      rw [hv l hl j (by omega), hF r l hl j hj]
  · intro h
    rw [hg, loadAll_none h]; rfl

theorem gathers_append {n w size s1 k1 s2 k2 s k : Nat}
    {g1 g2 : ILMem w → Option (List (BitVec n))}
    {data : Int} {i : Nat → Int} (c : Int) (hc : c = data + Int.ofNat k1) (h1 : s1 = k1)
    (hs : s = k1 + s2) (hk : k = k1 + k2)
    (hg1 : Gathers size s1 k1 g1 data i) (hg2 : Gathers size s2 k2 g2 c i) :
    Gathers size s k (fun m => do some ((← g1 m) ++ (← g2 m))) data i := by
  subst hc h1 hs hk
  intro m
  have hsplit : Mapped size (s1 + s2) m data i ↔
      Mapped size s1 m data i ∧ Mapped size s2 m (data + Int.ofNat s1) i := by
    constructor
    · intro h
      refine ⟨fun l hl j hj => h l hl j (by omega), fun l hl j hj => ?_⟩
      have := h l hl (s1 + j) (by omega)
      rwa [show data + i l + Int.ofNat (s1 + j) = data + Int.ofNat s1 + i l + Int.ofNat j by
        simp only [Int.ofNat_eq_natCast]; omega] at this
    · rintro ⟨a, b⟩ l hl j hj
      by_cases hj1 : j < s1
      · exact a l hl j hj1
      · have := b l hl (j - s1) (by omega)
        rwa [show data + Int.ofNat s1 + i l + Int.ofNat (j - s1) = data + i l + Int.ofNat j by
          simp only [Int.ofNat_eq_natCast]; omega] at this
  constructor
  · intro h
    obtain ⟨ha, hb⟩ := hsplit.mp h
    obtain ⟨v1, e1, l1, r1⟩ := (hg1 m).1 ha
    obtain ⟨v2, e2, l2, r2⟩ := (hg2 m).1 hb
    refine ⟨v1 ++ v2, ?_, ?_, ?_⟩
    · simp only []; rw [e1, e2]; rfl
    · rw [List.length_append, l1, l2]
    · intro l hl j hj
      by_cases hj1 : j < s1
      · rw [getD_append_left _ _ _ (by omega)]
        exact r1 l hl j hj1
      · rw [getD_append_right _ _ _ (by omega), l1]
        have := r2 l hl (j - s1) (by omega)
        rwa [show data + Int.ofNat s1 + i l + Int.ofNat (j - s1) = data + i l + Int.ofNat j by
          simp only [Int.ofNat_eq_natCast]; omega] at this
  · intro h
    by_cases ha : Mapped size s1 m data i
    · have hb : ¬ Mapped size s2 m (data + Int.ofNat s1) i := fun hb => h (hsplit.mpr ⟨ha, hb⟩)
      obtain ⟨v1, e1, _, _⟩ := (hg1 m).1 ha
      simp only []
      rw [e1, (hg2 m).2 hb]; rfl
    · simp only []
      rw [(hg1 m).2 ha]; rfl

theorem gathers_gatherAll {n w size : Nat} (hw : w * size ≤ n) (data : Int) (i : Nat → Int) :
    Gathers (w := w) size 1 1 (fun m => do some [← gatherAll n size m data i]) data i := by
  intro m
  have hm : Mapped size 1 m data i ↔ ∀ l, l < size → (m (data + i l)).isSome := by
    constructor
    · intro h l hl
      have := h l hl 0 (by decide)
      simpa using this
    · intro h l hl j hj
      have : j = 0 := by omega
      subst this
      simpa using h l hl
  constructor
  · intro h
    have h' := hm.mp h
    refine ⟨[ofLanes w fun l => (m (data + i l)).getD 0], ?_, rfl, ?_⟩
    · simp only [gatherAll]; rw [if_pos h']; rfl
    · intro l hl j hj
      have : j = 0 := by omega
      subst this
      have hwj : w * (l + 1) ≤ n := Nat.le_trans (Nat.mul_le_mul_left _ hl) hw
      have hs := h' l hl
      simp only [List.getD_cons_zero]
      rw [lane_ofLanes _ hwj]
      simp only [Int.ofNat_eq_natCast, Int.natCast_zero, Int.add_zero]
      cases hv : m (data + i l) with
      | none => rw [hv] at hs; cases hs
      | some v => rfl
  · intro h
    have h' : ¬ ∀ l, l < size → (m (data + i l)).isSome := fun hh => h (hm.mpr hh)
    simp only [gatherAll]; rw [if_neg h']; rfl

/-! ### Scalar -/

theorem gathers_one {w : Nat} (c _data : Int) (i : Nat → Int) (a : Int) (ha : a = c + i 0) :
    Gathers (w := w) 1 1 1 (fun m => do some [← m a]) c i := by
  subst ha
  intro m
  have hm : Mapped 1 1 m c i ↔ (m (c + i 0)).isSome := by
    constructor
    · intro h
      simpa using h 0 (by decide) 0 (by decide)
    · intro h l hl j hj
      have h1 : j = 0 := by omega
      have h2 : l = 0 := by omega
      subst h1 h2
      simpa using h
  rw [hm]
  cases hv : m (c + i 0) with
  | none =>
    refine ⟨fun h => absurd h (by simp), fun _ => ?_⟩
    simp only []; rw [hv]; rfl
  | some v =>
    refine ⟨fun _ => ⟨[v], ?_, rfl, ?_⟩, fun h => absurd rfl h⟩
    · simp only []; rw [hv]; rfl
    · intro l hl j hj
      have h1 : j = 0 := by omega
      have h2 : l = 0 := by omega
      subst h1 h2
      simp [hv, lane_self]

theorem gathers_congr {n w size s k : Nat} {g g' : ILMem w → Option (List (BitVec n))} {data : Int}
    {i : Nat → Int} (h : Gathers size s k g data i) (e : ∀ m, g' m = g m) :
    Gathers size s k g' data i := by
  have : g' = g := funext e
  rw [this]; exact h

theorem gathers_deScalar2 {w : Nat} (data : Int) (i : Nat → Int) :
    Gathers (w := w) 1 2 2 (fun m => deScalar2 m data i) data i := by
  refine gathers_congr (gathers_append (data + 1) rfl rfl rfl rfl
    (gathers_one data data i (data + (i 0 + 0)) (by omega))
    (gathers_one (data + 1) data i (data + (i 0 + 1)) (by omega))) ?_
  intro m
  simp only [deScalar2]
  cases m (data + (i 0 + 0)) <;> cases m (data + (i 0 + 1)) <;> rfl

theorem gathers_deScalar3 {w : Nat} (data : Int) (i : Nat → Int) :
    Gathers (w := w) 1 3 3 (fun m => deScalar3 m data i) data i := by
  refine gathers_congr (gathers_append (data + 2) rfl rfl rfl rfl (gathers_deScalar2 data i)
    (gathers_one (data + 2) data i (data + (i 0 + 2)) (by omega))) ?_
  intro m
  simp only [deScalar2, deScalar3]
  cases m (data + (i 0 + 0)) <;> cases m (data + (i 0 + 1)) <;> cases m (data + (i 0 + 2)) <;> rfl

theorem gathers_deScalar4 {w : Nat} (data : Int) (i : Nat → Int) :
    Gathers (w := w) 1 4 4 (fun m => deScalar4 m data i) data i := by
  refine gathers_congr (gathers_append (data + 3) rfl rfl rfl rfl (gathers_deScalar3 data i)
    (gathers_one (data + 3) data i (data + (i 0 + 3)) (by omega))) ?_
  intro m
  simp only [deScalar3, deScalar4]
  cases m (data + (i 0 + 0)) <;> cases m (data + (i 0 + 1)) <;> cases m (data + (i 0 + 2)) <;>
    cases m (data + (i 0 + 3)) <;> rfl

theorem gathers_deScalar {w k : Nat} (hk : 2 ≤ k ∧ k ≤ 8) (data : Int) (i : Nat → Int) :
    Gathers (w := w) 1 k k (fun m => deScalar k m data i) data i := by
  match k, hk with
  | 2, _ => exact gathers_deScalar2 data i
  | 3, _ => exact gathers_deScalar3 data i
  | 4, _ => exact gathers_deScalar4 data i
  | 5, _ =>
    refine gathers_congr (gathers_append (data + 4) rfl rfl rfl rfl (gathers_deScalar4 data i)
      (gathers_one (data + 4) data i (data + (i 0 + 4)) (by omega))) ?_
    intro m
    simp only [deScalar]
    cases deScalar4 m data i <;> cases m (data + (i 0 + 4)) <;> rfl
  | 6, _ => exact gathers_append (data + 4) rfl rfl rfl rfl (gathers_deScalar4 data i)
              (gathers_deScalar2 (data + 4) i)
  | 7, _ => exact gathers_append (data + 4) rfl rfl rfl rfl (gathers_deScalar4 data i)
              (gathers_deScalar3 (data + 4) i)
  | 8, _ => exact gathers_append (data + 4) rfl rfl rfl rfl (gathers_deScalar4 data i)
              (gathers_deScalar4 (data + 4) i)
  | 0, h => exact absurd h.1 (by decide)
  | 1, h => exact absurd h.1 (by decide)
  | k + 9, h => exact absurd h.2 (by omega)

/-! ### SSE -/

theorem gathers_de8x2 (data : Int) (i : Nat → Int) :
    Gathers 8 2 2 (fun m => de8x2 m data i) data i := by
  refine gathers_of_load (n' := 128) _ (by decide) (by decide) (fun m => rfl) (fun r => rfl) ?_
  intro r
  refine all8 ?_ ?_ ?_ ?_ ?_ ?_ ?_ ?_ <;> refine all2 ?_ ?_ <;> simp [lane_unpacklo, lane_unpackhi]

theorem lanes_de8Lo (r : Nat → M128) : ∀ l, l < 8 → ∀ j, j < 4 → lane 16 (r l) j =
    lane 16 ((de8Lo (r 0) (r 1) (r 2) (r 3) (r 4) (r 5) (r 6) (r 7)).getD j 0) l := by
  refine all8 ?_ ?_ ?_ ?_ ?_ ?_ ?_ ?_ <;> refine all4 ?_ ?_ ?_ ?_ <;>
    simp [de8Lo, lane_unpacklo, lane_unpackhi]

theorem lanes_de8Hi (r : Nat → M128) : ∀ l, l < 8 → ∀ j, j < 4 → lane 16 (r l) (4 + j) =
    lane 16 ((de8Hi (r 0) (r 1) (r 2) (r 3) (r 4) (r 5) (r 6) (r 7)).getD j 0) l := by
  refine all8 ?_ ?_ ?_ ?_ ?_ ?_ ?_ ?_ <;> refine all4 ?_ ?_ ?_ ?_ <;>
    simp [de8Hi, lane_unpacklo, lane_unpackhi]

theorem getD_take {α : Type} (l : List α) (d : α) {j k : Nat} (h : j < k) :
    (l.take k).getD j d = l.getD j d := by
  simp [List.getD, h]

theorem gathers_de8x4 {k : Nat} (hk : k ≤ 4) (data : Int) (i : Nat → Int) :
    Gathers 8 4 k (fun m => de8x4 k m data i) data i := by
  refine gathers_of_load (n' := 128) _ (by decide) hk (fun m => rfl) ?_ ?_
  · intro r; simp [de8Lo]; omega
  · intro r l hl j hj
    rw [getD_take _ _ hj]
    exact lanes_de8Lo r l hl j (by omega)

theorem gathers_de8x8 {k : Nat} (hk : k ≤ 8) (data : Int) (i : Nat → Int) :
    Gathers 8 8 k (fun m => de8x8 k m data i) data i := by
  refine gathers_of_load (n' := 128) _ (by decide) hk (fun m => rfl) ?_ ?_
  · intro r; simp [de8Lo, de8Hi]; omega
  · intro r l hl j hj
    rw [getD_take _ _ hj]
    by_cases h : j < 4
    · rw [getD_append_left _ _ _ (by simp [de8Lo]; omega)]
      exact lanes_de8Lo r l hl j h
    · rw [getD_append_right _ _ _ (by simp [de8Lo]; omega)]
      have := lanes_de8Hi r l hl (j - 4) (by omega)
      rw [show 4 + (j - 4) = j by omega] at this
      exact this

theorem gathers_de4x2 (data : Int) (i : Nat → Int) :
    Gathers 4 2 2 (fun m => de4x2 m data i) data i := by
  refine gathers_of_load (n' := 128) _ (by decide) (by decide) (fun m => rfl) (fun r => rfl) ?_
  intro r
  refine all4 ?_ ?_ ?_ ?_ <;> refine all2 ?_ ?_ <;>
    simp [lane_unpacklo, lane_movelh32, lane_movehl32]

theorem gathers_de4x3 (data : Int) (i : Nat → Int) :
    Gathers 4 4 3 (fun m => de4x3 m data i) data i := by
  refine gathers_of_load (n' := 128) _ (by decide) (by decide) (fun m => rfl) (fun r => rfl) ?_
  intro r
  refine all4 ?_ ?_ ?_ ?_ <;> refine all3 ?_ ?_ ?_ <;>
    simp [lane_unpacklo, lane_unpackhi, lane_movelh32, lane_movehl32]

theorem gathers_de4x4 (data : Int) (i : Nat → Int) :
    Gathers 4 4 4 (fun m => de4x4 m data i) data i := by
  refine gathers_of_load (n' := 128) _ (by decide) (by decide) (fun m => rfl) (fun r => rfl) ?_
  intro r
  refine all4 ?_ ?_ ?_ ?_ <;> refine all4 ?_ ?_ ?_ ?_ <;>
    simp [lane_unpacklo, lane_unpackhi, lane_movelh32, lane_movehl32]

theorem gathers_de2x2 (data : Int) (i : Nat → Int) :
    Gathers 2 2 2 (fun m => de2x2 m data i) data i := by
  refine gathers_of_load (n' := 128) _ (by decide) (by decide) (fun m => rfl) (fun r => rfl) ?_
  intro r
  refine all2 ?_ ?_ <;> refine all2 ?_ ?_ <;> simp [lane_unpacklo, lane_unpackhi]

/-! ### AVX -/

theorem lane16_setr32 {n : Nat} (l : List (BitVec 32)) {i : Nat} (h : 32 * (i / 2 + 1) ≤ n) :
    lane 16 (setr 32 l : BitVec n) i = lane 16 (l.getD (i / 2) 0) (i % 2) := by
  have := lane16_of32 (setr 32 l : BitVec n) (i / 2) (j := i % 2) (Nat.mod_lt _ (by decide))
  rw [lane_setr _ h] at this
  rw [this]
  congr 1
  omega

theorem lane16_setr64 {n : Nat} (l : List (BitVec 64)) {i : Nat} (h : 64 * (i / 4 + 1) ≤ n) :
    lane 16 (setr 64 l : BitVec n) i = lane 16 (l.getD (i / 4) 0) (i % 4) := by
  have := lane16_of64 (setr 64 l : BitVec n) (i / 4) (j := i % 4) (Nat.mod_lt _ (by decide))
  rw [lane_setr _ h] at this
  rw [this]
  congr 1
  omega

theorem lane32_setr64 {n : Nat} (l : List (BitVec 64)) {i : Nat} (h : 64 * (i / 2 + 1) ≤ n) :
    lane 32 (setr 64 l : BitVec n) i = lane 32 (l.getD (i / 2) 0) (i % 2) := by
  have := lane32_of64 (setr 64 l : BitVec n) (i / 2) (j := i % 2) (Nat.mod_lt _ (by decide))
  rw [lane_setr _ h] at this
  rw [this]
  congr 1
  omega

theorem gathers_de16x2 (data : Int) (i : Nat → Int) :
    Gathers 16 2 2 (fun m => de16x2 m data i) data i := by
  refine gathers_of_load (n' := 32) _ (by decide) (by decide) (fun m => rfl) (fun r => rfl) ?_
  intro r
  refine all16 ?_ ?_ <;> refine all8 ?_ ?_ ?_ ?_ ?_ ?_ ?_ ?_ <;> refine all2 ?_ ?_ <;>
    simp [lane_unpacklo256_16, lane_unpackhi256_16, lane16_setr32]

theorem gathers_de16x4 {k : Nat} (hk : k ≤ 4) (data : Int) (i : Nat → Int) :
    Gathers 16 4 k (fun m => de16x4 k m data i) data i := by
  refine gathers_of_load (n' := 64) _ (by decide) hk (fun m => rfl) ?_ ?_
  · intro r; simp; omega
  · intro r l hl j hj
    rw [getD_take _ _ hj]
    revert l
    have hj4 : j < 4 := by omega
    clear hj
    revert j
    refine all4 ?_ ?_ ?_ ?_ <;> refine all16 ?_ ?_ <;> refine all8 ?_ ?_ ?_ ?_ ?_ ?_ ?_ ?_ <;>
      simp [lane_unpacklo256_16, lane_unpackhi256_16, lane16_setr64]

theorem lanes_de16Lo (r : Nat → M128) : ∀ l, l < 16 → ∀ j, j < 4 → lane 16 (r l) j =
    lane 16 ((de16Lo (concat128 (r 0) (r 8)) (concat128 (r 1) (r 9)) (concat128 (r 2) (r 10))
      (concat128 (r 3) (r 11)) (concat128 (r 4) (r 12)) (concat128 (r 5) (r 13))
      (concat128 (r 6) (r 14)) (concat128 (r 7) (r 15))).getD j 0) l := by
  refine all16 ?_ ?_ <;> refine all8 ?_ ?_ ?_ ?_ ?_ ?_ ?_ ?_ <;> refine all4 ?_ ?_ ?_ ?_ <;>
    simp [de16Lo, lane_unpacklo256_16, lane_unpackhi256_16, concat128_16]

theorem lanes_de16Hi (r : Nat → M128) : ∀ l, l < 16 → ∀ j, j < 4 → lane 16 (r l) (4 + j) =
    lane 16 ((de16Hi (concat128 (r 0) (r 8)) (concat128 (r 1) (r 9)) (concat128 (r 2) (r 10))
      (concat128 (r 3) (r 11)) (concat128 (r 4) (r 12)) (concat128 (r 5) (r 13))
      (concat128 (r 6) (r 14)) (concat128 (r 7) (r 15))).getD j 0) l := by
  refine all16 ?_ ?_ <;> refine all8 ?_ ?_ ?_ ?_ ?_ ?_ ?_ ?_ <;> refine all4 ?_ ?_ ?_ ?_ <;>
    simp [de16Hi, lane_unpacklo256_16, lane_unpackhi256_16, concat128_16]

theorem gathers_de16x8 {k : Nat} (hk : k ≤ 8) (data : Int) (i : Nat → Int) :
    Gathers 16 8 k (fun m => de16x8 k m data i) data i := by
  refine gathers_of_load (n' := 128) _ (by decide) hk (fun m => rfl) ?_ ?_
  · intro r; simp [de16Lo, de16Hi]; omega
  · intro r l hl j hj
    rw [getD_take _ _ hj]
    by_cases h : j < 4
    · rw [getD_append_left _ _ _ (by simp [de16Lo]; omega)]
      exact lanes_de16Lo r l hl j h
    · rw [getD_append_right _ _ _ (by simp [de16Lo]; omega)]
      have := lanes_de16Hi r l hl (j - 4) (by omega)
      rw [show 4 + (j - 4) = j by omega] at this
      exact this

theorem gathers_deA8x2 (data : Int) (i : Nat → Int) :
    Gathers 8 2 2 (fun m => deA8x2 m data i) data i := by
  refine gathers_of_load (n' := 64) _ (by decide) (by decide) (fun m => rfl) (fun r => rfl) ?_
  intro r
  refine all8 ?_ ?_ ?_ ?_ ?_ ?_ ?_ ?_ <;> refine all2 ?_ ?_ <;>
    simp [lane_unpacklo256_32, lane_unpackhi256_32, concat128_32, lane32_setr64]

theorem gathers_deA8x4 {k : Nat} (hk : k ≤ 4) (data : Int) (i : Nat → Int) :
    Gathers 8 4 k (fun m => deA8x4 k m data i) data i := by
  refine gathers_of_load (n' := 128) _ (by decide) hk (fun m => rfl) ?_ ?_
  · intro r; simp; omega
  · intro r l hl j hj
    rw [getD_take _ _ hj]
    revert l
    have hj4 : j < 4 := by omega
    clear hj
    revert j
    refine all4 ?_ ?_ ?_ ?_ <;> refine all8 ?_ ?_ ?_ ?_ ?_ ?_ ?_ ?_ <;>
      simp [lane_unpacklo256_32, lane_unpackhi256_32, concat128_32]

theorem gathers_deA4x2 (data : Int) (i : Nat → Int) :
    Gathers 4 2 2 (fun m => deA4x2 m data i) data i := by
  refine gathers_of_load (n' := 128) _ (by decide) (by decide) (fun m => rfl) (fun r => rfl) ?_
  intro r
  refine all4 ?_ ?_ ?_ ?_ <;> refine all2 ?_ ?_ <;>
    simp [lane_unpacklo256_64, lane_unpackhi256_64, concat128_64]

/-! ### Successive structs -/

/-- Eight successive structs of `S` entries, loaded as `S` registers of eight entries. -/
theorem gathers_of_loadS {n w S : Nat} {g : ILMem w → Option (List (BitVec n))} {data : Int}
    {i i' : Nat → Int} (hi : Succ S 8 i) (hi' : ∀ c, c < S → i' c = i 0 + Int.ofNat (8 * c))
    (hS : 0 < S) (F : (Nat → BitVec n) → List (BitVec n)) (hw : w * 8 ≤ n)
    (hg : ∀ m, g m = (loadAll n S 8 m data i') >>= fun r => some (F r))
    (hlen : ∀ r, (F r).length = S)
    (hF : ∀ r, ∀ l, l < 8 → ∀ j, j < S →
      lane w (r ((S * l + j) / 8)) ((S * l + j) % 8) = lane w ((F r).getD j 0) l) :
    Gathers 8 S S g data i := by
  have hq : ∀ l, l < 8 → ∀ j, j < S → (S * l + j) / 8 < S := by
    intro l hl j hj
    rw [Nat.div_lt_iff_lt_mul (by decide)]
    have : S * (l + 1) ≤ S * 8 := Nat.mul_le_mul_left _ hl
    rw [Nat.mul_add] at this
    omega
  have hadr : ∀ l, l < 8 → ∀ j, j < S → data + i l + Int.ofNat j =
      data + i' ((S * l + j) / 8) + Int.ofNat ((S * l + j) % 8) := by
    intro l hl j hj
    rw [hi l hl, hi' _ (hq l hl j hj)]
    have := Nat.div_add_mod (S * l + j) 8
    simp only [Int.ofNat_eq_natCast]
    omega
  have hm : ∀ m : ILMem w, Mapped 8 S m data i ↔ Mapped S 8 m data i' := by
    intro m
    constructor
    · intro h c hc jj hjj
      have h2 : (8 * c + jj) / S < 8 := by
        rw [Nat.div_lt_iff_lt_mul hS]; omega
      have h3 : (8 * c + jj) % S < S := Nat.mod_lt _ hS
      have h1 := h ((8 * c + jj) / S) h2 ((8 * c + jj) % S) h3
      rw [hi _ h2] at h1
      rw [hi' c hc]
      have := Nat.div_add_mod (8 * c + jj) S
      have e : data + i 0 + Int.ofNat (8 * c) + Int.ofNat jj =
          data + i 0 + Int.ofNat (S * ((8 * c + jj) / S)) + Int.ofNat ((8 * c + jj) % S) := by
        simp only [Int.ofNat_eq_natCast]; omega
      rw [← Int.add_assoc] at h1 ⊢
      rw [e]
      exact h1
    · intro h l hl j hj
      rw [hadr l hl j hj]
      exact h _ (hq l hl j hj) _ (Nat.mod_lt _ (by decide))
  intro m
  rw [hm]
  constructor
  · intro h
    obtain ⟨r, hr, hv⟩ := loadAll_some h hw
    refine ⟨F r, ?_, hlen r, ?_⟩
    · rw [hg, hr]; rfl
    · intro l hl j hj
      rw [hadr l hl j hj, hv _ (hq l hl j hj) _ (Nat.mod_lt _ (by decide)), hF r l hl j hj]
  · intro h
    rw [hg, loadAll_none h]; rfl

theorem gathers_deA8x2s (data : Int) {i : Nat → Int} (hi : Succ 2 8 i) :
    Gathers 8 2 2 (fun m => deA8x2s m data i) data i := by
  refine gathers_of_loadS hi ?_ (by decide) _ (by decide) (fun m => rfl) (fun r => rfl) ?_
  · intro c hc; rw [hi _ (by omega)]; simp only [Int.ofNat_eq_natCast]; omega
  · intro r
    refine all8 ?_ ?_ ?_ ?_ ?_ ?_ ?_ ?_ <;> refine all2 ?_ ?_ <;>
      simp [lane_unpacklo256_32, lane_unpackhi256_32, permute2f128_lo, permute2f128_hi, concat128_32,
        lo128_32, hi128_32]

theorem gathers_deA8x3s (data : Int) {i : Nat → Int} (hi : Succ 3 8 i) :
    Gathers 8 3 3 (fun m => deA8x3s m data i) data i := by
  refine gathers_of_loadS hi ?_ (by decide) _ (by decide) (fun m => rfl) (fun r => rfl) ?_
  · intro c _; simp only [Int.ofNat_eq_natCast]; omega
  · intro r
    refine all8 ?_ ?_ ?_ ?_ ?_ ?_ ?_ ?_ <;> refine all3 ?_ ?_ ?_ <;>
      simp [lane_blendImm, Nat.testBit_eq_decide_div_mod_eq, lane_shufflePs256, sel4, permute2f128_lo,
        permute2f128_hi, concat128_32, lo128_32, hi128_32]

theorem gathers_deA8x4s (data : Int) {i : Nat → Int} (hi : Succ 4 8 i) :
    Gathers 8 4 4 (fun m => deA8x4s m data i) data i := by
  refine gathers_of_loadS hi ?_ (by decide) _ (by decide) (fun m => rfl) (fun r => rfl) ?_
  · intro c hc; rw [hi _ (by omega)]; simp only [Int.ofNat_eq_natCast]; omega
  · intro r
    refine all8 ?_ ?_ ?_ ?_ ?_ ?_ ?_ ?_ <;> refine all4 ?_ ?_ ?_ ?_ <;>
      simp [lane_unpacklo256_32, lane_unpackhi256_32, permute2f128_lo, permute2f128_hi, concat128_32,
        lo128_32, hi128_32]

theorem gathers_deA8x6s (data : Int) {i : Nat → Int} (hi : Succ 6 8 i) :
    Gathers 8 6 6 (fun m => deA8x6s m data i) data i := by
  refine gathers_of_loadS hi ?_ (by decide) _ (by decide) (fun m => rfl) (fun r => rfl) ?_
  · intro c _; simp only [Int.ofNat_eq_natCast]; omega
  · intro r
    refine all8 ?_ ?_ ?_ ?_ ?_ ?_ ?_ ?_ <;> refine all6 ?_ ?_ ?_ ?_ ?_ ?_ <;>
      simp [lane_unpacklo256_32, lane_unpackhi256_32, permute2f128_lo, permute2f128_hi, concat128_32,
        lo128_32, hi128_32]

/-! ### Any number of variables -/

/-- Entries per struct that `deMany` accesses if the function for three variables accesses `s3`. -/
def manySpan (s3 k : Nat) : Nat :=
  if k = 3 then s3 else if k = 7 then 4 + s3 else k

theorem gathers_deMany {n w size s3 k : Nat}
    {g2 g3 g4 : ILMem w → Int → (Nat → Int) → Option (List (BitVec n))} {i : Nat → Int}
    (hw : w * size ≤ n) (h2 : ∀ d, Gathers size 2 2 (fun m => g2 m d i) d i)
    (h3 : ∀ d, Gathers size s3 3 (fun m => g3 m d i) d i)
    (h4 : ∀ d, Gathers size 4 4 (fun m => g4 m d i) d i) (hk : 2 ≤ k ∧ k ≤ 8) (data : Int) :
    Gathers size (manySpan s3 k) k (fun m => deMany size g2 g3 g4 k m data i) data i := by
  match k, hk with
  | 2, _ => exact h2 data
  | 3, _ => exact h3 data
  | 4, _ => exact h4 data
  | 5, _ =>
    refine gathers_congr (gathers_append (data + 4) rfl rfl rfl rfl (h4 data)
      (gathers_gatherAll hw (data + 4) i)) ?_
    intro m
    simp only [deMany]
    cases g4 m data i <;> cases gatherAll n size m (data + 4) i <;> rfl
  | 6, _ => exact gathers_append (data + 4) rfl rfl rfl rfl (h4 data) (h2 (data + 4))
  | 7, _ => exact gathers_append (data + 4) rfl rfl rfl rfl (h4 data) (h3 (data + 4))
  | 8, _ => exact gathers_append (data + 4) rfl rfl rfl rfl (h4 data) (h4 (data + 4))
  | 0, h => exact absurd h.1 (by decide)
  | 1, h => exact absurd h.1 (by decide)
  | k + 9, h => exact absurd h.2 (by omega)

theorem gathers_dePairs {n w size k : Nat}
    {g2 : ILMem w → Int → (Nat → Int) → Option (List (BitVec n))} {i : Nat → Int}
    (hw : w * size ≤ n) (h2 : ∀ d, Gathers size 2 2 (fun m => g2 m d i) d i)
    (hk : 2 ≤ k ∧ k ≤ 8) (data : Int) :
    Gathers size k k (fun m => dePairs size g2 k m data i) data i := by
  have h4 := gathers_append (data + 2) rfl rfl rfl rfl (h2 data) (h2 (data + 2))
  have h6 := gathers_append (data + 4) rfl rfl rfl rfl h4 (h2 (data + 4))
  have h8 := gathers_append (data + 6) rfl rfl rfl rfl h6 (h2 (data + 6))
  match k, hk with
  | 2, _ => exact h2 data
  | 3, _ =>
    refine gathers_congr (gathers_append (data + 2) rfl rfl rfl rfl (h2 data)
      (gathers_gatherAll hw (data + 2) i)) ?_
    intro m
    simp only [dePairs]
    cases g2 m data i <;> cases gatherAll n size m (data + 2) i <;> rfl
  | 4, _ => exact h4
  | 5, _ =>
    refine gathers_congr (gathers_append (data + 4) rfl rfl rfl rfl h4
      (gathers_gatherAll hw (data + 4) i)) ?_
    intro m
    simp only [dePairs]
    cases g2 m data i <;> cases g2 m (data + 2) i <;> cases gatherAll n size m (data + 4) i <;> rfl
  | 6, _ =>
    refine gathers_congr h6 ?_
    intro m
    simp only [dePairs]
    cases g2 m data i <;> cases g2 m (data + 2) i <;> cases g2 m (data + 4) i <;> rfl
  | 7, _ =>
    refine gathers_congr (gathers_append (data + 6) rfl rfl rfl rfl h6
      (gathers_gatherAll hw (data + 6) i)) ?_
    intro m
    simp only [dePairs]
    cases g2 m data i <;> cases g2 m (data + 2) i <;> cases g2 m (data + 4) i <;>
      cases gatherAll n size m (data + 6) i <;> rfl
  | 8, _ =>
    refine gathers_congr h8 ?_
    intro m
    simp only [dePairs]
    cases g2 m data i <;> cases g2 m (data + 2) i <;> cases g2 m (data + 4) i <;>
      cases g2 m (data + 6) i <;> rfl
  | 0, h => exact absurd h.1 (by decide)
  | 1, h => exact absurd h.1 (by decide)
  | k + 9, h => exact absurd h.2 (by omega)

/-- Entries per struct that the functions for 16 bit entries access. -/
def shortSpan (k : Nat) : Nat :=
  if k = 2 then 2 else if k ≤ 4 then 4 else 8

theorem gathers_de8 {k : Nat} (hk : 2 ≤ k ∧ k ≤ 8) (data : Int) (i : Nat → Int) :
    Gathers 8 (shortSpan k) k (fun m => de8 k m data i) data i := by
  match k, hk with
  | 2, _ => exact gathers_de8x2 data i
  | 3, _ => exact gathers_de8x4 (by decide) data i
  | 4, _ => exact gathers_de8x4 (by decide) data i
  | 5, _ => exact gathers_de8x8 (by decide) data i
  | 6, _ => exact gathers_de8x8 (by decide) data i
  | 7, _ => exact gathers_de8x8 (by decide) data i
  | 8, _ => exact gathers_de8x8 (by decide) data i
  | 0, h => exact absurd h.1 (by decide)
  | 1, h => exact absurd h.1 (by decide)
  | k + 9, h => exact absurd h.2 (by omega)

theorem gathers_de16 {k : Nat} (hk : 2 ≤ k ∧ k ≤ 8) (data : Int) (i : Nat → Int) :
    Gathers 16 (shortSpan k) k (fun m => de16 k m data i) data i := by
  match k, hk with
  | 2, _ => exact gathers_de16x2 data i
  | 3, _ => exact gathers_de16x4 (by decide) data i
  | 4, _ => exact gathers_de16x4 (by decide) data i
  | 5, _ => exact gathers_de16x8 (by decide) data i
  | 6, _ => exact gathers_de16x8 (by decide) data i
  | 7, _ => exact gathers_de16x8 (by decide) data i
  | 8, _ => exact gathers_de16x8 (by decide) data i
  | 0, h => exact absurd h.1 (by decide)
  | 1, h => exact absurd h.1 (by decide)
  | k + 9, h => exact absurd h.2 (by omega)

/-- Entries per struct that `deinterleave` into `k` variables accesses. -/
def readSpan (V : ILVec) (k : Nat) : Nat :=
  match V with
  | .scalar _ | .sse2 | .avx4 => k
  | .sse8 | .avx16 => shortSpan k
  | .sse4 | .avx8 => manySpan 4 k

theorem gathers_deinterleave (V : ILVec) {k : Nat} (hk : 2 ≤ k ∧ k ≤ 8) (data : Int)
    (i : Nat → Int) :
    Gathers V.size (readSpan V k) k (fun m => V.deinterleave k m data i) data i := by
  cases V with
  | scalar w => exact gathers_deScalar hk data i
  | sse8 => exact gathers_de8 hk data i
  | sse4 =>
    exact gathers_deMany (by decide) (fun d => gathers_de4x2 d i) (fun d => gathers_de4x3 d i)
      (fun d => gathers_de4x4 d i) hk data
  | sse2 => exact gathers_dePairs (by decide) (fun d => gathers_de2x2 d i) hk data
  | avx16 => exact gathers_de16 hk data i
  | avx8 =>
    exact gathers_deMany (by decide) (fun d => gathers_deA8x2 d i)
      (fun d => gathers_deA8x4 (by decide) d i) (fun d => gathers_deA8x4 (by decide) d i) hk data
  | avx4 => exact gathers_dePairs (by decide) (fun d => gathers_deA4x2 d i) hk data

/-- The same for successive structs of `S` entries. -/
def readSpanS (S : Nat) (V : ILVec) (k : Nat) : Nat :=
  match V with
  | .avx8 => if S = 3 then k else manySpan 4 k
  | V => readSpan V k

theorem manySpan_self (k : Nat) : manySpan 3 k = k := by
  unfold manySpan
  split
  · omega
  · split <;> omega

theorem gathers_deinterleaveS (S : Nat) (V : ILVec) {k : Nat} (hk : 2 ≤ k ∧ k ≤ 8) (data : Int)
    {i : Nat → Int} (hi : Succ S V.size i) :
    Gathers V.size (readSpanS S V k) k (fun m => V.deinterleaveS S k m data i) data i := by
  cases V with
  | scalar w => exact gathers_deinterleave (.scalar w) hk data i
  | sse8 => exact gathers_deinterleave .sse8 hk data i
  | sse4 => exact gathers_deinterleave .sse4 hk data i
  | sse2 => exact gathers_deinterleave .sse2 hk data i
  | avx16 => exact gathers_deinterleave .avx16 hk data i
  | avx4 => exact gathers_deinterleave .avx4 hk data i
  | avx8 =>
    by_cases h6 : S = 6 ∧ k = 6
    · obtain ⟨rfl, rfl⟩ := h6
      exact gathers_deA8x6s data hi
    · refine gathers_congr (g := fun m => deMany 8 (if S = 2 then deA8x2s else deA8x2)
        (if S = 3 then deA8x3s else deA8x4 3) (if S = 4 then deA8x4s else deA8x4 4) k m data i) ?_
        (fun m => if_neg h6)
      have h2 : ∀ d, Gathers 8 2 2 (fun m => (if S = 2 then deA8x2s else deA8x2) m d i) d i := by
        intro d
        by_cases h : S = 2
        · subst h; exact gathers_deA8x2s d hi
        · rw [if_neg h]; exact gathers_deA8x2 d i
      have h4 : ∀ d, Gathers 8 4 4 (fun m => (if S = 4 then deA8x4s else deA8x4 4) m d i) d i := by
        intro d
        by_cases h : S = 4
        · subst h; exact gathers_deA8x4s d hi
        · rw [if_neg h]; exact gathers_deA8x4 (by decide) d i
      by_cases h : S = 3
      · subst h
        have := gathers_deMany (k := k) (by decide) h2 (fun d => gathers_deA8x3s d hi) h4 hk data
        rw [manySpan_self] at this
        exact this
      · have := gathers_deMany (k := k) (by decide) h2
          (fun d => gathers_deA8x4 (k := 3) (by decide) d i) h4 hk data
        show Gathers 8 (if S = 3 then k else manySpan 4 k) k _ data i
        rw [if_neg h, if_neg h]
        exact this

end Vc.Lemma
