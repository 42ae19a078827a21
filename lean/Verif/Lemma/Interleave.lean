import Verif.Model.Interleave
import Verif.Lemma.SortNet2

/-!
Lemmas for the interleaved memory access: sequences of writes, the lanes of the 256 bit instructions,
and the two predicates `Scatters` and `Gathers` that every `interleave` and `deinterleave` function
satisfies.
-/

namespace Vc.Lemma
open Vc.Model

/-! ### Writes -/

theorem writes_append {w : Nat} (m : ILMem w) (a b : List (Int × BitVec w)) :
    writes m (a ++ b) = (writes m a) >>= fun m => writes m b := by
  induction a generalizing m with
  | nil => rfl
  | cons p t ih =>
    obtain ⟨x, v⟩ := p
    simp only [List.cons_append, writes]
    by_cases h : (m x).isSome
    · rw [if_pos h, if_pos h, ih]
    · rw [if_neg h, if_neg h]; rfl

/-- A sequence of writes succeeds exactly if all target cells are mapped. -/
theorem writes_isSome {w : Nat} (m : ILMem w) (ws : List (Int × BitVec w)) :
    (writes m ws).isSome ↔ ∀ p, p ∈ ws → (m p.1).isSome := by
  induction ws generalizing m with
  | nil => simp [writes]
  | cons p t ih =>
    obtain ⟨x, v⟩ := p
    simp only [writes, List.mem_cons]
    by_cases h : (m x).isSome
    · rw [if_pos h, ih]
      constructor
      · intro hh p hp
        rcases hp with rfl | hp
        · exact h
        · have := hh p hp
          by_cases hx : p.1 = x
          · rw [hx]; exact h
          · simpa [hx] using this
      · intro hh p hp
        by_cases hx : p.1 = x
        · simp [hx]
        · simpa [hx] using hh p (Or.inr hp)
    · rw [if_neg h]
      constructor
      · intro hh; simp at hh
      · intro hh; exact absurd (hh (x, v) (Or.inl rfl)) h

/-- Writes do not change other cells. -/
theorem writes_frame {w : Nat} {m m' : ILMem w} {ws : List (Int × BitVec w)}
    (h : writes m ws = some m') {a : Int} (ha : ∀ p, p ∈ ws → p.1 ≠ a) : m' a = m a := by
  induction ws generalizing m with
  | nil => simp only [writes, Option.some.injEq] at h; rw [h]
  | cons p t ih =>
    obtain ⟨x, v⟩ := p
    simp only [writes] at h
    by_cases hx : (m x).isSome
    · rw [if_pos hx] at h
      rw [ih h fun p hp => ha p (List.mem_cons_of_mem _ hp)]
      have : a ≠ x := fun e => ha (x, v) List.mem_cons_self e.symm
      simp [this]
    · rw [if_neg hx] at h; cases h

/-- A cell that is written with one value only has this value afterwards. -/
theorem writes_get {w : Nat} {m m' : ILMem w} {ws : List (Int × BitVec w)}
    (h : writes m ws = some m') {p : Int × BitVec w} (hp : p ∈ ws)
    (hu : ∀ q, q ∈ ws → q.1 = p.1 → q.2 = p.2) : m' p.1 = some p.2 := by
  induction ws generalizing m with
  | nil => cases hp
  | cons q t ih =>
    obtain ⟨x, v⟩ := q
    simp only [writes] at h
    by_cases hx : (m x).isSome
    · rw [if_pos hx] at h
      by_cases hin : ∃ q, q ∈ t ∧ q.1 = p.1
      · obtain ⟨q, hq, hqp⟩ := hin
        have e2 : q.2 = p.2 := hu q (List.mem_cons_of_mem _ hq) hqp
        have : q = p := Prod.ext hqp e2
        exact ih h (this ▸ hq) fun q hq => hu q (List.mem_cons_of_mem _ hq)
      · have hpx : p = (x, v) := by
          rcases List.mem_cons.mp hp with e | e
          · exact e
          · exact absurd ⟨p, e, rfl⟩ hin
        rw [writes_frame h fun q hq e => hin ⟨q, hq, e⟩, hpx]
        simp
    · rw [if_neg hx] at h; cases h

theorem getD_append_left {α : Type} (a b : List α) (d : α) {j : Nat} (h : j < a.length) :
    (a ++ b).getD j d = a.getD j d := by
  simp [List.getD, List.getElem?_append_left h]

theorem getD_append_right {α : Type} (a b : List α) (d : α) {j : Nat} (h : a.length ≤ j) :
    (a ++ b).getD j d = b.getD (j - a.length) d := by
  simp [List.getD, List.getElem?_append_right h]

/-- The cells of the struct of lane `l`. -/
def row {n w : Nat} (data : Int) (i : Nat → Int) (vs : List (BitVec n)) (l : Nat) :
    List (Int × BitVec w) :=
  (List.range vs.length).map fun j => (data + i l + Int.ofNat j, lane w (vs.getD j 0) l)

/-- The function `f` writes `vs[j]` of lane `l` to `data[i[l] + j]`, and nothing else. -/
def Scatters {n w : Nat} (size : Nat) (f : ILMem w → Option (ILMem w)) (data : Int) (i : Nat → Int)
    (vs : List (BitVec n)) : Prop :=
  ∃ ws : List (Int × BitVec w), (∀ m, f m = writes m ws) ∧
    ∀ p, p ∈ ws ↔ ∃ l, l < size ∧ ∃ j, j < vs.length ∧
      p = (data + i l + Int.ofNat j, lane w (vs.getD j 0) l)

theorem mem_row {n w : Nat} {data : Int} {i : Nat → Int} {vs : List (BitVec n)} {l : Nat}
    {p : Int × BitVec w} :
    p ∈ row data i vs l ↔ ∃ j, j < vs.length ∧
      p = (data + i l + Int.ofNat j, lane w (vs.getD j 0) l) := by
  simp only [row, List.mem_map, List.mem_range]
  constructor
  · rintro ⟨j, hj, rfl⟩; exact ⟨j, hj, rfl⟩
  · rintro ⟨j, hj, rfl⟩; exact ⟨j, hj, rfl⟩

/-- Writing the rows in any order scatters. -/
theorem scatters_of_rows {n w : Nat} {size : Nat} {f : ILMem w → Option (ILMem w)} {data : Int}
    {i : Nat → Int} {vs : List (BitVec n)} (ls : List Nat)
    (hf : ∀ m, f m = writes m (ls.flatMap (row data i vs)))
    (hl : ∀ l, l ∈ ls ↔ l < size) : Scatters size f data i vs := by
  refine ⟨_, hf, ?_⟩
  intro p
  simp only [List.mem_flatMap, mem_row]
  constructor
  · rintro ⟨l, h, j, hj, e⟩; exact ⟨l, (hl l).mp h, j, hj, e⟩
  · rintro ⟨l, h, j, hj, e⟩; exact ⟨l, (hl l).mpr h, j, hj, e⟩

theorem scatters_append {n w : Nat} {size : Nat} {f g : ILMem w → Option (ILMem w)} {data : Int}
    {i : Nat → Int} {vs ws : List (BitVec n)} (c : Int) (hc : c = data + Int.ofNat vs.length)
    (hf : Scatters size f data i vs) (hg : Scatters size g c i ws) :
    Scatters size (fun m => f m >>= g) data i (vs ++ ws) := by
  subst hc
  obtain ⟨a, ha, hap⟩ := hf
  obtain ⟨b, hb, hbp⟩ := hg
  refine ⟨a ++ b, ?_, ?_⟩
  · intro m
    rw [writes_append]
    simp only []
    rw [ha]
    congr 1
    funext m'
    exact hb m'
  · intro p
    rw [List.mem_append, hap, hbp]
    constructor
    · rintro (⟨l, hl, j, hj, e⟩ | ⟨l, hl, j, hj, e⟩)
      · refine ⟨l, hl, j, by rw [List.length_append]; omega, ?_⟩
        rw [e, getD_append_left _ _ _ hj]
      · refine ⟨l, hl, vs.length + j, by rw [List.length_append]; omega, ?_⟩
        rw [e, getD_append_right _ _ _ (by omega)]
        refine Prod.ext ?_ ?_
        · simp only [Int.ofNat_eq_natCast]; omega
        · simp only [Nat.add_sub_cancel_left]
    · rintro ⟨l, hl, j, hj, e⟩
      rw [List.length_append] at hj
      by_cases hjv : j < vs.length
      · refine Or.inl ⟨l, hl, j, hjv, ?_⟩
        rw [e, getD_append_left _ _ _ hjv]
      · refine Or.inr ⟨l, hl, j - vs.length, by omega, ?_⟩
        rw [e, getD_append_right _ _ _ (by omega)]
        refine Prod.ext ?_ rfl
        simp only [Int.ofNat_eq_natCast]; omega

theorem scatters_scatterAll {n w : Nat} (size : Nat) (data : Int) (i : Nat → Int) (v : BitVec n) :
    Scatters (w := w) size (fun m => scatterAll size m data i v) data i [v] := by
  refine ⟨_, fun m => rfl, ?_⟩
  intro p
  simp only [List.mem_map, List.mem_range]
  constructor
  · rintro ⟨l, hl, rfl⟩
    exact ⟨l, hl, 0, by simp, by simp⟩
  · rintro ⟨l, hl, j, hj, rfl⟩
    have : j = 0 := by simp at hj; exact hj
    subst this
    exact ⟨l, hl, by simp⟩

theorem store_row2 {n n' w : Nat} {data : Int} {i : Nat → Int} {v0 v1 : BitVec n} {l : Nat}
    {m : ILMem w} {x : BitVec n'} (h0 : lane w x 0 = lane w v0 l) (h1 : lane w x 1 = lane w v1 l) :
    ilStore 2 m (data + i l) x = writes m (row data i [v0, v1] l) := by
  simp [ilStore, row, List.range, List.range.loop, h0, h1]

theorem store_row4 {n n' w : Nat} {data : Int} {i : Nat → Int} {v0 v1 v2 v3 : BitVec n} {l : Nat}
    {m : ILMem w} {x : BitVec n'} (h0 : lane w x 0 = lane w v0 l) (h1 : lane w x 1 = lane w v1 l)
    (h2 : lane w x 2 = lane w v2 l) (h3 : lane w x 3 = lane w v3 l) :
    ilStore 4 m (data + i l) x = writes m (row data i [v0, v1, v2, v3] l) := by
  simp [ilStore, row, List.range, List.range.loop, h0, h1, h2, h3]

/-- A masked store of the first three of four entries. -/
theorem ilMaskStore_row3 {n n' w : Nat} {data : Int} {i : Nat → Int} {v0 v1 v2 : BitVec n} {l : Nat}
    {m : ILMem w} {k x : BitVec n'} (hk0 : (lane w k 0).msb = true) (hk1 : (lane w k 1).msb = true)
    (hk2 : (lane w k 2).msb = true) (hk3 : (lane w k 3).msb = false)
    (h0 : lane w x 0 = lane w v0 l) (h1 : lane w x 1 = lane w v1 l) (h2 : lane w x 2 = lane w v2 l) :
    ilMaskStore 4 m (data + i l) k x = writes m (row data i [v0, v1, v2] l) := by
  simp [ilMaskStore, row, List.range, List.range.loop, h0, h1, h2, hk0, hk1, hk2, hk3]

/-! ### Lanes -/

theorem lane16_of32 {n : Nat} (x : BitVec n) (q : Nat) {j : Nat} (hj : j < 2) :
    lane 16 (lane 32 x q) j = lane 16 x (2 * q + j) := lane_lane 16 2 x q hj

theorem lane16_of64 {n : Nat} (x : BitVec n) (q : Nat) {j : Nat} (hj : j < 4) :
    lane 16 (lane 64 x q) j = lane 16 x (4 * q + j) := lane_lane 16 4 x q hj

theorem lane32_of64 {n : Nat} (x : BitVec n) (q : Nat) {j : Nat} (hj : j < 2) :
    lane 32 (lane 64 x q) j = lane 32 x (2 * q + j) := lane_lane 32 2 x q hj

theorem lane_setWidth32 (x : BitVec 64) {j : Nat} (hj : j < 2) :
    lane 16 (x.setWidth 32) j = lane 16 x j := by
  apply BitVec.eq_of_getLsbD_eq
  intro k hk
  simp only [getLsbD_lane, BitVec.getLsbD_setWidth]
  have : 16 * j + k < 32 := by omega
  simp [this]

theorem lane_sshiftRight32 (x : BitVec 64) {j : Nat} (hj : j < 2) :
    lane 16 (x.sshiftRight 32) j = lane 16 x (2 + j) := by
  apply BitVec.eq_of_getLsbD_eq
  intro k hk
  simp only [getLsbD_lane, BitVec.getLsbD_sshiftRight]
  have h2 : 32 + (16 * j + k) < 64 := by omega
  have h3 : ¬ 64 ≤ 16 * j + k := by omega
  have h4 : 16 * (2 + j) + k = 32 + (16 * j + k) := by omega
  simp [h2, h3, h4]

theorem lane_movelh32 (x y : M128) {i : Nat} (hi : i < 4) :
    lane 32 (movelh x y) i = if i < 2 then lane 32 x i else lane 32 y (i - 2) := by
  by_cases h : i < 2
  · rw [if_pos h]
    have e : lane 64 (movelh x y) 0 = lane 64 x 0 := by
      unfold movelh; rw [lane_ofLanes _ (by omega)]; rfl
    have := lane_of_wide64 (w := 32) (c := 2) rfl (by decide) (i := i) (by omega) e
    rw [this]
    congr 1
    omega
  · rw [if_neg h]
    have e : lane 64 (movelh x y) 1 = lane 64 y 0 := by
      unfold movelh; rw [lane_ofLanes _ (by omega)]; rfl
    have := lane_of_wide64 (w := 32) (c := 2) rfl (by decide) (i := i) (by omega) e
    rw [this]
    congr 1
    omega

theorem lane_movehl32 (x y : M128) {i : Nat} (hi : i < 4) :
    lane 32 (movehl x y) i = if i < 2 then lane 32 y (2 + i) else lane 32 x i := by
  by_cases h : i < 2
  · rw [if_pos h]
    have e : lane 64 (movehl x y) 0 = lane 64 y 1 := by
      unfold movehl; rw [lane_ofLanes _ (by omega)]; rfl
    have := lane_of_wide64 (w := 32) (c := 2) rfl (by decide) (i := i) (by omega) e
    rw [this]
    congr 1
    omega
  · rw [if_neg h]
    have e : lane 64 (movehl x y) 1 = lane 64 x 1 := by
      unfold movehl; rw [lane_ofLanes _ (by omega)]; rfl
    have := lane_of_wide64 (w := 32) (c := 2) rfl (by decide) (i := i) (by omega) e
    rw [this]
    congr 1
    omega

theorem lane_setr {n w : Nat} (l : List (BitVec w)) {i : Nat} (h : w * (i + 1) ≤ n) :
    lane w (setr w l : BitVec n) i = l.getD i 0 := by
  unfold setr; rw [lane_ofLanes _ h]

theorem lane_setEpi32 (e3 e2 e1 e0 : BitVec 32) {i : Nat} (hi : i < 4) :
    lane 32 (setEpi32 e3 e2 e1 e0) i =
      if i = 0 then e0 else if i = 1 then e1 else if i = 2 then e2 else e3 := by
  unfold setEpi32; rw [lane_ofLanes _ (by omega)]

/-! Lanes of the halves, for the three entry widths. -/

theorem lo128_16 (x : M256) {i : Nat} (hi : i < 8) : lane 16 (lo128 x) i = lane 16 x i :=
  lane_lo128 (k := 8) rfl x hi
theorem lo128_32 (x : M256) {i : Nat} (hi : i < 4) : lane 32 (lo128 x) i = lane 32 x i :=
  lane_lo128 (k := 4) rfl x hi
theorem lo128_64 (x : M256) {i : Nat} (hi : i < 2) : lane 64 (lo128 x) i = lane 64 x i :=
  lane_lo128 (k := 2) rfl x hi
theorem hi128_16 (x : M256) {i : Nat} (hi : i < 8) : lane 16 (hi128 x) i = lane 16 x (8 + i) :=
  lane_hi128 (k := 8) rfl x hi
theorem hi128_32 (x : M256) {i : Nat} (hi : i < 4) : lane 32 (hi128 x) i = lane 32 x (4 + i) :=
  lane_hi128 (k := 4) rfl x hi
theorem hi128_64 (x : M256) {i : Nat} (hi : i < 2) : lane 64 (hi128 x) i = lane 64 x (2 + i) :=
  lane_hi128 (k := 2) rfl x hi
theorem concat128_16 (a b : M128) {i : Nat} (hi : i < 16) :
    lane 16 (concat128 a b) i = if i < 8 then lane 16 a i else lane 16 b (i - 8) :=
  lane_concat128 (k := 8) rfl a b hi
theorem concat128_32 (a b : M128) {i : Nat} (hi : i < 8) :
    lane 32 (concat128 a b) i = if i < 4 then lane 32 a i else lane 32 b (i - 4) :=
  lane_concat128 (k := 4) rfl a b hi
theorem concat128_64 (a b : M128) {i : Nat} (hi : i < 4) :
    lane 64 (concat128 a b) i = if i < 2 then lane 64 a i else lane 64 b (i - 2) :=
  lane_concat128 (k := 2) rfl a b hi

theorem lane_unpacklo256_16 (x y : M256) {i : Nat} (hi : i < 16) :
    lane 16 (unpacklo256 16 x y) i =
      if i % 2 = 0 then lane 16 x (i / 8 * 8 + i % 8 / 2) else lane 16 y (i / 8 * 8 + i % 8 / 2) := by
  unfold unpacklo256
  rw [concat128_16 _ _ hi]
  by_cases h : i < 8
  · rw [if_pos h, lane_unpacklo _ _ (by omega), lo128_16 _ (by omega), lo128_16 _ (by omega)]
    have : i / 8 * 8 + i % 8 / 2 = i / 2 := by omega
    rw [this]
  · rw [if_neg h, lane_unpacklo _ _ (by omega), hi128_16 _ (by omega), hi128_16 _ (by omega)]
    have h1 : i / 8 * 8 + i % 8 / 2 = 8 + (i - 8) / 2 := by omega
    have h2 : (i - 8) % 2 = i % 2 := by omega
    rw [h1, h2]

theorem lane_unpackhi256_16 (x y : M256) {i : Nat} (hi : i < 16) :
    lane 16 (unpackhi256 16 x y) i =
      if i % 2 = 0 then lane 16 x (i / 8 * 8 + 4 + i % 8 / 2)
      else lane 16 y (i / 8 * 8 + 4 + i % 8 / 2) := by
  unfold unpackhi256
  rw [concat128_16 _ _ hi]
  by_cases h : i < 8
  · rw [if_pos h, lane_unpackhi _ _ (by omega), lo128_16 _ (by omega), lo128_16 _ (by omega)]
    have : i / 8 * 8 + 4 + i % 8 / 2 = 64 / 16 + i / 2 := by omega
    rw [this]
  · rw [if_neg h, lane_unpackhi _ _ (by omega), hi128_16 _ (by omega), hi128_16 _ (by omega)]
    have h1 : i / 8 * 8 + 4 + i % 8 / 2 = 8 + (64 / 16 + (i - 8) / 2) := by omega
    have h2 : (i - 8) % 2 = i % 2 := by omega
    rw [h1, h2]

theorem lane_unpacklo256_32 (x y : M256) {i : Nat} (hi : i < 8) :
    lane 32 (unpacklo256 32 x y) i =
      if i % 2 = 0 then lane 32 x (i / 4 * 4 + i % 4 / 2) else lane 32 y (i / 4 * 4 + i % 4 / 2) := by
  unfold unpacklo256
  rw [concat128_32 _ _ hi]
  by_cases h : i < 4
  · rw [if_pos h, lane_unpacklo _ _ (by omega), lo128_32 _ (by omega), lo128_32 _ (by omega)]
    have : i / 4 * 4 + i % 4 / 2 = i / 2 := by omega
    rw [this]
  · rw [if_neg h, lane_unpacklo _ _ (by omega), hi128_32 _ (by omega), hi128_32 _ (by omega)]
    have h1 : i / 4 * 4 + i % 4 / 2 = 4 + (i - 4) / 2 := by omega
    have h2 : (i - 4) % 2 = i % 2 := by omega
    rw [h1, h2]

theorem lane_unpackhi256_32 (x y : M256) {i : Nat} (hi : i < 8) :
    lane 32 (unpackhi256 32 x y) i =
      if i % 2 = 0 then lane 32 x (i / 4 * 4 + 2 + i % 4 / 2)
      else lane 32 y (i / 4 * 4 + 2 + i % 4 / 2) := by
  unfold unpackhi256
  rw [concat128_32 _ _ hi]
  by_cases h : i < 4
  · rw [if_pos h, lane_unpackhi _ _ (by omega), lo128_32 _ (by omega), lo128_32 _ (by omega)]
    have : i / 4 * 4 + 2 + i % 4 / 2 = 64 / 32 + i / 2 := by omega
    rw [this]
  · rw [if_neg h, lane_unpackhi _ _ (by omega), hi128_32 _ (by omega), hi128_32 _ (by omega)]
    have h1 : i / 4 * 4 + 2 + i % 4 / 2 = 4 + (64 / 32 + (i - 4) / 2) := by omega
    have h2 : (i - 4) % 2 = i % 2 := by omega
    rw [h1, h2]

theorem lane_unpacklo256_64 (x y : M256) {i : Nat} (hi : i < 4) :
    lane 64 (unpacklo256 64 x y) i =
      if i % 2 = 0 then lane 64 x (i / 2 * 2) else lane 64 y (i / 2 * 2) := by
  unfold unpacklo256
  rw [concat128_64 _ _ hi]
  by_cases h : i < 2
  · rw [if_pos h, lane_unpacklo _ _ (by omega), lo128_64 _ (by omega), lo128_64 _ (by omega)]
    have : i / 2 * 2 = i / 2 := by omega
    rw [this]
  · rw [if_neg h, lane_unpacklo _ _ (by omega), hi128_64 _ (by omega), hi128_64 _ (by omega)]
    have h1 : i / 2 * 2 = 2 + (i - 2) / 2 := by omega
    have h2 : (i - 2) % 2 = i % 2 := by omega
    rw [h1, h2]

theorem lane_unpackhi256_64 (x y : M256) {i : Nat} (hi : i < 4) :
    lane 64 (unpackhi256 64 x y) i =
      if i % 2 = 0 then lane 64 x (i / 2 * 2 + 1) else lane 64 y (i / 2 * 2 + 1) := by
  unfold unpackhi256
  rw [concat128_64 _ _ hi]
  by_cases h : i < 2
  · rw [if_pos h, lane_unpackhi _ _ (by omega), lo128_64 _ (by omega), lo128_64 _ (by omega)]
    have : i / 2 * 2 + 1 = 64 / 64 + i / 2 := by omega
    rw [this]
  · rw [if_neg h, lane_unpackhi _ _ (by omega), hi128_64 _ (by omega), hi128_64 _ (by omega)]
    have h1 : i / 2 * 2 + 1 = 2 + (64 / 64 + (i - 2) / 2) := by omega
    have h2 : (i - 2) % 2 = i % 2 := by omega
    rw [h1, h2]

theorem lane_shufflePs256 (x y : M256) (imm : Nat) {i : Nat} (hi : i < 8) :
    lane 32 (shufflePs256 x y imm) i =
      if i % 4 < 2 then lane 32 x (i / 4 * 4 + sel4 imm (i % 4))
      else lane 32 y (i / 4 * 4 + sel4 imm (i % 4)) := by
  have hs : ∀ k, sel4 imm k < 4 := fun k => Nat.mod_lt _ (by decide)
  unfold shufflePs256
  rw [concat128_32 _ _ hi]
  by_cases h : i < 4
  · rw [if_pos h, lane_shufflePs _ _ _ h, lo128_32 _ (hs _), lo128_32 _ (hs _)]
    have h1 : i / 4 = 0 := by omega
    have h2 : i % 4 = i := by omega
    rw [h1, h2]; simp
  · rw [if_neg h, lane_shufflePs _ _ _ (by omega), hi128_32 _ (hs _), hi128_32 _ (hs _)]
    have h1 : i / 4 = 1 := by omega
    have h2 : i % 4 = i - 4 := by omega
    rw [h1, h2]

end Vc.Lemma
