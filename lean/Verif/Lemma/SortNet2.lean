import Verif.Lemma.SortNet
import Verif.Lemma.SseMask
import Verif.Prop.SseShuffle

/-!
The networks of `sorted()` as expressions in the input lanes.
-/

namespace Vc.Lemma

open Vc.Model Vc.Prop

/-- The numbers of the lanes of `x` are the values of the expressions `E`, and the lanes satisfy `ok`. -/
def Rep {w : Nat} (ok : BitVec w → Prop) (key : BitVec w → Int) (k : Nat) (v : Nat → Int) {n : Nat}
    (x : BitVec n) (E : Nat → Wire) : Prop :=
  ∀ i, i < k → ok (lane w x i) ∧ key (lane w x i) = evI v (E i)

/-- Lanes taken from two vectors. -/
def wmix (c : Nat → Bool) (f : Nat → Nat) (E F : Nat → Wire) (i : Nat) : Wire :=
  if c i then E (f i) else F (f i)
def wmin (E F : Nat → Wire) (i : Nat) : Wire := .mn (E i) (F i)
def wmax (E F : Nat → Wire) (i : Nat) : Wire := .mx (E i) (F i)

/-- `mn` and `mx` are the minimum and maximum of the lanes. -/
structure MinMax {w : Nat} (ok : BitVec w → Prop) (key : BitVec w → Int) (k : Nat)
    (mn mx : M128 → M128 → M128) : Prop where
  mn : ∀ x y i, i < k → ok (lane w x i) → ok (lane w y i) →
    ok (lane w (mn x y) i) ∧ key (lane w (mn x y) i) = min (key (lane w x i)) (key (lane w y i))
  mx : ∀ x y i, i < k → ok (lane w x i) → ok (lane w y i) →
    ok (lane w (mx x y) i) ∧ key (lane w (mx x y) i) = max (key (lane w x i)) (key (lane w y i))

section
variable {w : Nat} {ok : BitVec w → Prop} {key : BitVec w → Int} {k : Nat} {v : Nat → Int}

theorem Rep.mn {mn mx : M128 → M128 → M128} (H : MinMax ok key k mn mx) {x y : M128} {E F : Nat → Wire}
    (hx : Rep ok key k v x E) (hy : Rep ok key k v y F) : Rep ok key k v (mn x y) (wmin E F) := fun i hi => by
  obtain ⟨h1, h2⟩ := H.mn x y i hi (hx i hi).1 (hy i hi).1
  exact ⟨h1, by rw [h2, (hx i hi).2, (hy i hi).2]; rfl⟩

theorem Rep.mx {mn mx : M128 → M128 → M128} (H : MinMax ok key k mn mx) {x y : M128} {E F : Nat → Wire}
    (hx : Rep ok key k v x E) (hy : Rep ok key k v y F) : Rep ok key k v (mx x y) (wmax E F) := fun i hi => by
  obtain ⟨h1, h2⟩ := H.mx x y i hi (hx i hi).1 (hy i hi).1
  exact ⟨h1, by rw [h2, (hx i hi).2, (hy i hi).2]; rfl⟩

theorem Rep.mix {x y r : M128} {E F : Nat → Wire} (hx : Rep ok key k v x E) (hy : Rep ok key k v y F)
    (c : Nat → Bool) (f : Nat → Nat)
    (h : ∀ i, i < k → f i < k ∧ lane w r i = if c i then lane w x (f i) else lane w y (f i)) :
    Rep ok key k v r (wmix c f E F) := fun i hi => by
  obtain ⟨h1, h2⟩ := h i hi
  unfold wmix
  rw [h2]
  cases c i
  · exact hy _ h1
  · exact hx _ h1

/-- Lanes taken from one vector. -/
theorem Rep.sel {x r : M128} {E : Nat → Wire} (hx : Rep ok key k v x E) (f : Nat → Nat)
    (h : ∀ i, i < k → f i < k ∧ lane w r i = lane w x (f i)) :
    Rep ok key k v r (fun i => E (f i)) := fun i hi => by
  obtain ⟨h1, h2⟩ := h i hi
  rw [h2]
  exact hx _ h1

end

def evenP (i : Nat) : Bool := Nat.beq (i % 2) 0

theorem evenP_iff (i : Nat) : evenP i = decide (i % 2 = 0) := by
  unfold evenP
  by_cases h : i % 2 = 0
  · rw [h]; rfl
  · rw [decide_eq_false h]; exact Bool.eq_false_iff.mpr fun e => h (Nat.eq_of_beq_eq_true e)

section
variable {w : Nat} {ok : BitVec w → Prop} {key : BitVec w → Int} {k : Nat} {v : Nat → Int}

theorem Rep.unpacklo (hk : w * k = 128) {x y : M128} {E F : Nat → Wire} (hx : Rep ok key k v x E)
    (hy : Rep ok key k v y F) : Rep ok key k v (unpacklo w x y) (wmix evenP (· / 2) E F) :=
  hx.mix hy _ _ fun i hi => ⟨by show i / 2 < k; omega, by
    have : w * (i + 1) ≤ 128 := hk ▸ Nat.mul_le_mul_left _ hi
    rw [lane_unpacklo _ _ this, evenP_iff]; simp⟩

theorem Rep.unpackhi {c : Nat} (hc : 64 / w = c) (hk2 : k = 2 * c) (hk : w * k = 128)
    {x y : M128} {E F : Nat → Wire} (hx : Rep ok key k v x E)
    (hy : Rep ok key k v y F) : Rep ok key k v (unpackhi w x y) (wmix evenP (fun i => c + i / 2) E F) :=
  hx.mix hy _ _ fun i hi => ⟨by show c + i / 2 < k; omega, by
    have : w * (i + 1) ≤ 128 := hk ▸ Nat.mul_le_mul_left _ hi
    rw [lane_unpackhi _ _ this, evenP_iff, hc]; simp⟩

theorem lane_of_wide64 {w c : Nat} (hc : w * c = 64) (hc0 : 0 < c) {x y : M128} {q q' i : Nat}
    (hq : i / c = q) (h : lane 64 x q = lane 64 y q') : lane w x i = lane w y (c * q' + i % c) := by
  refine lane_of_wide w c hc0 hq ?_
  have : ∀ m, m = 64 → lane m x q = lane m y q' := by rintro m rfl; exact h
  exact this _ hc

theorem Rep.unpacklo64 {c : Nat} (hc : w * c = 64) (hc0 : 0 < c) (hk2 : k = 2 * c)
    {x y : M128} {E F : Nat → Wire} (hx : Rep ok key k v x E) (hy : Rep ok key k v y F) :
    Rep ok key k v (Model.unpacklo 64 x y) (wmix (fun i => Nat.blt i c) (· % c) E F) :=
  hx.mix hy _ _ fun i hi => ⟨by
      show i % c < k
      have := Nat.mod_lt i hc0; omega, by
    have e0 : lane 64 (Model.unpacklo 64 x y) 0 = lane 64 x 0 := by
      rw [lane_unpacklo _ _ (by decide)]; rfl
    have e1 : lane 64 (Model.unpacklo 64 x y) 1 = lane 64 y 0 := by
      rw [lane_unpacklo _ _ (by decide)]; rfl
    by_cases h : i < c
    · rw [lane_of_wide64 hc hc0 (q := 0) (Nat.div_eq_of_lt h) e0]
      have : Nat.blt i c = true := Nat.ble_eq_true_of_le h
      rw [this, if_pos rfl]; congr 1; omega
    · have hq : i / c = 1 := by
        rw [Nat.div_eq_iff hc0]; omega
      rw [lane_of_wide64 hc hc0 hq e1]
      have : Nat.blt i c = false := Bool.eq_false_iff.mpr fun e => h (Nat.le_of_ble_eq_true e)
      rw [this]; simp⟩

theorem Rep.unpackhi64 {c : Nat} (hc : w * c = 64) (hc0 : 0 < c) (hk2 : k = 2 * c)
    {x y : M128} {E F : Nat → Wire} (hx : Rep ok key k v x E) (hy : Rep ok key k v y F) :
    Rep ok key k v (Model.unpackhi 64 x y) (wmix (fun i => Nat.blt i c) (fun i => c + i % c) E F) :=
  hx.mix hy _ _ fun i hi => ⟨by
      show c + i % c < k
      have := Nat.mod_lt i hc0; omega, by
    have e0 : lane 64 (Model.unpackhi 64 x y) 0 = lane 64 x 1 := by
      rw [lane_unpackhi _ _ (by decide)]; rfl
    have e1 : lane 64 (Model.unpackhi 64 x y) 1 = lane 64 y 1 := by
      rw [lane_unpackhi _ _ (by decide)]; rfl
    by_cases h : i < c
    · rw [lane_of_wide64 hc hc0 (q := 0) (Nat.div_eq_of_lt h) e0]
      have : Nat.blt i c = true := Nat.ble_eq_true_of_le h
      rw [this, if_pos rfl]; congr 1; omega
    · have hq : i / c = 1 := by
        rw [Nat.div_eq_iff hc0]; omega
      rw [lane_of_wide64 hc hc0 hq e1]
      have : Nat.blt i c = false := Bool.eq_false_iff.mpr fun e => h (Nat.le_of_ble_eq_true e)
      rw [this]; simp⟩

end

/-! ### 32 bit lanes -/

section
variable {ok : BitVec 32 → Prop} {key : BitVec 32 → Int} {v : Nat → Int}

theorem Rep.shuffle32 {x r : M128} {E : Nat → Wire} (hx : Rep ok key 4 v x E) {d0 d1 d2 d3 : Nat}
    (h : ∀ i, i < 4 → lane 32 r i = lane 32 x ([d0, d1, d2, d3].getD i 0))
    (hd : d0 < 4 ∧ d1 < 4 ∧ d2 < 4 ∧ d3 < 4) :
    Rep ok key 4 v r fun i => E ([d0, d1, d2, d3].getD i 0) :=
  hx.sel _ fun i hi => ⟨by
    match i, hi with
    | 0, _ => exact hd.1
    | 1, _ => exact hd.2.1
    | 2, _ => exact hd.2.2.1
    | 3, _ => exact hd.2.2.2, h i hi⟩

/-- The expressions of `sortSse32` and `sortSseFloat`. -/
def wSse32 : Nat → Wire :=
  let x : Nat → Wire := .inp
  let y := fun i => x ([1, 0, 3, 2].getD i 0)
  let l := wmin x y
  let h := wmax x y
  let x := wmix evenP (· / 2) l h
  let y := wmix evenP (fun i => 2 + i / 2) h l
  let l := wmin x y
  let h := wmax x y
  let x := wmix evenP (· / 2) l h
  let y := wmix (fun i => Nat.blt i 2) (fun i => 2 + i % 2) x x
  let l := wmin x y
  let h := wmax x y
  wmix evenP (· / 2) l h

theorem check_sse32 : check 4 (List.range 4) wSse32 = true := by decide +kernel

theorem rep_sse32 {mn mx : M128 → M128 → M128} (H : MinMax ok key 4 mn mx) {x y : M128}
    (hx : Rep ok key 4 v x .inp) (hy : ∀ i, i < 4 → lane 32 y i = lane 32 x ([1, 0, 3, 2].getD i 0))
    (up : M128 → M128)
    (hup : ∀ z E, Rep ok key 4 v z E →
      Rep ok key 4 v (up z) (wmix (fun i => Nat.blt i 2) (fun i => 2 + i % 2) E E)) :
    let l := mn x y
    let h := mx x y
    let x := unpacklo 32 l h
    let y := unpackhi 32 h l
    let l := mn x y
    let h := mx x y
    let x := unpacklo 32 l h
    let y := up x
    let l := mn x y
    let h := mx x y
    Rep ok key 4 v (unpacklo 32 l h) wSse32 := by
  have ry := hx.shuffle32 hy (by decide)
  have l := hx.mn H ry
  have h := hx.mx H ry
  have x := l.unpacklo (by decide) h
  have y := h.unpackhi (c := 2) (by decide) (by decide) (by decide) l
  have l := x.mn H y
  have h := x.mx H y
  have x := l.unpacklo (by decide) h
  have y := hup _ _ x
  have l := x.mn H y
  have h := x.mx H y
  exact l.unpacklo (by decide) h

end

/-! ### 256 bits -/

theorem lane_lo128 {w k : Nat} (hk : w * k = 128) (x : M256) {i : Nat} (hi : i < k) :
    lane w (lo128 x) i = lane w x i := by
  have : w * (i + 1) ≤ 128 := hk ▸ Nat.mul_le_mul_left _ hi
  apply BitVec.eq_of_getLsbD_eq
  intro j hj
  have h1 : w * i + j < 128 := by rw [Nat.mul_add] at this; omega
  rw [getLsbD_lane, getLsbD_lane, lo128, BitVec.getLsbD_extractLsb', decide_eq_true h1]
  simp

theorem lane_hi128 {w k : Nat} (hk : w * k = 128) (x : M256) {i : Nat} (hi : i < k) :
    lane w (hi128 x) i = lane w x (k + i) := by
  have : w * (i + 1) ≤ 128 := hk ▸ Nat.mul_le_mul_left _ hi
  apply BitVec.eq_of_getLsbD_eq
  intro j hj
  have h1 : w * i + j < 128 := by rw [Nat.mul_add] at this; omega
  have h2 : w * (k + i) + j = 128 + (w * i + j) := by rw [Nat.mul_add, hk]; omega
  rw [getLsbD_lane, getLsbD_lane, hi128, BitVec.getLsbD_extractLsb', decide_eq_true h1, h2]
  simp

theorem lane_concat128 {w k : Nat} (hk : w * k = 128) (a b : M128) {i : Nat} (hi : i < 2 * k) :
    lane w (concat128 a b) i = if i < k then lane w a i else lane w b (i - k) := by
  apply BitVec.eq_of_getLsbD_eq
  intro j hj
  rw [getLsbD_lane, decide_eq_true hj, Bool.true_and, concat128, BitVec.getLsbD_append]
  by_cases h : i < k
  · have : w * (i + 1) ≤ 128 := hk ▸ Nat.mul_le_mul_left _ h
    have h1 : w * i + j < 128 := by rw [Nat.mul_add] at this; omega
    rw [if_pos h1, if_pos h, getLsbD_lane, decide_eq_true hj]; rfl
  · obtain ⟨r, rfl⟩ : ∃ r, i = k + r := ⟨i - k, by omega⟩
    have h1 : w * (k + r) + j = 128 + (w * r + j) := by rw [Nat.mul_add, hk]; omega
    rw [h1, if_neg (by omega), if_neg h, getLsbD_lane, decide_eq_true hj,
      Nat.add_sub_cancel_left, Nat.add_sub_cancel_left]; rfl

section
variable {w : Nat} {ok : BitVec w → Prop} {key : BitVec w → Int} {k : Nat} {v : Nat → Int}

theorem Rep.lo128 (hk : w * k = 128) {x : M256} {E : Nat → Wire} (hx : Rep ok key (2 * k) v x E) :
    Rep ok key k v (lo128 x) E := fun i hi => by
  rw [lane_lo128 hk x hi]; exact hx i (by omega)

theorem Rep.hi128 (hk : w * k = 128) {x : M256} {E : Nat → Wire} (hx : Rep ok key (2 * k) v x E) :
    Rep ok key k v (hi128 x) fun i => E (k + i) := fun i hi => by
  rw [lane_hi128 hk x hi]; exact hx _ (by omega)

def wcat (k : Nat) (E F : Nat → Wire) (i : Nat) : Wire := if Nat.blt i k then E i else F (i - k)

theorem blt_iff (i k : Nat) : Nat.blt i k = decide (i < k) := by
  by_cases h : i < k
  · rw [decide_eq_true h]; exact Nat.ble_eq_true_of_le h
  · rw [decide_eq_false h]; exact Bool.eq_false_iff.mpr fun e => h (Nat.le_of_ble_eq_true e)

theorem Rep.concat (hk : w * k = 128) {a b : M128} {E F : Nat → Wire} (ha : Rep ok key k v a E)
    (hb : Rep ok key k v b F) : Rep ok key (2 * k) v (concat128 a b) (wcat k E F) := fun i hi => by
  rw [lane_concat128 hk a b hi, wcat, blt_iff]
  by_cases h : i < k
  · simp only [h, if_true, decide_true]; exact ha i h
  · simp only [h, if_false, decide_false]; exact hb _ (by omega)

end

/-! ### 16 bit lanes -/

section
variable {ok : BitVec 16 → Prop} {key : BitVec 16 → Int} {v : Nat → Int}

theorem Rep.srli {x : M128} {E : Nat → Wire} (hx : Rep ok key 8 v x E) (h0 : ok 0#16 ∧ key 0#16 = v 8)
    {j b : Nat} (hb : 8 * b = 16 * j) :
    Rep ok key 8 v (srliSi128 x b) fun i => if Nat.blt (i + j) 8 then E (i + j) else .inp 8 := fun i hi => by
  simp only []
  rw [lane_srliSi128 x hb, blt_iff]
  by_cases h : i + j < 8
  · simp only [h, decide_true, if_true]; exact hx _ h
  · simp only [h, decide_false]
    rw [lane_out x (by omega)]; exact h0

theorem Rep.slli {x : M128} {E : Nat → Wire} (hx : Rep ok key 8 v x E) (h0 : ok 0#16 ∧ key 0#16 = v 8)
    {j b : Nat} (hb : 8 * b = 16 * j) :
    Rep ok key 8 v (slliSi128 x b) fun i => if Nat.blt i j then .inp 8 else E (i - j) := fun i hi => by
  simp only []
  rw [lane_slliSi128 x hb (by omega), blt_iff]
  by_cases h : i < j
  · simp only [h, decide_true, if_true]; exact h0
  · simp only [h, decide_false, if_false]; exact hx _ (by omega)

def lowPair (i : Nat) : Bool := Nat.blt (i % 4) 2

theorem fin8' {p : Nat → Prop} (h : ∀ i : Fin 8, p i) (i : Nat) (hi : i < 8) : p i := h ⟨i, hi⟩

theorem Rep.blendAA (I : Isa) {x y : M128} {E F : Nat → Wire} (hx : Rep ok key 8 v x E)
    (hy : Rep ok key 8 v y F) : Rep ok key 8 v (blendEpi16 I 0xaa x y) (wmix evenP id E F) :=
  hx.mix hy _ _ fun i hi => ⟨hi, by
    rw [C37_blend_epi16 I (by decide) x y i hi]
    have : Nat.testBit 0xaa i = !evenP i :=
      fin8' (p := fun i => Nat.testBit 0xaa i = !evenP i) (by decide) i hi
    rw [this]; cases evenP i <;> rfl⟩

theorem Rep.blendCC (I : Isa) {x y : M128} {E F : Nat → Wire} (hx : Rep ok key 8 v x E)
    (hy : Rep ok key 8 v y F) : Rep ok key 8 v (blendEpi16 I 0xcc x y) (wmix lowPair id E F) :=
  hx.mix hy _ _ fun i hi => ⟨hi, by
    rw [C37_blend_epi16 I (by decide) x y i hi]
    have : Nat.testBit 0xcc i = !lowPair i :=
      fin8' (p := fun i => Nat.testBit 0xcc i = !lowPair i) (by decide) i hi
    rw [this]; cases lowPair i <;> rfl⟩

theorem Rep.table8 {x r : M128} {E : Nat → Wire} (hx : Rep ok key 8 v x E) {l : List Nat}
    (h : ∀ i, i < 8 → lane 16 r i = lane 16 x (l.getD i 0)) (hl : ∀ d ∈ l, d < 8) :
    Rep ok key 8 v r fun i => E (l.getD i 0) :=
  hx.sel _ fun i hi => ⟨by
    show l.getD i 0 < 8
    rw [List.getD_eq_getElem?_getD]
    cases e : l[i]? with
    | none => decide
    | some d => exact hl d (List.mem_of_getElem? e), h i hi⟩

theorem Rep.shuffle16 {x : M128} {E : Nat → Wire} (hx : Rep ok key 8 v x E) (imm : Nat) :
    Rep ok key 8 v (shuffleEpi32 x imm) fun i => E (2 * sel4 imm (i / 2) + i % 2) :=
  hx.sel _ fun i hi => ⟨by
    show 2 * sel4 imm (i / 2) + i % 2 < 8
    have : sel4 imm (i / 2) < 4 := Nat.mod_lt _ (by decide)
    omega, lane_shuffleEpi32_half x imm hi⟩

theorem Rep.shufflelo {x : M128} {E : Nat → Wire} (hx : Rep ok key 8 v x E) (imm : Nat) :
    Rep ok key 8 v (shuffleloEpi16 x imm) fun i => E (if Nat.blt i 4 then sel4 imm i else i) :=
  hx.sel _ fun i hi => ⟨by
    show (if Nat.blt i 4 then sel4 imm i else i) < 8
    have : sel4 imm i < 4 := Nat.mod_lt _ (by decide)
    split <;> omega, by
    rw [lane_shufflelo x imm hi, blt_iff]
    by_cases h : i < 4 <;> simp [h]⟩

/-- The expressions of `sortSse16`; input 8 is the zero that the shifts bring in. -/
def wSse16 : Nat → Wire :=
  let x : Nat → Wire := .inp
  let y := fun i => x ([1, 0, 3, 2, 5, 4, 7, 6].getD i 0)
  let lo := wmin x y
  let hi := wmax x y
  let x := wmix evenP id lo hi
  let y := fun i => x ([3, 2, 1, 0, 7, 6, 5, 4].getD i 0)
  let lo := wmin x y
  let hi := wmax x y
  let x := wmix lowPair id lo hi
  let y := fun i => if Nat.blt (i + 1) 8 then x (i + 1) else .inp 8
  let lo := wmin x y
  let hi := wmax x y
  let x := wmix evenP id lo fun i => if Nat.blt i 1 then .inp 8 else hi (i - 1)
  let y := fun i => x (2 * sel4 (mmShuffle 1 0 3 2) (i / 2) + i % 2)
  let y := fun i => y (if Nat.blt i 4 then sel4 (mmShuffle 0 1 2 3) i else i)
  let lo := wmin x y
  let hi := wmax x y
  let x := wmix evenP (· / 2) lo hi
  let y := fun i => if Nat.blt (i + 4) 8 then x (i + 4) else .inp 8
  let lo := wmin x y
  let hi := wmax x y
  let x := wmix evenP (· / 2) lo hi
  let y := fun i => if Nat.blt (i + 4) 8 then x (i + 4) else .inp 8
  let lo := wmin x y
  let hi := wmax x y
  wmix evenP (· / 2) lo hi

theorem check_sse16 : check 9 (List.range 8) wSse16 = true := by decide +kernel

theorem rep_sse16 (I : Isa) {mn mx : M128 → M128 → M128} (H : MinMax ok key 8 mn mx) {x : M128}
    (hx : Rep ok key 8 v x .inp) (h0 : ok 0#16 ∧ key 0#16 = v 8) :
    ∃ r, sortSse16 I mn mx x = some r ∧ Rep ok key 8 v r wSse16 := by
  obtain ⟨y1, e1, p1⟩ := (C37_permute_epi16 (d0 := 1) (d1 := 0) (d2 := 3) (d3 := 2) (d4 := 5) (d5 := 4)
    (d6 := 7) (d7 := 6) (by decide) (by decide) x).2.2
  have y := hx.table8 p1 (by decide)
  have lo := hx.mn H y
  have hi := hx.mx H y
  have x := lo.blendAA I hi
  obtain ⟨y2, e2, p2⟩ := (C37_permute_epi16 (d0 := 3) (d1 := 2) (d2 := 1) (d3 := 0) (d4 := 7) (d5 := 6)
    (d6 := 5) (d7 := 4) (by decide) (by decide) _).2.2
  have y := x.table8 p2 (by decide)
  have lo := x.mn H y
  have hi := x.mx H y
  have x := lo.blendCC I hi
  have y := x.srli h0 (j := 1) (b := 2) rfl
  have lo := x.mn H y
  have hi := x.mx H y
  have x := lo.blendAA I (hi.slli h0 (j := 1) (b := 2) rfl)
  have y := x.shuffle16 (mmShuffle 1 0 3 2)
  have y := y.shufflelo (mmShuffle 0 1 2 3)
  have lo := x.mn H y
  have hi := x.mx H y
  have x := lo.unpacklo (by decide) hi
  have y := x.srli h0 (j := 4) (b := 8) rfl
  have lo := x.mn H y
  have hi := x.mx H y
  have x := lo.unpacklo (by decide) hi
  have y := x.srli h0 (j := 4) (b := 8) rfl
  have lo := x.mn H y
  have hi := x.mx H y
  refine ⟨_, ?_, lo.unpacklo (by decide) hi⟩
  unfold sortSse16
  simp only [e1, e2, bind, Option.bind]

/-! ### AVX2, 16 bit -/

theorem blendOdd_some (I : Isa) (x y : M128) : ∃ r, blendOdd I x y = some r ∧
    ∀ i, i < 8 → i < 8 ∧ lane 16 r i = if evenP i then lane 16 x i else lane 16 y i := by
  obtain ⟨r, e, h⟩ := (C37_blend_pos I (d0 := 0) (d1 := 9) (d2 := 2) (d3 := 11) (d4 := 4) (d5 := 13)
    (d6 := 6) (d7 := 15) (by decide) (by decide) (by decide) (by decide) (by decide) (by decide)
    (by decide) (by decide) x y).2.2
  refine ⟨r, e, fun i hi => ⟨hi, ?_⟩⟩
  rw [h i hi]
  match i, hi with
  | 0, _ | 1, _ | 2, _ | 3, _ | 4, _ | 5, _ | 6, _ | 7, _ => rfl

theorem blendPairs_some (I : Isa) (x y : M128) : ∃ r, blendPairs I x y = some r ∧
    ∀ i, i < 8 → i < 8 ∧ lane 16 r i = if lowPair i then lane 16 x i else lane 16 y i := by
  obtain ⟨r, e, h⟩ := (C37_blend_pos I (d0 := 0) (d1 := 1) (d2 := 10) (d3 := 11) (d4 := 4) (d5 := 5)
    (d6 := 14) (d7 := 15) (by decide) (by decide) (by decide) (by decide) (by decide) (by decide)
    (by decide) (by decide) x y).2.2
  refine ⟨r, e, fun i hi => ⟨hi, ?_⟩⟩
  rw [h i hi]
  match i, hi with
  | 0, _ | 1, _ | 2, _ | 3, _ | 4, _ | 5, _ | 6, _ | 7, _ => rfl

theorem permLo_some {d0 d1 d2 d3 : Nat} (h : d0 < 4 ∧ d1 < 4 ∧ d2 < 4 ∧ d3 < 4) (x : M128) :
    ∃ r, memPermuteLo d0 d1 d2 d3 x = some r ∧
      ∀ i, i < 8 → lane 16 r i = lane 16 x ([d0, d1, d2, d3, 4, 5, 6, 7].getD i 0) :=
  (C37_permute_epi16 (d4 := 4) (d5 := 4) (d6 := 4) (d7 := 4) h (by decide) x).1

theorem permHi_some {d4 d5 d6 d7 : Nat}
    (h : (4 ≤ d4 ∧ d4 < 8) ∧ (4 ≤ d5 ∧ d5 < 8) ∧ (4 ≤ d6 ∧ d6 < 8) ∧ 4 ≤ d7 ∧ d7 < 8) (x : M128) :
    ∃ r, memPermuteHi d4 d5 d6 d7 x = some r ∧
      ∀ i, i < 8 → lane 16 r i = lane 16 x ([0, 1, 2, 3, d4, d5, d6, d7].getD i 0) :=
  (C37_permute_epi16 (d0 := 0) (d1 := 0) (d2 := 0) (d3 := 0) (by decide) h x).2.1

theorem wide2 {x r : M128} {q d : Nat} (h : lane (16 * 2) r q = lane (16 * 2) x d) :
    lane 16 r (2 * q) = lane 16 x (2 * d) ∧ lane 16 r (2 * q + 1) = lane 16 x (2 * d + 1) := by
  have a := lane_of_wide 16 2 (i := 2 * q) (by decide) (by omega) h
  have b := lane_of_wide 16 2 (i := 2 * q + 1) (by decide) (by omega) h
  rw [show 2 * d + 2 * q % 2 = 2 * d by omega] at a
  rw [show 2 * d + (2 * q + 1) % 2 = 2 * d + 1 by omega] at b
  exact ⟨a, b⟩

theorem blend4_some (I : Isa) (x y : M128) : ∃ r, memBlend4 I 0 9 2 11 x y = some r ∧
    ∀ i, i < 8 → i < 8 ∧ lane 16 r i = if lowPair i then lane 16 x i else lane 16 y i := by
  obtain ⟨r, e, -, h⟩ := (C37_blend_pos I (d0 := 0) (d1 := 9) (d2 := 2) (d3 := 11) (d4 := 4) (d5 := 13)
    (d6 := 6) (d7 := 15) (by decide) (by decide) (by decide) (by decide) (by decide) (by decide)
    (by decide) (by decide) x y).2.1
  refine ⟨r, e, fun i hi => ⟨hi, ?_⟩⟩
  have h0 : lane (16 * 2) r 0 = lane (16 * 2) x 0 := h 0 (by decide)
  have h1 : lane (16 * 2) r 1 = lane (16 * 2) y 1 := h 1 (by decide)
  have h2 : lane (16 * 2) r 2 = lane (16 * 2) x 2 := h 2 (by decide)
  have h3 : lane (16 * 2) r 3 = lane (16 * 2) y 3 := h 3 (by decide)
  match i, hi with
  | 0, _ => exact (wide2 h0).1.trans (if_pos rfl).symm
  | 1, _ => exact (wide2 h0).2.trans (if_pos rfl).symm
  | 2, _ => exact (wide2 h1).1.trans (if_neg (by decide)).symm
  | 3, _ => exact (wide2 h1).2.trans (if_neg (by decide)).symm
  | 4, _ => exact (wide2 h2).1.trans (if_pos rfl).symm
  | 5, _ => exact (wide2 h2).2.trans (if_pos rfl).symm
  | 6, _ => exact (wide2 h3).1.trans (if_neg (by decide)).symm
  | 7, _ => exact (wide2 h3).2.trans (if_neg (by decide)).symm

theorem permPs_some (x : M128) : ∃ r, memPermutePs 1 0 3 2 x = some r ∧
    ∀ i, i < 8 → lane 16 r i = lane 16 x ([2, 3, 0, 1, 6, 7, 4, 5].getD i 0) := by
  obtain ⟨r, e, h⟩ := (C37_permute (d0 := 1) (d1 := 0) (d2 := 3) (d3 := 2) (by decide) x).1
  refine ⟨r, e, fun i hi => ?_⟩
  have h0 : lane (16 * 2) r 0 = lane (16 * 2) x 1 := h 0 (by decide)
  have h1 : lane (16 * 2) r 1 = lane (16 * 2) x 0 := h 1 (by decide)
  have h2 : lane (16 * 2) r 2 = lane (16 * 2) x 3 := h 2 (by decide)
  have h3 : lane (16 * 2) r 3 = lane (16 * 2) x 2 := h 3 (by decide)
  match i, hi with
  | 0, _ => exact (wide2 h0).1
  | 1, _ => exact (wide2 h0).2
  | 2, _ => exact (wide2 h1).1
  | 3, _ => exact (wide2 h1).2
  | 4, _ => exact (wide2 h2).1
  | 5, _ => exact (wide2 h2).2
  | 6, _ => exact (wide2 h3).1
  | 7, _ => exact (wide2 h3).2

/-- The expressions of `sortAvx16`. -/
def wAvx16 : Nat → Wire :=
  let permLo := fun (a b c d : Nat) (E : Nat → Wire) (i : Nat) => E ([a, b, c, d, 4, 5, 6, 7].getD i 0)
  let permHi := fun (a b c d : Nat) (E : Nat → Wire) (i : Nat) => E ([0, 1, 2, 3, a, b, c, d].getD i 0)
  let x : Nat → Wire := .inp
  let y := fun i => .inp (8 + i)
  let l := wmin x y
  let h := wmax x y
  let x := wmix evenP (· / 2) l h
  let y := wmix evenP (fun i => 4 + i / 2) h l
  let l := wmin x y
  let h := wmax x y
  let x := permLo 1 0 3 2 (wmix evenP (fun i => i) l h)
  let y := permHi 5 4 7 6 (wmix evenP (fun i => i) h l)
  let l := wmin x y
  let h := wmax x y
  let x := wmix evenP (· / 2) h l
  let y := wmix evenP (fun i => 4 + i / 2) l h
  let l := wmin x y
  let h := wmax x y
  let x := permLo 2 3 0 1 (wmix lowPair (fun i => i) h l)
  let y := permHi 6 7 4 5 (wmix lowPair (fun i => i) l h)
  let l := wmin x y
  let h := wmax x y
  let x := permHi 5 4 7 6 (wmix evenP (fun i => i) l h)
  let y := permLo 1 0 3 2 (wmix evenP (fun i => i) h l)
  let l := wmin x y
  let h := wmax x y
  let x := wmix evenP (· / 2) l h
  let y := wmix evenP (fun i => 4 + i / 2) h l
  let l := wmin x y
  let h := wmax x y
  let x := wmix (fun i => Nat.blt i 4) (· % 4) l h
  let y := wmix (fun i => Nat.blt i 4) (fun i => 4 + i % 4) l h
  let l := wmin x y
  let h := wmax x y
  let x := fun i => wmix lowPair (fun i => i) h l ([2, 3, 0, 1, 6, 7, 4, 5].getD i 0)
  let y := wmix lowPair (fun i => i) l h
  let l := wmin x y
  let h := wmax x y
  let x := wmix evenP (fun i => i) l h
  let y := permLo 1 0 3 2 (permHi 5 4 7 6 (wmix evenP (fun i => i) h l))
  let l := wmin x y
  let h := wmax x y
  wcat 8 (wmix evenP (· / 2) l h) (wmix evenP (fun i => 4 + i / 2) l h)

theorem check_avx16 : check 16 (List.range 16) wAvx16 = true := by decide +kernel

theorem rep_avx16 (I : Isa) {mn mx : M128 → M128 → M128} (H : MinMax ok key 8 mn mx) {u : M256}
    (hu : Rep ok key 16 v u .inp) :
    ∃ r, sortAvx16 I mn mx u = some r ∧ Rep ok key 16 v r wAvx16 := by
  have x : Rep ok key 8 v (Model.lo128 u) .inp := hu.lo128 (k := 8) (by decide)
  have y : Rep ok key 8 v (Model.hi128 u) fun i => .inp (8 + i) := hu.hi128 (k := 8) (by decide)
  have l := x.mn H y
  have h := x.mx H y
  have x := l.unpacklo (by decide) h
  have y := h.unpackhi (c := 4) (by decide) (by decide) (by decide) l
  have l := x.mn H y
  have h := x.mx H y
  obtain ⟨b1, e1, p1⟩ := blendOdd_some I _ _
  obtain ⟨x1, e2, p2⟩ := permLo_some (d0 := 1) (d1 := 0) (d2 := 3) (d3 := 2) (by decide) b1
  have x := (l.mix h _ _ p1).table8 p2 (by decide)
  obtain ⟨b2, e3, p3⟩ := blendOdd_some I _ _
  obtain ⟨y1, e4, p4⟩ := permHi_some (d4 := 5) (d5 := 4) (d6 := 7) (d7 := 6) (by decide) b2
  have y := (h.mix l _ _ p3).table8 p4 (by decide)
  have l := x.mn H y
  have h := x.mx H y
  have x := h.unpacklo (by decide) l
  have y := l.unpackhi (c := 4) (by decide) (by decide) (by decide) h
  have l := x.mn H y
  have h := x.mx H y
  obtain ⟨b3, e5, p5⟩ := blendPairs_some I _ _
  obtain ⟨x2, e6, p6⟩ := permLo_some (d0 := 2) (d1 := 3) (d2 := 0) (d3 := 1) (by decide) b3
  have x := (h.mix l _ _ p5).table8 p6 (by decide)
  obtain ⟨b4, e7, p7⟩ := blendPairs_some I _ _
  obtain ⟨y2, e8, p8⟩ := permHi_some (d4 := 6) (d5 := 7) (d6 := 4) (d7 := 5) (by decide) b4
  have y := (l.mix h _ _ p7).table8 p8 (by decide)
  have l := x.mn H y
  have h := x.mx H y
  obtain ⟨b5, e9, p9⟩ := blendOdd_some I _ _
  obtain ⟨x3, e10, p10⟩ := permHi_some (d4 := 5) (d5 := 4) (d6 := 7) (d7 := 6) (by decide) b5
  have x := (l.mix h _ _ p9).table8 p10 (by decide)
  obtain ⟨b6, e11, p11⟩ := blendOdd_some I _ _
  obtain ⟨y3, e12, p12⟩ := permLo_some (d0 := 1) (d1 := 0) (d2 := 3) (d3 := 2) (by decide) b6
  have y := (h.mix l _ _ p11).table8 p12 (by decide)
  have l := x.mn H y
  have h := x.mx H y
  have x := l.unpacklo (by decide) h
  have y := h.unpackhi (c := 4) (by decide) (by decide) (by decide) l
  have l := x.mn H y
  have h := x.mx H y
  have x := l.unpacklo64 (c := 4) (by decide) (by decide) (by decide) h
  have y := l.unpackhi64 (c := 4) (by decide) (by decide) (by decide) h
  have l := x.mn H y
  have h := x.mx H y
  obtain ⟨b7, e13, p13⟩ := blend4_some I _ _
  obtain ⟨x4, e14, p14⟩ := permPs_some b7
  have x := (h.mix l _ _ p13).table8 p14 (by decide)
  obtain ⟨y4, e15, p15⟩ := blend4_some I _ _
  have y := l.mix h _ _ p15
  have l := x.mn H y
  have h := x.mx H y
  obtain ⟨x5, e16, p16⟩ := blendOdd_some I _ _
  have x := l.mix h _ _ p16
  obtain ⟨b8, e17, p17⟩ := blendOdd_some I _ _
  obtain ⟨b9, e18, p18⟩ := permHi_some (d4 := 5) (d5 := 4) (d6 := 7) (d7 := 6) (by decide) b8
  obtain ⟨y5, e19, p19⟩ := permLo_some (d0 := 1) (d1 := 0) (d2 := 3) (d3 := 2) (by decide) b9
  have y := ((h.mix l _ _ p17).table8 p18 (by decide)).table8 p19 (by decide)
  have l := x.mn H y
  have h := x.mx H y
  refine ⟨_, ?_, (l.unpacklo (by decide) h).concat (k := 8) (by decide)
    (l.unpackhi (c := 4) (by decide) (by decide) (by decide) h)⟩
  unfold sortAvx16
  simp only [e1, e2, e3, e4, e5, e6, e7, e8, e9, e10, e11, e12, e13, e14, e15, e16, e17, e18, e19, bind,
    Option.bind]

end

end Vc.Lemma
