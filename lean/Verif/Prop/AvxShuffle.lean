import Verif.Lemma.AvxShuffle

/-!
C37 (permute, shuffle and blend helpers), C38 (lane movements) of the AVX implementation.
-/

namespace Vc.Prop
open Vc.Model Vc.Spec Vc.Lemma

/-! ### C37 -/

/-- `Mem::permute<d0, d1, d2, d3>` of double, float and int registers.  The positions of the double
permutation name lanes of the register; those of the others lanes of a half. -/
theorem C37_avx_permute {d0 d1 d2 d3 : Nat} (x : M256) :
    (d0 < 2 → d1 < 2 → 2 ≤ d2 → d2 < 4 → 2 ≤ d3 → d3 < 4 → ∃ r, memPermutePd256 d0 d1 d2 d3 x = some r ∧
      ∀ i, i < 4 → Model.lane 64 r i = Model.lane 64 x ([d0, d1, d2, d3].getD i 0)) ∧
    (d0 < 4 → d1 < 4 → d2 < 4 → d3 < 4 → ∃ r, memPermutePs256 d0 d1 d2 d3 x = some r ∧
      ∀ i, i < 8 → Model.lane 32 r i = Model.lane 32 x (4 * (i / 4) + [d0, d1, d2, d3].getD (i % 4) 0)) := by
  constructor
  · intro h0 h1 h2 h2' h3 h3'
    refine ⟨_, if_pos (by omega), fun i hi => ?_⟩
    unfold permutePd256
    rw [lane_ofLanes _ (by omega)]
    congr 1
    match i, hi with
    | 0, _ => simp only [List.getD_cons_zero]; omega
    | 1, _ => simp only [List.getD_cons_zero, List.getD_cons_succ]; omega
    | 2, _ => simp only [List.getD_cons_zero, List.getD_cons_succ]; omega
    | 3, _ => simp only [List.getD_cons_zero, List.getD_cons_succ]; omega
  · intro h0 h1 h2 h3
    have e := sel4_pack (d0 := d0) (d1 := d1) (d2 := d2) (d3 := d3) (by omega)
    refine ⟨_, if_pos (by omega), fun i hi => ?_⟩
    unfold permutePs256
    rw [lane_ofLanes _ (by omega), Nat.mul_comm (i / 4)]
    have : i % 4 = 0 ∨ i % 4 = 1 ∨ i % 4 = 2 ∨ i % 4 = 3 := by omega
    rcases this with h | h | h | h <;> rw [h]
    · rw [e.1]; rfl
    · rw [e.2.1]; rfl
    · rw [e.2.2.1]; rfl
    · rw [e.2.2.2]; rfl

/-- `Mem::permuteLo`, `Mem::permuteHi`: the four low (high) 16-bit lanes of both halves. -/
theorem C37_avx_permute_epi16 {d0 d1 d2 d3 : Nat} (h : d0 < 4 ∧ d1 < 4 ∧ d2 < 4 ∧ d3 < 4) (x : M256) :
    (∃ r, memPermuteLo256 d0 d1 d2 d3 x = some r ∧ ∀ i, i < 16 → Model.lane 16 r i =
      if i % 8 < 4 then Model.lane 16 x (8 * (i / 8) + [d0, d1, d2, d3].getD (i % 8) 0) else Model.lane 16 x i) ∧
    (∃ r, memPermuteHi256 (4 + d0) (4 + d1) (4 + d2) (4 + d3) x = some r ∧ ∀ i, i < 16 → Model.lane 16 r i =
      if i % 8 < 4 then Model.lane 16 x i
      else Model.lane 16 x (8 * (i / 8) + [4 + d0, 4 + d1, 4 + d2, 4 + d3].getD (i % 8 - 4) 0)) := by
  have e := sel4_pack (d0 := d0) (d1 := d1) (d2 := d2) (d3 := d3) (by omega)
  have sel : ∀ j, j < 4 → sel4 (d0 + d1 * 4 + d2 * 16 + d3 * 64) j = [d0, d1, d2, d3].getD j 0 := fun j hj =>
    match j, hj with | 0, _ => e.1 | 1, _ => e.2.1 | 2, _ => e.2.2.1 | 3, _ => e.2.2.2
  have sel' : ∀ j, j < 4 → 4 + sel4 (d0 + d1 * 4 + d2 * 16 + d3 * 64) j =
      [4 + d0, 4 + d1, 4 + d2, 4 + d3].getD j 0 := fun j hj => by
    rw [sel j hj]
    match j, hj with | 0, _ => rfl | 1, _ => rfl | 2, _ => rfl | 3, _ => rfl
  have bound : ∀ j, sel4 (d0 + d1 * 4 + d2 * 16 + d3 * 64) j < 4 := fun j => Nat.mod_lt _ (by decide)
  have hc : 16 * 8 = 128 := rfl
  constructor
  · refine ⟨_, if_pos (by omega), fun i hi => ?_⟩
    unfold shufflelo256 split1
    rw [lane_concat128 hc _ _ hi]
    by_cases h8 : i < 8
    · rw [if_pos h8, lane_shufflelo _ _ h8, Nat.mod_eq_of_lt h8]
      by_cases h4 : i < 4
      · rw [if_pos h4, if_pos h4, lane_lo128 hc _ (by have := bound i; omega), sel _ h4]; congr 1; omega
      · rw [if_neg h4, if_neg h4, lane_lo128 hc _ h8]
    · rw [if_neg h8, lane_shufflelo _ _ (by omega), show i % 8 = i - 8 by omega]
      by_cases h4 : i - 8 < 4
      · rw [if_pos h4, if_pos h4, lane_hi128 hc _ (by have := bound (i - 8); omega), sel _ h4]; congr 1; omega
      · rw [if_neg h4, if_neg h4, lane_hi128 hc _ (by omega)]; congr 1; omega
  · refine ⟨shufflehi256 x (d0 + d1 * 4 + d2 * 16 + d3 * 64), ?_, fun i hi => ?_⟩
    · unfold memPermuteHi256
      rw [if_pos (by omega), Nat.add_sub_cancel_left, Nat.add_sub_cancel_left, Nat.add_sub_cancel_left,
        Nat.add_sub_cancel_left]
    unfold shufflehi256 split1
    rw [lane_concat128 hc _ _ hi]
    by_cases h8 : i < 8
    · rw [if_pos h8, lane_shufflehi _ _ h8, Nat.mod_eq_of_lt h8]
      by_cases h4 : i < 4
      · rw [if_pos h4, if_pos h4, lane_lo128 hc _ h8]
      · rw [if_neg h4, if_neg h4, lane_lo128 hc _ (by have := bound (i - 4); omega), sel' _ (by omega)]
        congr 1; omega
    · rw [if_neg h8, lane_shufflehi _ _ (by omega), show i % 8 = i - 8 by omega]
      by_cases h4 : i - 8 < 4
      · rw [if_pos h4, if_pos h4, lane_hi128 hc _ (by omega)]; congr 1; omega
      · rw [if_neg h4, if_neg h4, lane_hi128 hc _ (by have := bound (i - 8 - 4); omega), sel' _ (by omega)]
        congr 1; omega

/-- `Mem::permute4x64`. -/
theorem C37_avx_permute4x64 {d0 d1 d2 d3 : Nat} (h : d0 < 4 ∧ d1 < 4 ∧ d2 < 4 ∧ d3 < 4) (x : M256) :
    ∃ r, permute4x64 d0 d1 d2 d3 x = some r ∧
      ∀ i, i < 4 → Model.lane 64 r i = Model.lane 64 x ([d0, d1, d2, d3].getD i 0) := by
  obtain ⟨r, e, h0, h1, h2, h3⟩ := lane_permute4x64 (d0 := d0) (d1 := d1) (d2 := d2) (d3 := d3) (by omega) x
  exact ⟨r, e, fun i hi => match i, hi with | 0, _ => h0 | 1, _ => h1 | 2, _ => h2 | 3, _ => h3⟩

/-- `Mem::permute128<L, H>`: both halves of the result are the halves of `x` named, or zero. -/
theorem C37_avx_permute128 (l h : Option Nat) (hl : ∀ p, l = some p → p < 2) (hh : ∀ p, h = some p → p < 2)
    (x : M256) (j : Nat) (hj : j < 2) :
    Model.lane 128 (memPermute128 l h x) j =
      match (if j = 0 then l else h) with
      | none => 0#128
      | some p => Model.lane 128 x p := by
  have l0 := lane128_lo x
  have l1 := lane128_hi x
  have hp : ∀ p : Option Nat, (∀ q, p = some q → q < 2) → p = none ∨ p = some 0 ∨ p = some 1 := by
    intro p hp
    match p with
    | none => exact .inl rfl
    | some 0 => exact .inr (.inl rfl)
    | some 1 => exact .inr (.inr rfl)
    | some (q + 2) => have := hp _ rfl; omega
  have key : ∀ y z : M128, Model.lane 128 (concat128 y z) j = if j = 0 then y else z := fun y z => by
    rw [lane_concat128 (w := 128) (k := 1) rfl _ _ hj]
    by_cases h0 : j = 0
    · rw [if_pos (by omega), if_pos h0, h0, lane128_self]
    · rw [if_neg (by omega), if_neg h0, show j - 1 = 0 by omega, lane128_self]
  unfold memPermute128 permute2f128
  rw [key]
  by_cases h0 : j = 0
  · rw [if_pos h0, if_pos h0]
    rcases hp l hl with rfl | rfl | rfl <;> rcases hp h hh with rfl | rfl | rfl <;>
      first | rfl | exact l0.symm | exact l1.symm
  · rw [if_neg h0, if_neg h0]
    rcases hp l hl with rfl | rfl | rfl <;> rcases hp h hh with rfl | rfl | rfl <;>
      first | rfl | exact l0.symm | exact l1.symm

/-- `Mem::shuffle128<L, H>` (and `Reg::permute128<H, L>` of two registers) for the positions X0, X1, Y0, Y1. -/
theorem C37_avx_shuffle128 {l h : Nat} (hl : l < 2 ∨ 8 ≤ l ∧ l < 10) (hh : h < 2 ∨ 8 ≤ h ∧ h < 10) (x y : M256) :
    ∃ r, memShuffle128 l h x y = some r ∧
      Model.lane 128 r 0 = pick (Model.lane 128 x) (Model.lane 128 y) l ∧
      Model.lane 128 r 1 = pick (Model.lane 128 x) (Model.lane 128 y) h := by
  have l0 := lane128_lo
  have l1 := lane128_hi
  have hl' : l = 0 ∨ l = 1 ∨ l = 8 ∨ l = 9 := by omega
  have hh' : h = 0 ∨ h = 1 ∨ h = 8 ∨ h = 9 := by omega
  refine ⟨_, if_pos (by omega), ?_, ?_⟩
  · rw [l0, show ∀ i, lo128 (permute2f128 x y i) = half128 x y (i % 16) from fun i => lo128_concat _ _]
    rcases hl' with rfl | rfl | rfl | rfl <;> rcases hh' with rfl | rfl | rfl | rfl <;>
      first | exact (l0 _).symm | exact (l1 _).symm
  · rw [l1, show ∀ i, hi128 (permute2f128 x y i) = half128 x y (i / 16 % 16) from fun i => hi128_concat _ _]
    rcases hl' with rfl | rfl | rfl | rfl <;> rcases hh' with rfl | rfl | rfl | rfl <;>
      first | exact (l0 _).symm | exact (l1 _).symm

/-- `Mem::shuffle` of double and float registers. -/
theorem C37_avx_shuffle {d0 d1 d2 d3 : Nat} (x y : M256) :
    (d0 < 2 → 8 ≤ d1 → d1 < 10 → 2 ≤ d2 → d2 < 4 → 10 ≤ d3 → d3 < 12 →
      ∃ r, memShufflePd256 d0 d1 d2 d3 x y = some r ∧
      ∀ i, i < 4 → Model.lane 64 r i = pick (Model.lane 64 x) (Model.lane 64 y) ([d0, d1, d2, d3].getD i 0)) ∧
    (d0 < 4 → d1 < 4 → 8 ≤ d2 → d2 < 12 → 8 ≤ d3 → d3 < 12 → ∃ r, memShufflePs256 d0 d1 d2 d3 x y = some r ∧
      ∀ i, i < 8 → Model.lane 32 r i = pick (fun p => Model.lane 32 x (4 * (i / 4) + p))
        (fun p => Model.lane 32 y (4 * (i / 4) + p)) ([d0, d1, d2, d3].getD (i % 4) 0)) := by
  constructor
  · intro h0 h1 h1' h2 h2' h3 h3'
    refine ⟨_, if_pos (by omega), fun i hi => ?_⟩
    unfold shufflePd256 pick
    rw [lane_ofLanes _ (by omega)]
    match i, hi with
    | 0, _ => rw [if_pos rfl]; simp only [List.getD_cons_zero]; rw [if_pos (by omega)]; congr 1; omega
    | 1, _ =>
      rw [if_neg (by decide)]; simp only [List.getD_cons_zero, List.getD_cons_succ]; rw [if_neg (by omega)]
      congr 1; omega
    | 2, _ =>
      rw [if_pos (by decide)]; simp only [List.getD_cons_zero, List.getD_cons_succ]; rw [if_pos (by omega)]
      congr 1; omega
    | 3, _ =>
      rw [if_neg (by decide)]; simp only [List.getD_cons_zero, List.getD_cons_succ]; rw [if_neg (by omega)]
      congr 1; omega
  · intro h0 h1 h2 h2' h3 h3'
    have e := sel4_pack (d0 := d0) (d1 := d1) (d2 := d2 - 8) (d3 := d3 - 8) (by omega)
    refine ⟨_, if_pos (by omega), fun i hi => ?_⟩
    unfold pick
    rw [lane_shufflePs256 _ _ _ hi]
    have : i % 4 = 0 ∨ i % 4 = 1 ∨ i % 4 = 2 ∨ i % 4 = 3 := by omega
    rcases this with h | h | h | h <;> rw [h] <;> simp only [List.getD_cons_zero, List.getD_cons_succ]
    · rw [if_pos (by decide), if_pos (by omega), e.1]; congr 1; omega
    · rw [if_pos (by decide), if_pos (by omega), e.2.1]; congr 1; omega
    · rw [if_neg (by decide), if_neg (by omega), e.2.2.1]; congr 1; omega
    · rw [if_neg (by decide), if_neg (by omega), e.2.2.2]; congr 1; omega

/-- `Mem::blend` of eight lanes: `d i` chooses between `Xi` (`false`) and `Yi` (`true`). -/
theorem C37_avx_blend (b : Nat → Bool) (x y : M256) :
    ∃ r, memBlend8ps (if b 0 then 8 else 0) (if b 1 then 9 else 1) (if b 2 then 10 else 2) (if b 3 then 11 else 3)
        (if b 4 then 12 else 4) (if b 5 then 13 else 5) (if b 6 then 14 else 6) (if b 7 then 15 else 7) x y = some r ∧
      ∀ i, i < 8 → Model.lane 32 r i = if b i then Model.lane 32 y i else Model.lane 32 x i := by
  refine ⟨_, if_pos (by
    refine ⟨?_, ?_, ?_, ?_, ?_, ?_, ?_, ?_⟩ <;> split <;> decide), fun i hi => ?_⟩
  rw [lane_blendImm _ _ _ (by omega)]
  have : ∀ b0 b1 b2 b3 b4 b5 b6 b7 : Bool, ∀ i : Fin 8,
      Nat.testBit ((if b0 then 8 else 0) / 8 * 1 + (if b1 then 9 else 1) / 9 * 2 + (if b2 then 10 else 2) / 10 * 4 +
        (if b3 then 11 else 3) / 11 * 8 + (if b4 then 12 else 4) / 12 * 16 + (if b5 then 13 else 5) / 13 * 32 +
        (if b6 then 14 else 6) / 14 * 64 + (if b7 then 15 else 7) / 15 * 128) i =
      [b0, b1, b2, b3, b4, b5, b6, b7].getD i false := by decide +kernel
  rw [this _ _ _ _ _ _ _ _ ⟨i, hi⟩]
  match i, hi with
  | 0, _ => rfl | 1, _ => rfl | 2, _ => rfl | 3, _ => rfl
  | 4, _ => rfl | 5, _ => rfl | 6, _ => rfl | 7, _ => rfl

example (x y : M256) : ∃ r, memShufflePs256 1 2 8 10 x y = some r ∧ Model.lane 32 r 5 = Model.lane 32 x 6 ∧
    Model.lane 32 r 7 = Model.lane 32 y 6 := by
  obtain ⟨r, e, h⟩ := (C37_avx_shuffle (d0 := 1) (d1 := 2) (d2 := 8) (d3 := 10) x y).2 (by decide) (by decide)
    (by decide) (by decide) (by decide) (by decide)
  exact ⟨r, e, h 5 (by decide), h 7 (by decide)⟩

/-! ### C38 -/

private theorem shape {bytes size : Nat} (h : AvxShape bytes size) : ∃ c, size = 2 * c ∧ 0 < c ∧ bytes * c = 16 ∧
    (bytes = 8 ∧ c = 2 ∨ bytes = 4 ∧ c = 4 ∨ bytes = 2 ∧ c = 8) := by
  rcases h with ⟨rfl, rfl⟩ | ⟨rfl, rfl⟩ | ⟨rfl, rfl⟩
  · exact ⟨2, by decide⟩
  · exact ⟨4, by decide⟩
  · exact ⟨8, by decide⟩

/-- `shifted(k)` of the AVX vectors: every `k` with compilers other than GCC.  Missing: with GCC, the upper
half of the lanes for `size / 2 ≤ k < size` (next theorem). -/
theorem C38_avx_shifted_partial {bytes size : Nat} (h : AvxShape bytes size) (ext : Option M128) (u : M128) (x : M256)
    (k : Int) (i : Nat) (hi : i < size)
    (he : ext = none ∨ i < size / 2 ∨ k < size / 2 ∨ size ≤ k) :
    Model.lane (8 * bytes) (avxShifted ext u bytes x k) i =
      shiftLane size 0#(8 * bytes) (fun j => Model.lane (8 * bytes) x j) k i := by
  obtain ⟨c, rfl, h0, hm, hs⟩ := shape h
  rw [lane_avxShifted hs ext u x k hi]
  by_cases hc : i < c ∨ k < c ∨ 2 * (c : Int) ≤ k
  · rw [if_pos hc]
  · rw [if_neg hc]
    rcases he with rfl | he
    · unfold shiftLane
      rw [if_neg (by omega)]
      exact lane_zero ..
    · omega

/-- With GCC `shifted(4)` of a float vector leaves the four upper lanes undefined. -/
theorem C38_avx_shifted_violated : ¬ ∀ (bytes size : Nat) (ext : Option M128) (u : M128) (x : M256) (k : Int) (i : Nat),
    AvxShape bytes size → i < size →
    Model.lane (8 * bytes) (avxShifted ext u bytes x k) i =
      shiftLane size 0#(8 * bytes) (fun j => Model.lane (8 * bytes) x j) k i := by
  intro h
  have h4 := h 4 8 (some (BitVec.allOnes 128)) 0#128 0#256 4 4 (.inr (.inl ⟨rfl, rfl⟩)) (by decide)
  rw [lane_avxShifted (c := 4) (.inr (.inl ⟨rfl, rfl⟩)) _ _ _ _ (by decide), if_neg (by decide)] at h4
  exact absurd h4 (by decide +kernel)

private theorem lane_const {bytes c : Nat} (hm : bytes * c = 16) (avx2 : Bool) (x y : M256) {n : Nat} (hn : n ≤ c)
    {i : Nat} (hi : i < 2 * c) :
    Model.lane (8 * bytes) (avxShiftConst avx2 (n * bytes) x y) i =
      shiftInLane (2 * c) 0#(8 * bytes) (fun j => Model.lane (8 * bytes) x j) (fun j => Model.lane (8 * bytes) y j) n i := by
  have hc : 8 * bytes * c = 128 := by rw [Nat.mul_assoc, hm]
  have e : avxShiftConst avx2 (n * bytes) x y =
      concat128 (alignrEpi8 (hi128 x) (lo128 x) (n * bytes)) (alignrEpi8 (lo128 y) (hi128 x) (n * bytes)) := by
    unfold avxShiftConst alignr256
    cases avx2
    · rfl
    · rw [if_pos rfl, show permute2f128 x y 0x21 = concat128 (hi128 x) (lo128 y) from rfl, lo128_concat, hi128_concat]
  rw [e, lane_slide hm _ _ _ hn hi]
  unfold shiftInLane
  simp only
  by_cases h1 : i + n < c
  · rw [if_pos h1, if_pos (by omega), lane_lo128 hc _ h1]; congr 1
  · rw [if_neg h1]
    by_cases h2 : i + n < 2 * c
    · rw [if_pos h2, if_pos (by omega), lane_hi128 hc _ (by omega)]; congr 1; omega
    · rw [if_neg h2, if_neg (by omega), if_pos (by omega), lane_lo128 hc _ (by omega)]; congr 1; omega

private theorem shuffle_x1y0 (x y : M256) : memShuffle128 1 8 x y = some (concat128 (hi128 x) (lo128 y)) := rfl

/-- `shifted(k, y)` of the AVX vectors, for compile-time and run-time `k`: every `k` with compilers other
than GCC.  Missing: with GCC the upper half of the lanes when one of the two vectors is shifted down by
`size / 2` lanes or more, unless that is a compile-time constant `±size / 2` (next theorem). -/
theorem C38_avx_shiftedIn_partial {bytes size : Nat} (h : AvxShape bytes size) (const avx2 : Bool)
    (ext ext' : Option M128) (u u' : M128) (x y : M256) (k : Int) :
    ∃ r, avxShiftedIn const avx2 ext ext' u u' bytes size x k y = some r ∧ ∀ i, i < size →
      (ext = none ∧ ext' = none ∨ i < size / 2 ∨ (const = true ∧ (k * 2 = size ∨ k * 2 = -size)) ∨
        ¬ (-(size : Int) ≤ 2 * k ∧ k < 0 ∨ size ≤ 2 * k ∧ k < size ∨ 3 * size ≤ 2 * k ∧ k < 2 * size)) →
      Model.lane (8 * bytes) r i = shiftInLane size 0#(8 * bytes) (fun j => Model.lane (8 * bytes) x j)
        (fun j => Model.lane (8 * bytes) y j) k i := by
  obtain ⟨c, rfl, h0, hm, hs⟩ := shape h
  have hc : 8 * bytes * c = 128 := by rw [Nat.mul_assoc, hm]
  unfold avxShiftedIn
  by_cases c1 : const = true ∧ k * 2 = (2 * c : Nat)
  · rw [if_pos c1, shuffle_x1y0]
    refine ⟨_, rfl, fun i hi _ => ?_⟩
    obtain rfl : k = c := by omega
    rw [lane_concat128 hc _ _ hi]
    unfold shiftInLane
    simp only
    by_cases h1 : i < c
    · rw [if_pos h1, if_pos (by omega), lane_hi128 hc _ h1]; congr 1; omega
    · rw [if_neg h1, if_neg (by omega), if_pos (by omega), lane_lo128 hc _ (by omega)]; congr 1; omega
  · rw [if_neg c1]
    by_cases c2 : const = true ∧ k * 2 = -((2 * c : Nat) : Int)
    · rw [if_pos c2, shuffle_x1y0]
      refine ⟨_, rfl, fun i hi _ => ?_⟩
      obtain rfl : k = -(c : Int) := by omega
      rw [lane_concat128 hc _ _ hi]
      unfold shiftInLane
      simp only
      by_cases h1 : i < c
      · rw [if_pos h1, if_neg (by omega), if_neg (by omega), if_pos (by omega), lane_hi128 hc _ h1]; congr 1; omega
      · rw [if_neg h1, if_pos (by omega), lane_lo128 hc _ (by omega)]; congr 1; omega
    · rw [if_neg c2]
      by_cases c3 : const = true ∧ (k = 1 ∨ k = 2 ∨ k = 3 ∧ 6 < 2 * c)
      · rw [if_pos c3]
        refine ⟨_, rfl, fun i hi _ => ?_⟩
        rw [lane_const hm avx2 x y (by omega) hi, show ((k.toNat : Nat) : Int) = k by omega]
      · rw [if_neg c3]
        refine ⟨_, rfl, fun i hi he => ?_⟩
        have hg : ext = none ∧ ext' = none ∨ i < c ∨
            ¬ (-((2 * c : Nat) : Int) ≤ 2 * k ∧ k < 0 ∨ (2 * c : Nat) ≤ 2 * k ∧ k < (2 * c : Nat) ∨
              3 * (2 * c : Nat) ≤ 2 * k ∧ k < 2 * (2 * c : Nat)) := by
          rcases he with he | he | he | he
          · exact .inl he
          · exact .inr (.inl (by omega))
          · rcases he with ⟨ht, he | he⟩
            · exact absurd ⟨ht, he⟩ c1
            · exact absurd ⟨ht, he⟩ c2
          · exact .inr (.inr he)
        have one : Model.lane (8 * bytes) (avxShifted ext u bytes x k) i =
            shiftLane (2 * c) 0#(8 * bytes) (fun j => Model.lane (8 * bytes) x j) k i := by
          refine C38_avx_shifted_partial h ext u x k i hi ?_
          rcases hg with hg | hg | hg
          · exact .inl hg.1
          · exact .inr (.inl (by omega))
          · omega
        rw [lane_or, one]
        have orz : ∀ a : BitVec (8 * bytes), a ||| 0#(8 * bytes) = a := fun a => BitVec.or_zero
        have zor : ∀ a : BitVec (8 * bytes), 0#(8 * bytes) ||| a = a := fun a => BitVec.zero_or
        by_cases hk : 0 < k
        · have two : Model.lane (8 * bytes) (avxShifted ext' u' bytes y (k - (2 * c : Nat))) i =
              shiftLane (2 * c) 0#(8 * bytes) (fun j => Model.lane (8 * bytes) y j) (k - (2 * c : Nat)) i := by
            refine C38_avx_shifted_partial h ext' u' y _ i hi ?_
            rcases hg with hg | hg | hg
            · exact .inl hg.2
            · exact .inr (.inl (by omega))
            · omega
          rw [if_pos hk, two]
          unfold shiftLane shiftInLane
          simp only
          by_cases h1 : (i : Int) + k < (2 * c : Nat)
          · rw [if_pos (by omega), if_neg (by omega), if_pos (by omega), orz]
          · by_cases h2 : (i : Int) + k < 2 * (2 * c : Nat)
            · rw [if_neg (by omega), if_pos (by omega), if_neg (by omega), if_pos (by omega), zor]
              congr 1; omega
            · rw [if_neg (by omega), if_neg (by omega), if_neg (by omega), if_neg (by omega), if_neg (by omega), zor]
        · have two : Model.lane (8 * bytes) (avxShifted ext' u' bytes y ((2 * c : Nat) + k)) i =
              shiftLane (2 * c) 0#(8 * bytes) (fun j => Model.lane (8 * bytes) y j) ((2 * c : Nat) + k) i := by
            refine C38_avx_shifted_partial h ext' u' y _ i hi ?_
            rcases hg with hg | hg | hg
            · exact .inl hg.2
            · exact .inr (.inl (by omega))
            · omega
          rw [if_neg hk, two]
          unfold shiftLane shiftInLane
          simp only
          by_cases h1 : 0 ≤ (i : Int) + k
          · rw [if_pos (by omega), if_neg (by omega), if_pos (by omega), orz]
          · by_cases h2 : -((2 * c : Nat) : Int) ≤ (i : Int) + k
            · rw [if_neg (by omega), if_pos (by omega), if_neg (by omega), if_neg (by omega), if_pos (by omega), zor]
              congr 1; omega
            · rw [if_neg (by omega), if_neg (by omega), if_neg (by omega), if_neg (by omega), if_neg (by omega), zor]

/-- With GCC `shifted(-1, y)` of a double vector ORs undefined bits into the upper lanes. -/
theorem C38_avx_shiftedIn_violated : ¬ ∀ (bytes size : Nat) (const avx2 : Bool)
    (ext ext' : Option M128) (u u' : M128) (x y : M256) (k : Int), AvxShape bytes size →
    ∃ r, avxShiftedIn const avx2 ext ext' u u' bytes size x k y = some r ∧ ∀ i, i < size →
      Model.lane (8 * bytes) r i = shiftInLane size 0#(8 * bytes) (fun j => Model.lane (8 * bytes) x j)
        (fun j => Model.lane (8 * bytes) y j) k i := by
  intro h
  obtain ⟨r, e, hr⟩ := h 8 4 true true (some 0#128) (some (BitVec.allOnes 128)) 0#128 0#128 0#256 0#256 (-1)
    (.inl ⟨rfl, rfl⟩)
  unfold avxShiftedIn at e
  rw [if_neg (by decide), if_neg (by decide), if_neg (by decide)] at e
  injection e with e
  have h2 := hr 2 (by decide)
  rw [← e, lane_or, if_neg (by decide), lane_avxShifted (c := 2) (.inl ⟨rfl, rfl⟩) _ _ _ _ (by decide),
    if_pos (by decide), lane_avxShifted (c := 2) (.inl ⟨rfl, rfl⟩) _ _ _ _ (by decide), if_neg (by decide)] at h2
  exact absurd h2 (by decide +kernel)

/-- `rotated(k)` of the AVX vectors for every `k`. -/
theorem C38_avx_rotated {bytes size : Nat} (h : AvxShape bytes size) (x : M256) (k : Int) :
    ∃ r, avxRotated bytes size x k = some r ∧ ∀ i, i < size →
      Model.lane (8 * bytes) r i = rotateLane size (fun j => Model.lane (8 * bytes) x j) k i := by
  have hkk : (((k % 2 ^ 32).toNat % size : Nat) : Int) = k % size := by
    rcases h with ⟨rfl, rfl⟩ | ⟨rfl, rfl⟩ | ⟨rfl, rfl⟩ <;> omega
  obtain ⟨c, rfl, h0, hm, hs⟩ := shape h
  have hc : 8 * bytes * c = 128 := by rw [Nat.mul_assoc, hm]
  unfold avxRotated rotateLane
  simp only
  generalize (k % 2 ^ 32).toNat % (2 * c) = m at hkk ⊢
  have hm' : m < 2 * c := by
    have := Int.emod_lt_of_pos k (show (0 : Int) < (2 * c : Nat) by omega)
    omega
  have hgoal : ∀ i, i < 2 * c →
      (((i : Int) + k) % (2 * c : Nat)).toNat = if i + m < 2 * c then i + m else i + m - 2 * c := by
    intro i hi
    have : ((i : Int) + k) % (2 * c : Nat) = ((i : Int) + m) % (2 * c : Nat) := by rw [hkk]; simp
    rw [this]
    split
    · rw [Int.emod_eq_of_lt (by omega) (by omega)]; omega
    · rw [← Int.sub_emod_right, Int.emod_eq_of_lt (by omega) (by omega)]; omega
  by_cases m0 : m = 0
  · rw [if_pos m0]
    refine ⟨_, rfl, fun i hi => ?_⟩
    rw [hgoal i hi, if_pos (by omega), m0]; rfl
  rw [if_neg m0]
  by_cases m4 : 2 * c = 16 ∧ m = 4
  · obtain ⟨hb, rfl⟩ : bytes = 2 ∧ c = 8 := by omega
    subst hb
    rw [if_pos (by omega)]
    obtain ⟨r, e, r0, r1, r2, r3⟩ := lane_permute4x64 (d0 := 1) (d1 := 2) (d2 := 3) (d3 := 0) (by decide) x
    refine ⟨r, e, fun i hi => ?_⟩
    rw [hgoal i hi]
    have hq : i / 4 = 0 ∨ i / 4 = 1 ∨ i / 4 = 2 ∨ i / 4 = 3 := by omega
    rcases hq with hq | hq | hq | hq
    · refine (lane_of_wide 16 4 (by decide) hq r0).trans ?_
      rw [if_pos (by omega)]; congr 1; omega
    · refine (lane_of_wide 16 4 (by decide) hq r1).trans ?_
      rw [if_pos (by omega)]; congr 1; omega
    · refine (lane_of_wide 16 4 (by decide) hq r2).trans ?_
      rw [if_pos (by omega)]; congr 1; omega
    · refine (lane_of_wide 16 4 (by decide) hq r3).trans ?_
      rw [if_neg (by omega)]; congr 1; omega
  rw [if_neg m4]
  by_cases m12 : 2 * c = 16 ∧ m = 12
  · obtain ⟨hb, rfl⟩ : bytes = 2 ∧ c = 8 := by omega
    subst hb
    rw [if_pos (by omega)]
    obtain ⟨r, e, r0, r1, r2, r3⟩ := lane_permute4x64 (d0 := 3) (d1 := 0) (d2 := 1) (d3 := 2) (by decide) x
    refine ⟨r, e, fun i hi => ?_⟩
    rw [hgoal i hi]
    have hq : i / 4 = 0 ∨ i / 4 = 1 ∨ i / 4 = 2 ∨ i / 4 = 3 := by omega
    rcases hq with hq | hq | hq | hq
    · refine (lane_of_wide 16 4 (by decide) hq r0).trans ?_
      rw [if_pos (by omega)]; congr 1; omega
    · refine (lane_of_wide 16 4 (by decide) hq r1).trans ?_
      rw [if_neg (by omega)]; congr 1; omega
    · refine (lane_of_wide 16 4 (by decide) hq r2).trans ?_
      rw [if_neg (by omega)]; congr 1; omega
    · refine (lane_of_wide 16 4 (by decide) hq r3).trans ?_
      rw [if_neg (by omega)]; congr 1; omega
  rw [if_neg m12, show 2 * c / 2 = c by omega]
  by_cases m1 : m < c
  · rw [if_pos m1]
    refine ⟨_, rfl, fun i hi => ?_⟩
    rw [hgoal i hi, lane_slide hm _ _ _ (by omega) hi]
    by_cases h1 : i + m < c
    · rw [if_pos h1, if_pos (by omega), lane_lo128 hc _ h1]
    · rw [if_neg h1]
      by_cases h2 : i + m < 2 * c
      · rw [if_pos h2, if_pos h2, lane_hi128 hc _ (by omega)]; congr 1; omega
      · rw [if_neg h2, if_neg h2, lane_lo128 hc _ (by omega)]
  · rw [if_neg m1]
    by_cases m2 : m = c
    · rw [if_pos m2]
      refine ⟨_, rfl, fun i hi => ?_⟩
      rw [hgoal i hi, lane_swap hc _ hi, m2]
      by_cases h1 : i < c
      · rw [if_pos h1, if_pos (by omega)]; congr 1; omega
      · rw [if_neg h1, if_neg (by omega)]; congr 1; omega
    · rw [if_neg m2]
      refine ⟨_, rfl, fun i hi => ?_⟩
      rw [hgoal i hi, lane_slide hm _ _ _ (by omega) hi]
      by_cases h1 : i + (m - c) < c
      · rw [if_pos h1, if_pos (by omega), lane_hi128 hc _ h1]; congr 1; omega
      · rw [if_neg h1]
        by_cases h2 : i + (m - c) < 2 * c
        · rw [if_pos h2, if_neg (by omega), lane_lo128 hc _ (by omega)]; congr 1; omega
        · rw [if_neg h2, if_neg (by omega), lane_hi128 hc _ (by omega)]; congr 1; omega

/-- `interleaveLow` and `interleaveHigh` of all entry types. -/
theorem C38_avx_interleave {bytes size : Nat} (h : AvxShape bytes size) (x y : M256) :
    ∃ lo hi, avxInterleaveLow (8 * bytes) x y = some lo ∧ avxInterleaveHigh (8 * bytes) x y = some hi ∧
    ∀ i, i < size →
      Model.lane (8 * bytes) lo i =
        (if i % 2 = 0 then Model.lane (8 * bytes) x (i / 2) else Model.lane (8 * bytes) y (i / 2)) ∧
      Model.lane (8 * bytes) hi i =
        (if i % 2 = 0 then Model.lane (8 * bytes) x ((size + i) / 2) else Model.lane (8 * bytes) y ((size + i) / 2)) := by
  obtain ⟨c, rfl, h0, hm, hs⟩ := shape h
  have hc : 8 * bytes * c = 128 := by rw [Nat.mul_assoc, hm]
  refine ⟨_, _, rfl, rfl, fun i hi => ?_⟩
  rw [show (2 * c + i) / 2 = c + i / 2 by omega]
  exact lane_interleave256 hc (by omega) x y hi

/-- `reversed()` of all entry types. -/
theorem C38_avx_reversed (x : M256) :
    (∃ r, avxReversedPd x = some r ∧ ∀ i, i < 4 → Model.lane 64 r i = Model.lane 64 x (3 - i)) ∧
    (∃ r, avxReversedPs x = some r ∧ ∀ i, i < 8 → Model.lane 32 r i = Model.lane 32 x (7 - i)) ∧
    (∃ r, avxReversedEpi16 x = some r ∧ ∀ i, i < 16 → Model.lane 16 r i = Model.lane 16 x (15 - i)) := by
  refine ⟨?_, ?_, ?_⟩
  · obtain ⟨r, e, hr⟩ := (C37_avx_permute (d0 := 1) (d1 := 0) (d2 := 3) (d3 := 2) x).1 (by decide) (by decide)
      (by decide) (by decide) (by decide) (by decide)
    refine ⟨memPermute128 (some 1) (some 0) r, by unfold avxReversedPd; rw [e]; rfl, fun i hi => ?_⟩
    rw [lane_swap (c := 2) rfl _ hi, hr _ (by split <;> omega)]
    match i, hi with | 0, _ => rfl | 1, _ => rfl | 2, _ => rfl | 3, _ => rfl
  · obtain ⟨r, e, hr⟩ := (C37_avx_permute (d0 := 3) (d1 := 2) (d2 := 1) (d3 := 0) x).2 (by decide) (by decide)
      (by decide) (by decide)
    refine ⟨memPermute128 (some 1) (some 0) r, by unfold avxReversedPs; rw [e]; rfl, fun i hi => ?_⟩
    rw [lane_swap (c := 4) rfl _ hi, hr _ (by split <;> omega)]
    match i, hi with
    | 0, _ => rfl | 1, _ => rfl | 2, _ => rfl | 3, _ => rfl
    | 4, _ => rfl | 5, _ => rfl | 6, _ => rfl | 7, _ => rfl
  · obtain ⟨⟨lo, elo, hlo⟩, ⟨up, eup, hup⟩⟩ := C37_avx_permute_epi16 (d0 := 3) (d1 := 2) (d2 := 1) (d3 := 0)
      (by decide) x
    obtain ⟨r, e, hr⟩ := (C37_avx_shuffle (d0 := 1) (d1 := 8) (d2 := 3) (d3 := 10) up lo).1 (by decide) (by decide)
      (by decide) (by decide) (by decide) (by decide) (by decide)
    refine ⟨memPermute128 (some 1) (some 0) r, by unfold avxReversedEpi16; rw [elo, eup]; simp only [bind, Option.bind, e]; rfl,
      fun i hi => ?_⟩
    rw [lane_swap (c := 8) rfl _ hi]
    have r0 : Model.lane (16 * 4) r 0 = Model.lane (16 * 4) up 1 := hr 0 (by decide)
    have r1 : Model.lane (16 * 4) r 1 = Model.lane (16 * 4) lo 0 := hr 1 (by decide)
    have r2 : Model.lane (16 * 4) r 2 = Model.lane (16 * 4) up 3 := hr 2 (by decide)
    have r3 : Model.lane (16 * 4) r 3 = Model.lane (16 * 4) lo 2 := hr 3 (by decide)
    have w0 : ∀ j, j / 4 = 0 → _ := fun j hj => lane_of_wide (i := j) 16 4 (by decide) hj r0
    have w1 : ∀ j, j / 4 = 1 → _ := fun j hj => lane_of_wide (i := j) 16 4 (by decide) hj r1
    have w2 : ∀ j, j / 4 = 2 → _ := fun j hj => lane_of_wide (i := j) 16 4 (by decide) hj r2
    have w3 : ∀ j, j / 4 = 3 → _ := fun j hj => lane_of_wide (i := j) 16 4 (by decide) hj r3
    match i, hi with
    | 0, _ => exact (w2 8 rfl).trans ((hup _ (by decide)).trans rfl)
    | 1, _ => exact (w2 9 rfl).trans ((hup _ (by decide)).trans rfl)
    | 2, _ => exact (w2 10 rfl).trans ((hup _ (by decide)).trans rfl)
    | 3, _ => exact (w2 11 rfl).trans ((hup _ (by decide)).trans rfl)
    | 4, _ => exact (w3 12 rfl).trans ((hlo _ (by decide)).trans rfl)
    | 5, _ => exact (w3 13 rfl).trans ((hlo _ (by decide)).trans rfl)
    | 6, _ => exact (w3 14 rfl).trans ((hlo _ (by decide)).trans rfl)
    | 7, _ => exact (w3 15 rfl).trans ((hlo _ (by decide)).trans rfl)
    | 8, _ => exact (w0 0 rfl).trans ((hup _ (by decide)).trans rfl)
    | 9, _ => exact (w0 1 rfl).trans ((hup _ (by decide)).trans rfl)
    | 10, _ => exact (w0 2 rfl).trans ((hup _ (by decide)).trans rfl)
    | 11, _ => exact (w0 3 rfl).trans ((hup _ (by decide)).trans rfl)
    | 12, _ => exact (w1 4 rfl).trans ((hlo _ (by decide)).trans rfl)
    | 13, _ => exact (w1 5 rfl).trans ((hlo _ (by decide)).trans rfl)
    | 14, _ => exact (w1 6 rfl).trans ((hlo _ (by decide)).trans rfl)
    | 15, _ => exact (w1 7 rfl).trans ((hlo _ (by decide)).trans rfl)
    | j + 16, hj => omega

/-- `float_v::broadcast<Index>()`. -/
theorem C38_avx_broadcast (index : Nat) (x : M256) :
    ∃ r, avxBroadcastPs index x = some r ∧ ∀ i, i < 8 → Model.lane 32 r i = Model.lane 32 x (index % 8) := by
  have ho : index % 8 / 4 = 0 ∨ index % 8 / 4 = 1 := by omega
  have hb : ∀ j, j < 8 → Model.lane 32 (memPermute128 (some (index % 8 / 4)) (some (index % 8 / 4)) x) j =
      Model.lane 32 x (4 * (index % 8 / 4) + j % 4) := by
    intro j hj
    rcases ho with ho | ho <;> rw [ho]
    · rw [show memPermute128 (some 0) (some 0) x = concat128 (lo128 x) (lo128 x) from rfl,
        lane_concat128 (k := 4) rfl _ _ hj]
      split
      · rw [lane_lo128 (k := 4) rfl _ (by omega)]; congr 1; omega
      · rw [lane_lo128 (k := 4) rfl _ (by omega)]; congr 1; omega
    · rw [show memPermute128 (some 1) (some 1) x = concat128 (hi128 x) (hi128 x) from rfl,
        lane_concat128 (k := 4) rfl _ _ hj]
      split
      · rw [lane_hi128 (k := 4) rfl _ (by omega)]; congr 1; omega
      · rw [lane_hi128 (k := 4) rfl _ (by omega)]; congr 1; omega
  obtain ⟨r, e, hr⟩ := (C37_avx_permute (d0 := index % 4) (d1 := index % 4) (d2 := index % 4) (d3 := index % 4)
    (memPermute128 (some (index % 8 / 4)) (some (index % 8 / 4)) x)).2 (by omega) (by omega) (by omega) (by omega)
  refine ⟨r, e, fun i hi => ?_⟩
  have hg : [index % 4, index % 4, index % 4, index % 4].getD (i % 4) 0 = index % 4 := by
    have : i % 4 = 0 ∨ i % 4 = 1 ∨ i % 4 = 2 ∨ i % 4 = 3 := by omega
    rcases this with h | h | h | h <;> rw [h] <;> rfl
  rw [hr i hi, hg, hb _ (by omega)]
  congr 1; omega

/-- `float_v::operator[](perm)` ignores the permutation. -/
theorem C38_avx_permuted_violated : ¬ ∀ (x perm : M256) (i : Nat), i < 8 → (Model.lane 32 perm i).toNat < 8 →
    Model.lane 32 (avxPermutedPs x perm) i = Model.lane 32 x (Model.lane 32 perm i).toNat := by
  intro h
  have := h (ofLanes 32 fun i => BitVec.ofNat 32 i) (set1 32 1#32) 0 (by decide) (by
    rw [lane_set1 _ (by decide)]; decide)
  unfold avxPermutedPs at this
  rw [lane_set1 _ (by decide), lane_ofLanes _ (by decide)] at this
  have h2 : (1#32 : BitVec 32).toNat = 1 := by decide
  rw [h2, lane_ofLanes _ (by decide)] at this
  exact absurd this (by decide)

example (x y : M256) : ∃ r, avxShiftedIn false true none none 0#128 0#128 4 8 x (-3) y = some r ∧
    Model.lane 32 r 0 = Model.lane 32 y 5 ∧ Model.lane 32 r 7 = Model.lane 32 x 4 := by
  obtain ⟨r, e, h⟩ := C38_avx_shiftedIn_partial (.inr (.inl ⟨rfl, rfl⟩)) false true none none 0#128 0#128 x y (-3)
  exact ⟨r, e, h 0 (by decide) (.inl ⟨rfl, rfl⟩), h 7 (by decide) (.inl ⟨rfl, rfl⟩)⟩

example (x : M256) : ∃ r, avxRotated 2 16 x (-3) = some r ∧ Model.lane 16 r 1 = Model.lane 16 x 14 := by
  obtain ⟨r, e, h⟩ := C38_avx_rotated (.inr (.inr ⟨rfl, rfl⟩)) x (-3)
  exact ⟨r, e, h 1 (by decide)⟩

end Vc.Prop
