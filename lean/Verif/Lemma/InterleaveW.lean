import Verif.Lemma.Interleave

/-!
Every `interleave` function scatters.
-/

namespace Vc.Lemma
open Vc.Model

theorem lane32_srli4 (x : M128) (i : Nat) : lane 32 (srliSi128 x 4) i = lane 32 x (i + 1) :=
  lane_srliSi128 x (by decide) i
theorem lane32_srli8 (x : M128) (i : Nat) : lane 32 (srliSi128 x 8) i = lane 32 x (i + 2) :=
  lane_srliSi128 x (by decide) i
theorem lane32_srli12 (x : M128) (i : Nat) : lane 32 (srliSi128 x 12) i = lane 32 x (i + 3) :=
  lane_srliSi128 x (by decide) i
theorem lane64_srli8 (x : M128) (i : Nat) : lane 64 (srliSi128 x 8) i = lane 64 x (i + 1) :=
  lane_srliSi128 x (by decide) i

/-! ### Scalar -/

theorem sput_writes {w : Nat} (m : ILMem w) (a : Int) (v : BitVec w) :
    sput m a v = writes m [(a, v)] := rfl

theorem lane_self {w : Nat} (v : BitVec w) : lane w v 0 = v := by
  apply BitVec.eq_of_getLsbD_eq
  intro j hj
  rw [getLsbD_lane]
  simp [hj]

theorem scatters_ilScalar2 {w : Nat} (data : Int) (i : Nat → Int) (v0 v1 : BitVec w) :
    Scatters 1 (fun m => ilScalar2 m data i v0 v1) data i [v0, v1] := by
  refine scatters_of_rows [0] ?_ (by intro l; simp)
  intro m
  simp [ilScalar2, sput_writes, ← writes_append, row, List.range, List.range.loop, lane_self,
    Int.add_assoc, - Option.bind_eq_bind]

theorem scatters_ilScalar3 {w : Nat} (data : Int) (i : Nat → Int) (v0 v1 v2 : BitVec w) :
    Scatters 1 (fun m => ilScalar3 m data i v0 v1 v2) data i [v0, v1, v2] := by
  refine scatters_of_rows [0] ?_ (by intro l; simp)
  intro m
  simp [ilScalar3, sput_writes, ← writes_append, row, List.range, List.range.loop, lane_self,
    Int.add_assoc, - Option.bind_eq_bind]

theorem scatters_ilScalar4 {w : Nat} (data : Int) (i : Nat → Int) (v0 v1 v2 v3 : BitVec w) :
    Scatters 1 (fun m => ilScalar4 m data i v0 v1 v2 v3) data i [v0, v1, v2, v3] := by
  refine scatters_of_rows [0] ?_ (by intro l; simp)
  intro m
  simp [ilScalar4, sput_writes, ← writes_append, row, List.range, List.range.loop, lane_self,
    Int.add_assoc, - Option.bind_eq_bind]

/-! ### SSE -/

theorem scatters_il8x2 (C : ILCfg) (data : Int) (i : Nat → Int) (v0 v1 : M128) :
    Scatters 8 (fun m => il8x2 C m data i v0 v1) data i [v0, v1] := by
  refine scatters_of_rows [0, 1, 2, 3, 4, 5, 6, 7] ?_ (by intro l; simp; omega)
  intro m
  simp only [List.flatMap_cons, List.flatMap_nil, List.append_nil, writes_append]
  unfold il8x2
  obtain ⟨x64, sse41, mm⟩ := C
  cases x64
  · cases sse41
    · simp [store_row2 (data := data) (i := i) (v0 := v0) (v1 := v1), lane_unpacklo, lane_unpackhi,
        lane16_of32, lane32_srli4, lane32_srli8, lane32_srli12]
    · simp [store_row2 (data := data) (i := i) (v0 := v0) (v1 := v1), lane_unpacklo, lane_unpackhi,
        lane16_of32]
  · simp [store_row2 (data := data) (i := i) (v0 := v0) (v1 := v1), lane_unpacklo, lane_unpackhi,
      lane16_of64, lane_setWidth32, lane_sshiftRight32]

theorem maskPi16_msb (j : Nat) (hj : j < 4) : (lane 16 maskPi16 j).msb = decide (j < 3) := by
  unfold maskPi16
  rw [lane_ofLanes _ (by omega)]
  by_cases h : j < 3
  · rw [if_pos h, decide_eq_true h]; rfl
  · rw [if_neg h, decide_eq_false h]; rfl

theorem maskEpi32_msb (j : Nat) (hj : j < 4) : (lane 32 maskEpi32 j).msb = decide (j < 3) := by
  unfold maskEpi32
  rw [lane_setEpi32 _ _ _ _ hj]
  match j, hj with
  | 0, _ => rfl
  | 1, _ => rfl
  | 2, _ => rfl
  | 3, _ => rfl

theorem maskEpi64_msb (j : Nat) (hj : j < 4) : (lane 64 maskEpi64 j).msb = decide (j < 3) := by
  unfold maskEpi64
  rw [lane_setr _ (by omega)]
  match j, hj with
  | 0, _ => rfl
  | 1, _ => rfl
  | 2, _ => rfl
  | 3, _ => rfl

theorem scatters_il8x3 (C : ILCfg) (data : Int) (i : Nat → Int) (v0 v1 v2 : M128) :
    Scatters 8 (fun m => il8x3 C m data i v0 v1 v2) data i [v0, v1, v2] := by
  by_cases hC : C.maskmov = true
  · refine scatters_of_rows [0, 1, 2, 3, 4, 5, 6, 7] ?_ (by intro l; simp; omega)
    intro m
    simp only [List.flatMap_cons, List.flatMap_nil, List.append_nil, writes_append]
    unfold il8x3
    simp [hC, ilMaskStore_row3 (data := data) (i := i) (v0 := v0) (v1 := v1) (v2 := v2), maskPi16_msb,
      lane_unpacklo, lane_unpackhi, lane16_of64, lane64_srli8]
  · have := scatters_append _ rfl (scatters_il8x2 C data i v0 v1)
      (scatters_scatterAll 8 (data + 2) i v2)
    simpa [il8x3, hC] using this

theorem scatters_il8x4 (data : Int) (i : Nat → Int) (v0 v1 v2 v3 : M128) :
    Scatters 8 (fun m => il8x4 m data i v0 v1 v2 v3) data i [v0, v1, v2, v3] := by
  refine scatters_of_rows [0, 2, 4, 6, 1, 3, 5, 7] ?_ (by intro l; simp; omega)
  intro m
  simp only [List.flatMap_cons, List.flatMap_nil, List.append_nil, writes_append]
  simp [il8x4, il8Quads, store_row4 (data := data) (i := i) (v0 := v0) (v1 := v1) (v2 := v2) (v3 := v3),
    lane_unpacklo, lane_unpackhi, lane16_of64]

theorem scatters_il4x2 (data : Int) (i : Nat → Int) (v0 v1 : M128) :
    Scatters 4 (fun m => il4x2 m data i v0 v1) data i [v0, v1] := by
  refine scatters_of_rows [0, 1, 2, 3] ?_ (by intro l; simp; omega)
  intro m
  simp only [List.flatMap_cons, List.flatMap_nil, List.append_nil, writes_append]
  simp [il4x2, store_row2 (data := data) (i := i) (v0 := v0) (v1 := v1), lane_unpacklo, lane_unpackhi,
    lane32_of64]

theorem scatters_il4x3 (C : ILCfg) (data : Int) (i : Nat → Int) (v0 v1 v2 : M128) :
    Scatters 4 (fun m => il4x3 C m data i v0 v1 v2) data i [v0, v1, v2] := by
  by_cases hC : C.maskmov = true
  · refine scatters_of_rows [0, 1, 2, 3] ?_ (by intro l; simp; omega)
    intro m
    simp only [List.flatMap_cons, List.flatMap_nil, List.append_nil, writes_append]
    simp [il4x3, hC, ilMaskStore_row3 (data := data) (i := i) (v0 := v0) (v1 := v1) (v2 := v2),
      maskEpi32_msb, lane_unpacklo, lane_unpackhi, lane_movelh32, lane_movehl32]
  · have := scatters_append _ rfl (scatters_il4x2 data i v0 v1)
      (scatters_scatterAll 4 (data + 2) i v2)
    simpa [il4x3, il4x2, hC, Option.bind_assoc] using this

theorem scatters_il4x4 (data : Int) (i : Nat → Int) (v0 v1 v2 v3 : M128) :
    Scatters 4 (fun m => il4x4 m data i v0 v1 v2 v3) data i [v0, v1, v2, v3] := by
  refine scatters_of_rows [0, 1, 2, 3] ?_ (by intro l; simp; omega)
  intro m
  simp only [List.flatMap_cons, List.flatMap_nil, List.append_nil, writes_append]
  simp [il4x4, store_row4 (data := data) (i := i) (v0 := v0) (v1 := v1) (v2 := v2) (v3 := v3),
    lane_unpacklo, lane_unpackhi, lane_movelh32, lane_movehl32]

theorem scatters_il2x2 (data : Int) (i : Nat → Int) (v0 v1 : M128) :
    Scatters 2 (fun m => il2x2 m data i v0 v1) data i [v0, v1] := by
  refine scatters_of_rows [0, 1] ?_ (by intro l; simp; omega)
  intro m
  simp only [List.flatMap_cons, List.flatMap_nil, List.append_nil, writes_append]
  simp [il2x2, store_row2 (data := data) (i := i) (v0 := v0) (v1 := v1), lane_unpacklo, lane_unpackhi]

theorem scatters_il2x3 (data : Int) (i : Nat → Int) (v0 v1 v2 : M128) :
    Scatters 2 (fun m => il2x3 m data i v0 v1 v2) data i [v0, v1, v2] :=
  scatters_append _ rfl (scatters_il2x2 data i v0 v1) (scatters_scatterAll 2 (data + 2) i v2)

theorem scatters_il2x4 (data : Int) (i : Nat → Int) (v0 v1 v2 v3 : M128) :
    Scatters 2 (fun m => il2x4 m data i v0 v1 v2 v3) data i [v0, v1, v2, v3] :=
  scatters_append _ rfl (scatters_il2x2 data i v0 v1) (scatters_il2x2 (data + 2) i v2 v3)

/-! ### AVX -/

theorem scatters_il16x2 (data : Int) (i : Nat → Int) (v0 v1 : M256) :
    Scatters 16 (fun m => il16x2 m data i v0 v1) data i [v0, v1] := by
  refine scatters_of_rows (List.range 16) ?_ (by intro l; simp)
  intro m
  simp only [List.range, List.range.loop, List.flatMap_cons, List.flatMap_nil, List.append_nil,
    writes_append]
  simp [il16x2, store_row2 (data := data) (i := i) (v0 := v0) (v1 := v1), lane_unpacklo256_16,
    lane_unpackhi256_16, lane16_of32, lo128_16, hi128_16]

theorem scatters_il16x3 (data : Int) (i : Nat → Int) (v0 v1 v2 : M256) :
    Scatters 16 (fun m => il16x3 m data i v0 v1 v2) data i [v0, v1, v2] :=
  scatters_append _ rfl (scatters_il16x2 data i v0 v1) (scatters_scatterAll 16 (data + 2) i v2)

theorem scatters_il16x4 (data : Int) (i : Nat → Int) (v0 v1 v2 v3 : M256) :
    Scatters 16 (fun m => il16x4 m data i v0 v1 v2 v3) data i [v0, v1, v2, v3] := by
  refine scatters_of_rows [0, 8, 1, 9, 2, 10, 3, 11, 4, 12, 5, 13, 6, 14, 7, 15] ?_
    (by intro l; simp; omega)
  intro m
  simp only [List.flatMap_cons, List.flatMap_nil, List.append_nil, writes_append]
  simp [il16x4, il16Quads, il16Store,
    store_row4 (data := data) (i := i) (v0 := v0) (v1 := v1) (v2 := v2) (v3 := v3),
    lane_unpacklo256_16, lane_unpackhi256_16, lane16_of64, lo128_16, hi128_16, Option.bind_assoc]

theorem scatters_ilA8x2 (data : Int) (i : Nat → Int) (v0 v1 : M256) :
    Scatters 8 (fun m => ilA8x2 m data i v0 v1) data i [v0, v1] := by
  refine scatters_of_rows [0, 1, 2, 3, 4, 5, 6, 7] ?_ (by intro l; simp; omega)
  intro m
  simp only [List.flatMap_cons, List.flatMap_nil, List.append_nil, writes_append]
  simp [ilA8x2, store_row2 (data := data) (i := i) (v0 := v0) (v1 := v1), lane_unpacklo256_32,
    lane_unpackhi256_32, lane32_of64, lo128_32, hi128_32]

theorem scatters_ilA8x3 (C : ILCfg) (data : Int) (i : Nat → Int) (v0 v1 v2 : M256) :
    Scatters 8 (fun m => ilA8x3 C m data i v0 v1 v2) data i [v0, v1, v2] := by
  by_cases hC : C.maskmov = true
  · refine scatters_of_rows [0, 1, 2, 3, 4, 5, 6, 7] ?_ (by intro l; simp; omega)
    intro m
    simp only [List.flatMap_cons, List.flatMap_nil, List.append_nil, writes_append]
    simp [ilA8x3, hC, ilMaskStore_row3 (data := data) (i := i) (v0 := v0) (v1 := v1) (v2 := v2),
      maskEpi32_msb, lane_unpacklo256_32, lane_unpackhi256_32, lo128_32, hi128_32]
  · have := scatters_append _ rfl (scatters_ilA8x2 data i v0 v1)
      (scatters_scatterAll 8 (data + 2) i v2)
    simpa [ilA8x3, hC] using this

theorem scatters_ilA8x4 (data : Int) (i : Nat → Int) (v0 v1 v2 v3 : M256) :
    Scatters 8 (fun m => ilA8x4 m data i v0 v1 v2 v3) data i [v0, v1, v2, v3] := by
  refine scatters_of_rows [0, 1, 2, 3, 4, 5, 6, 7] ?_ (by intro l; simp; omega)
  intro m
  simp only [List.flatMap_cons, List.flatMap_nil, List.append_nil, writes_append]
  simp [ilA8x4, ilA8Quads,
    store_row4 (data := data) (i := i) (v0 := v0) (v1 := v1) (v2 := v2) (v3 := v3),
    lane_unpacklo256_32, lane_unpackhi256_32, lo128_32, hi128_32]

theorem scatters_ilA4x2 (data : Int) (i : Nat → Int) (v0 v1 : M256) :
    Scatters 4 (fun m => ilA4x2 m data i v0 v1) data i [v0, v1] := by
  refine scatters_of_rows [0, 1, 2, 3] ?_ (by intro l; simp; omega)
  intro m
  simp only [List.flatMap_cons, List.flatMap_nil, List.append_nil, writes_append]
  simp [ilA4x2, store_row2 (data := data) (i := i) (v0 := v0) (v1 := v1), lane_unpacklo256_64,
    lane_unpackhi256_64, lo128_64, hi128_64]

theorem some_bind' {α β : Type} (x : α) (f : α → Option β) : (some x >>= f) = f x := rfl

theorem shuffle128_lo (x y : M256) : memShuffle128 0 8 x y = some (concat128 (lo128 x) (lo128 y)) := rfl
theorem shuffle128_hi (x y : M256) : memShuffle128 1 9 x y = some (concat128 (hi128 x) (hi128 y)) := rfl
theorem permute2f128_lo (x y : M256) : permute2f128 x y 0x20 = concat128 (lo128 x) (lo128 y) := rfl
theorem permute2f128_hi (x y : M256) : permute2f128 x y 0x31 = concat128 (hi128 x) (hi128 y) := rfl

theorem scatters_ilA4x3 (C : ILCfg) (data : Int) (i : Nat → Int) (v0 v1 v2 : M256) :
    Scatters 4 (fun m => ilA4x3 C m data i v0 v1 v2) data i [v0, v1, v2] := by
  by_cases hC : C.maskmov = true
  · refine scatters_of_rows [0, 1, 2, 3] ?_ (by intro l; simp; omega)
    intro m
    simp only [List.flatMap_cons, List.flatMap_nil, List.append_nil, writes_append]
    simp [ilA4x3, hC, shuffle128_lo, shuffle128_hi,
      ilMaskStore_row3 (data := data) (i := i) (v0 := v0) (v1 := v1) (v2 := v2),
      maskEpi64_msb, lane_unpacklo256_64, lane_unpackhi256_64, lo128_64, hi128_64, concat128_64]
  · have := scatters_append _ rfl (scatters_ilA4x2 data i v0 v1)
      (scatters_scatterAll 4 (data + 2) i v2)
    simpa [ilA4x3, hC] using this

theorem scatters_ilA4x4 (data : Int) (i : Nat → Int) (v0 v1 v2 v3 : M256) :
    Scatters 4 (fun m => ilA4x4 m data i v0 v1 v2 v3) data i [v0, v1, v2, v3] := by
  refine scatters_of_rows [0, 1, 2, 3] ?_ (by intro l; simp; omega)
  intro m
  simp [ilA4x4, ilStore, row, List.range, List.range.loop, ← writes_append,
    lane_unpacklo256_64, lane_unpackhi256_64, lo128_64, hi128_64, Int.add_assoc,
    - Option.bind_eq_bind]

/-! ### Successive structs -/

/-- The indexes of successive structs of `S` entries. -/
def Succ (S size : Nat) (i : Nat → Int) : Prop := ∀ l, l < size → i l = i 0 + Int.ofNat (S * l)

theorem scatters_il8x2s (data : Int) {i : Nat → Int} (hi : Succ 2 8 i) (v0 v1 : M128) :
    Scatters 8 (fun m => il8x2s m data i v0 v1) data i [v0, v1] := by
  refine scatters_of_rows [0, 1, 2, 3, 4, 5, 6, 7] ?_ (by intro l; simp; omega)
  intro m
  simp [il8x2s, ilStore, row, List.range, List.range.loop, ← writes_append, lane_unpacklo,
    lane_unpackhi, Int.add_assoc, - Option.bind_eq_bind, hi 1 (by decide), hi 2 (by decide), hi 3 (by decide), hi 4 (by decide), hi 5 (by decide), hi 6 (by decide), hi 7 (by decide)]

theorem scatters_il8x4s (data : Int) {i : Nat → Int} (hi : Succ 4 8 i) (v0 v1 v2 v3 : M128) :
    Scatters 8 (fun m => il8x4s m data i v0 v1 v2 v3) data i [v0, v1, v2, v3] := by
  refine scatters_of_rows [0, 1, 2, 3, 4, 5, 6, 7] ?_ (by intro l; simp; omega)
  intro m
  simp [il8x4s, il8Quads, ilStore, row, List.range, List.range.loop, ← writes_append, lane_unpacklo,
    lane_unpackhi, Int.add_assoc, - Option.bind_eq_bind, hi 1 (by decide), hi 2 (by decide), hi 3 (by decide), hi 4 (by decide), hi 5 (by decide), hi 6 (by decide), hi 7 (by decide)]

theorem scatters_il4x2s (data : Int) {i : Nat → Int} (hi : Succ 2 4 i) (v0 v1 : M128) :
    Scatters 4 (fun m => il4x2s m data i v0 v1) data i [v0, v1] := by
  refine scatters_of_rows [0, 1, 2, 3] ?_ (by intro l; simp; omega)
  intro m
  simp [il4x2s, ilStore, row, List.range, List.range.loop, ← writes_append, lane_unpacklo,
    lane_unpackhi, Int.add_assoc, - Option.bind_eq_bind, hi 1 (by decide), hi 2 (by decide), hi 3 (by decide)]

theorem scatters_il16x2s (data : Int) {i : Nat → Int} (hi : Succ 2 16 i) (v0 v1 : M256) :
    Scatters 16 (fun m => il16x2s m data i v0 v1) data i [v0, v1] := by
  refine scatters_of_rows (List.range 16) ?_ (by intro l; simp)
  intro m
  simp [il16x2s, some_bind', shuffle128_lo, shuffle128_hi, ilStore, row, List.range, List.range.loop,
    ← writes_append, lane_unpacklo256_16, lane_unpackhi256_16, lo128_16, hi128_16, concat128_16,
    Int.add_assoc, - Option.bind_eq_bind, hi 1 (by decide), hi 2 (by decide), hi 3 (by decide), hi 4 (by decide), hi 5 (by decide), hi 6 (by decide), hi 7 (by decide), hi 8 (by decide), hi 9 (by decide), hi 10 (by decide),
    hi 11 (by decide), hi 12 (by decide), hi 13 (by decide), hi 14 (by decide), hi 15 (by decide)]

theorem scatters_il16x4s (data : Int) {i : Nat → Int} (hi : Succ 4 16 i) (v0 v1 v2 v3 : M256) :
    Scatters 16 (fun m => il16x4s m data i v0 v1 v2 v3) data i [v0, v1, v2, v3] := by
  refine scatters_of_rows (List.range 16) ?_ (by intro l; simp)
  intro m
  simp [il16x4s, some_bind', il16Quads, shuffle128_lo, shuffle128_hi, ilStore, row, List.range, List.range.loop,
    ← writes_append, lane_unpacklo256_16, lane_unpackhi256_16, lo128_16, hi128_16, concat128_16,
    Int.add_assoc, - Option.bind_eq_bind, hi 1 (by decide), hi 2 (by decide), hi 3 (by decide), hi 4 (by decide), hi 5 (by decide), hi 6 (by decide), hi 7 (by decide), hi 8 (by decide), hi 9 (by decide), hi 10 (by decide),
    hi 11 (by decide), hi 12 (by decide), hi 13 (by decide), hi 14 (by decide), hi 15 (by decide)]

theorem scatters_ilA8x2s (data : Int) {i : Nat → Int} (hi : Succ 2 8 i) (v0 v1 : M256) :
    Scatters 8 (fun m => ilA8x2s m data i v0 v1) data i [v0, v1] := by
  refine scatters_of_rows [0, 1, 2, 3, 4, 5, 6, 7] ?_ (by intro l; simp; omega)
  intro m
  simp [ilA8x2s, ilStore, row, List.range, List.range.loop, ← writes_append, lane_unpacklo256_32,
    lane_unpackhi256_32, lo128_32, hi128_32, Int.add_assoc, - Option.bind_eq_bind, hi 1 (by decide), hi 2 (by decide), hi 3 (by decide),
    hi 4 (by decide), hi 5 (by decide), hi 6 (by decide), hi 7 (by decide)]

theorem scatters_ilA8x4s (data : Int) {i : Nat → Int} (hi : Succ 4 8 i) (v0 v1 v2 v3 : M256) :
    Scatters 8 (fun m => ilA8x4s m data i v0 v1 v2 v3) data i [v0, v1, v2, v3] := by
  refine scatters_of_rows [0, 1, 2, 3, 4, 5, 6, 7] ?_ (by intro l; simp; omega)
  intro m
  simp [ilA8x4s, ilA8Quads, permute2f128_lo, permute2f128_hi, ilStore, row, List.range,
    List.range.loop, ← writes_append, lane_unpacklo256_32, lane_unpackhi256_32, lo128_32, hi128_32,
    concat128_32, Int.add_assoc, - Option.bind_eq_bind, hi 1 (by decide), hi 2 (by decide), hi 3 (by decide), hi 4 (by decide), hi 5 (by decide), hi 6 (by decide), hi 7 (by decide)]

theorem scatters_ilA8x3s (data : Int) {i : Nat → Int} (hi : Succ 3 8 i) (v0 v1 v2 : M256) :
    Scatters 8 (fun m => ilA8x3s m data i v0 v1 v2) data i [v0, v1, v2] := by
  refine scatters_of_rows [0, 1, 2, 3, 4, 5, 6, 7] ?_ (by intro l; simp; omega)
  intro m
  simp [ilA8x3s, some_bind', memBlend8ps, permute2f128_lo, permute2f128_hi, ilStore, row, List.range,
    List.range.loop, ← writes_append, lane_blendImm, Nat.testBit_eq_decide_div_mod_eq, lane_shufflePs256, sel4, lo128_32, hi128_32,
    concat128_32, Int.add_assoc, - Option.bind_eq_bind, hi 1 (by decide), hi 2 (by decide), hi 3 (by decide), hi 4 (by decide), hi 5 (by decide), hi 6 (by decide), hi 7 (by decide)]

/-! ### All overloads -/

theorem scatters_ilMany {n w size : Nat}
    {f2 : ILMem w → Int → (Nat → Int) → BitVec n → BitVec n → Option (ILMem w)}
    {f3 : ILMem w → Int → (Nat → Int) → BitVec n → BitVec n → BitVec n → Option (ILMem w)}
    {f4 : ILMem w → Int → (Nat → Int) → BitVec n → BitVec n → BitVec n → BitVec n →
      Option (ILMem w)} {i : Nat → Int}
    (h2 : ∀ data v0 v1, Scatters size (fun m => f2 m data i v0 v1) data i [v0, v1])
    (h3 : ∀ data v0 v1 v2, Scatters size (fun m => f3 m data i v0 v1 v2) data i [v0, v1, v2])
    (h4 : ∀ data v0 v1 v2 v3,
      Scatters size (fun m => f4 m data i v0 v1 v2 v3) data i [v0, v1, v2, v3])
    (data : Int) {vs : List (BitVec n)} (hv : 2 ≤ vs.length ∧ vs.length ≤ 8) :
    Scatters size (fun m => ilMany size f2 f3 f4 m data i vs) data i vs := by
  match vs, hv with
  | [v0, v1], _ => exact h2 data v0 v1
  | [v0, v1, v2], _ => exact h3 data v0 v1 v2
  | [v0, v1, v2, v3], _ => exact h4 data v0 v1 v2 v3
  | [v0, v1, v2, v3, v4], _ =>
    exact scatters_append _ rfl (h4 data v0 v1 v2 v3) (scatters_scatterAll size (data + 4) i v4)
  | [v0, v1, v2, v3, v4, v5], _ =>
    exact scatters_append _ rfl (h4 data v0 v1 v2 v3) (h2 (data + 4) v4 v5)
  | [v0, v1, v2, v3, v4, v5, v6], _ =>
    exact scatters_append _ rfl (h4 data v0 v1 v2 v3) (h3 (data + 4) v4 v5 v6)
  | [v0, v1, v2, v3, v4, v5, v6, v7], _ =>
    exact scatters_append _ rfl (h4 data v0 v1 v2 v3) (h4 (data + 4) v4 v5 v6 v7)
  | [], h => exact absurd h.1 (by simp)
  | [_], h => exact absurd h.1 (by simp)
  | _ :: _ :: _ :: _ :: _ :: _ :: _ :: _ :: _ :: _, h => exact absurd h.2 (by simp)

theorem scatters_ilScalar {w : Nat} (data : Int) (i : Nat → Int) {vs : List (BitVec w)}
    (hv : 2 ≤ vs.length ∧ vs.length ≤ 8) :
    Scatters 1 (fun m => ilScalar m data i vs) data i vs := by
  match vs, hv with
  | [v0, v1], _ => exact scatters_ilScalar2 data i v0 v1
  | [v0, v1, v2], _ => exact scatters_ilScalar3 data i v0 v1 v2
  | [v0, v1, v2, v3], _ => exact scatters_ilScalar4 data i v0 v1 v2 v3
  | [v0, v1, v2, v3, v4], _ =>
    have := scatters_append _ rfl (scatters_ilScalar4 data i v0 v1 v2 v3)
      (scatters_scatterAll (w := w) 1 (data + 4) i v4)
    refine (congrArg (fun f => Scatters 1 f data i [v0, v1, v2, v3, v4]) ?_).mp this
    funext m
    simp only [ilScalar]
    congr 1
    funext m'
    simp [sput, scatterAll, List.range, List.range.loop, lane_self]
    rw [show data + 4 + i 0 = data + (i 0 + 4) by omega]
  | [v0, v1, v2, v3, v4, v5], _ =>
    exact scatters_append _ rfl (scatters_ilScalar4 data i v0 v1 v2 v3)
      (scatters_ilScalar2 (data + 4) i v4 v5)
  | [v0, v1, v2, v3, v4, v5, v6], _ =>
    exact scatters_append _ rfl (scatters_ilScalar4 data i v0 v1 v2 v3)
      (scatters_ilScalar3 (data + 4) i v4 v5 v6)
  | [v0, v1, v2, v3, v4, v5, v6, v7], _ =>
    exact scatters_append _ rfl (scatters_ilScalar4 data i v0 v1 v2 v3)
      (scatters_ilScalar4 (data + 4) i v4 v5 v6 v7)
  | [], h => exact absurd h.1 (by simp)
  | [_], h => exact absurd h.1 (by simp)
  | _ :: _ :: _ :: _ :: _ :: _ :: _ :: _ :: _ :: _, h => exact absurd h.2 (by simp)

theorem scatters_interleave (C : ILCfg) (V : ILVec) (data : Int) (i : Nat → Int)
    {vs : List (BitVec V.bits)} (hv : 2 ≤ vs.length ∧ vs.length ≤ 8) :
    Scatters V.size (fun m => V.interleave C m data i vs) data i vs := by
  cases V with
  | scalar w => exact scatters_ilScalar data i hv
  | sse8 =>
    exact scatters_ilMany (fun d => scatters_il8x2 C d i) (fun d => scatters_il8x3 C d i)
      (fun d => scatters_il8x4 d i) data hv
  | sse4 =>
    exact scatters_ilMany (fun d => scatters_il4x2 d i) (fun d => scatters_il4x3 C d i)
      (fun d => scatters_il4x4 d i) data hv
  | sse2 =>
    exact scatters_ilMany (fun d => scatters_il2x2 d i) (fun d => scatters_il2x3 d i)
      (fun d => scatters_il2x4 d i) data hv
  | avx16 =>
    exact scatters_ilMany (fun d => scatters_il16x2 d i) (fun d => scatters_il16x3 d i)
      (fun d => scatters_il16x4 d i) data hv
  | avx8 =>
    exact scatters_ilMany (fun d => scatters_ilA8x2 d i) (fun d => scatters_ilA8x3 C d i)
      (fun d => scatters_ilA8x4 d i) data hv
  | avx4 =>
    exact scatters_ilMany (fun d => scatters_ilA4x2 d i) (fun d => scatters_ilA4x3 C d i)
      (fun d => scatters_ilA4x4 d i) data hv

theorem scatters_interleaveS (C : ILCfg) (S : Nat) (V : ILVec) (data : Int) {i : Nat → Int}
    (hi : Succ S V.size i) {vs : List (BitVec V.bits)} (hv : 2 ≤ vs.length ∧ vs.length ≤ 8) :
    Scatters V.size (fun m => V.interleaveS C S m data i vs) data i vs := by
  cases V with
  | scalar w => exact scatters_ilScalar data i hv
  | sse8 =>
    refine scatters_ilMany ?_ (fun d => scatters_il8x3 C d i) ?_ data hv
    · intro d v0 v1
      by_cases h : S = 2
      · subst h; exact scatters_il8x2s d hi v0 v1
      · simpa [h] using scatters_il8x2 C d i v0 v1
    · intro d v0 v1 v2 v3
      by_cases h : S = 4
      · subst h; exact scatters_il8x4s d hi v0 v1 v2 v3
      · simpa [h] using scatters_il8x4 d i v0 v1 v2 v3
  | sse4 =>
    refine scatters_ilMany ?_ (fun d => scatters_il4x3 C d i) (fun d => scatters_il4x4 d i) data hv
    intro d v0 v1
    by_cases h : S = 2
    · subst h; exact scatters_il4x2s d hi v0 v1
    · simpa [h] using scatters_il4x2 d i v0 v1
  | sse2 =>
    exact scatters_ilMany (fun d => scatters_il2x2 d i) (fun d => scatters_il2x3 d i)
      (fun d => scatters_il2x4 d i) data hv
  | avx16 =>
    refine scatters_ilMany ?_ (fun d => scatters_il16x3 d i) ?_ data hv
    · intro d v0 v1
      by_cases h : S = 2
      · subst h; exact scatters_il16x2s d hi v0 v1
      · simpa [h] using scatters_il16x2 d i v0 v1
    · intro d v0 v1 v2 v3
      by_cases h : S = 4
      · subst h; exact scatters_il16x4s d hi v0 v1 v2 v3
      · simpa [h] using scatters_il16x4 d i v0 v1 v2 v3
  | avx8 =>
    refine scatters_ilMany ?_ ?_ ?_ data hv
    · intro d v0 v1
      by_cases h : S = 2
      · subst h; exact scatters_ilA8x2s d hi v0 v1
      · show Scatters 8 (fun m => (if S = 2 then ilA8x2s else ilA8x2) m d i v0 v1) d i [v0, v1]
        rw [if_neg h]
        exact scatters_ilA8x2 d i v0 v1
    · intro d v0 v1 v2
      by_cases h : S = 3
      · subst h; exact scatters_ilA8x3s d hi v0 v1 v2
      · show Scatters 8 (fun m => (if S = 3 then ilA8x3s else ilA8x3 C) m d i v0 v1 v2) d i [v0, v1, v2]
        rw [if_neg h]
        exact scatters_ilA8x3 C d i v0 v1 v2
    · intro d v0 v1 v2 v3
      by_cases h : S = 4
      · subst h; exact scatters_ilA8x4s d hi v0 v1 v2 v3
      · show Scatters 8 (fun m => (if S = 4 then ilA8x4s else ilA8x4) m d i v0 v1 v2 v3) d i [v0, v1, v2, v3]
        rw [if_neg h]
        exact scatters_ilA8x4 d i v0 v1 v2 v3
  | avx4 =>
    exact scatters_ilMany (fun d => scatters_ilA4x2 d i) (fun d => scatters_ilA4x3 C d i)
      (fun d => scatters_ilA4x4 d i) data hv

end Vc.Lemma
