import Verif.Lemma.SortNet3
import Verif.Prop.SseInt
import Verif.Prop.FloatBits

/-!
# Properties of the sorting networks (C31)
-/

namespace Vc.Prop

open Vc.Model Vc.Lemma Vc.Spec

/-! ### Integers -/

private theorem val_inj {w : Nat} (sgn : Bool) {a b : BitVec w} (h : val sgn a = val sgn b) : a = b := by
  cases sgn
  · simp only [val, Bool.false_eq_true, if_false] at h
    exact BitVec.eq_of_toNat_eq (by omega)
  · exact BitVec.eq_of_toInt_eq h

private theorem sorted_of_keys {α : Type} [BEq α] [LawfulBEq α] {key : α → Int}
    (hk : ∀ a b, key a = key b → a = b) {l r : List α}
    (h : IsSorted (fun a b : Int => decide (a ≤ b)) (l.map key) (r.map key)) :
    IsSorted (fun a b => decide (key a ≤ key b)) l r := by
  refine ⟨List.pairwise_map.mp h.1, ?_⟩
  rw [List.perm_iff_count]
  have cnt : ∀ (l : List α) (a : α), (l.map key).count (key a) = l.count a := by
    intro l a
    rw [List.count, List.countP_map, List.count]
    refine List.countP_congr fun b _ => ?_
    by_cases e : b = a
    · simp [e]
    · have : key b ≠ key a := fun h => e (hk _ _ h)
      simp [e, this]
  intro a
  rw [← cnt, ← cnt]
  exact List.perm_iff_count.mp h.2 _

private theorem rep_inp {w n k : Nat} (key : BitVec w → Int) (ok : BitVec w → Prop) (x : BitVec n)
    (h : ∀ i, i < k → ok (lane w x i)) : Rep ok key k (fun i => key (lane w x i)) x .inp :=
  fun i hi => ⟨h i hi, rfl⟩

private theorem sorted_of_rep {w n k : Nat} {key : BitVec w → Int} {ok : BitVec w → Prop} {x r : BitVec n}
    {E : Nat → Wire} {m : Nat} (hc : check m (List.range k) E = true) (hm : k ≤ m)
    (h : Rep ok key k (fun i => key (lane w x i)) r E) :
    IsSorted (fun a b : Int => decide (a ≤ b)) (((List.range k).map (lane w x)).map key)
      (((List.range k).map (lane w r)).map key) := by
  have := net_sorts hc (fun i hi => by have := List.mem_range.mp hi; omega) fun i => key (lane w x i)
  rw [List.length_range] at this
  rw [List.map_map, List.map_map]
  have e : (List.range k).map (key ∘ lane w r) =
      (List.range k).map fun i => evI (fun i => key (lane w x i)) (E i) :=
    List.map_congr_left fun i hi => (h i (List.mem_range.mp hi)).2
  rw [e]
  exact this

private theorem minMax_int (I : Isa) (sgn : Bool) {w k : Nat} (hw : IntWidth w) (hk : w * k = 128) :
    MinMax (fun _ : BitVec w => True) (val sgn) k (vMin I sgn w) (vMax I sgn w) where
  mn x y _ hi _ _ := ⟨trivial, C34_min I hw sgn x y (hk ▸ Nat.mul_le_mul_left _ hi)⟩
  mx x y _ hi _ _ := ⟨trivial, C34_max I hw sgn x y (hk ▸ Nat.mul_le_mul_left _ hi)⟩

/-- SSE short_v and ushort_v. -/
theorem C31_sse_short (I : Isa) (sgn : Bool) (x : M128) :
    ∃ r, sortedSse16 I sgn x = some r ∧
      IsSorted (fun a b => decide (val sgn a ≤ val sgn b)) ((List.range 8).map (lane 16 x))
        ((List.range 8).map (lane 16 r)) := by
  have h0 : lane 16 x 8 = 0#16 := lane_out x (by decide)
  obtain ⟨r, e, h⟩ := rep_sse16 I (minMax_int I sgn (Or.inl rfl) rfl)
    (rep_inp (val sgn) _ x fun _ _ => trivial) ⟨trivial, by rw [h0]⟩
  exact ⟨r, e, sorted_of_keys (fun _ _ => val_inj sgn) (sorted_of_rep check_sse16 (by decide) h)⟩

/-- SSE int_v and uint_v. -/
theorem C31_sse_int (I : Isa) (sgn : Bool) (x : M128) :
    IsSorted (fun a b => decide (val sgn a ≤ val sgn b)) ((List.range 4).map (lane 32 x))
      ((List.range 4).map (lane 32 (sortedSse32 I sgn x))) := by
  have h := rep_sse32 (minMax_int I sgn (Or.inr rfl) rfl) (rep_inp (k := 4) (val sgn) _ x fun _ _ => trivial)
    (y := shuffleEpi32 x (mmShuffle 2 3 0 1)) (fun i hi => by
      rw [lane_shuffleEpi32 _ _ hi]
      match i, hi with
      | 0, _ | 1, _ | 2, _ | 3, _ => rfl)
    (fun z => unpackhi 64 z z) (fun z E hz => hz.unpackhi64 (c := 2) rfl (by decide) rfl hz)
  exact sorted_of_keys (fun _ _ => val_inj sgn) (sorted_of_rep check_sse32 (by decide) h)

example : (List.range 4).map (lane 32 (sortedSse32 sse42 true
    (setEpi32 5#32 0xffffffff#32 7#32 5#32))) = [0xffffffff#32, 5#32, 5#32, 7#32] := by decide +kernel

/-- AVX2 short_v and ushort_v. -/
theorem C31_avx_short (I : Isa) (sgn : Bool) (x : M256) :
    ∃ r, sortedAvx16 I sgn x = some r ∧
      IsSorted (fun a b => decide (val sgn a ≤ val sgn b)) ((List.range 16).map (lane 16 x))
        ((List.range 16).map (lane 16 r)) := by
  obtain ⟨r, e, h⟩ := rep_avx16 I (minMax_int I sgn (Or.inl rfl) rfl)
    (rep_inp (val sgn) _ x fun _ _ => trivial)
  exact ⟨r, e, sorted_of_keys (fun _ _ => val_inj sgn) (sorted_of_rep check_avx16 (by decide) h)⟩

/-- Two sorted halves, the second above the first. -/
private theorem sorted_append {l1 l2 r1 r2 l : List Int}
    (h1 : IsSorted (fun a b : Int => decide (a ≤ b)) l1 r1) (h2 : IsSorted (fun a b : Int => decide (a ≤ b)) l2 r2)
    (hl : (l1 ++ l2).Perm l) {p q : Int} (hp : ∀ a ∈ r1, a ≤ p) (hq : ∀ b ∈ r2, q ≤ b) (hpq : p ≤ q) :
    IsSorted (fun a b : Int => decide (a ≤ b)) l (r1 ++ r2) := by
  refine ⟨List.pairwise_append.mpr ⟨h1.1, h2.1, fun a ha b hb => decide_eq_true ?_⟩,
    (h1.2.append h2.2).trans hl⟩
  exact Int.le_trans (hp a ha) (Int.le_trans hpq (hq b hb))

/-- AVX2 int_v and uint_v, with the early exits. -/
theorem C31_avx_int (I : Isa) (sgn : Bool) (x : M256) :
    ∃ r, sortedAvx32 I sgn x = some r ∧
      IsSorted (fun a b => decide (val sgn a ≤ val sgn b)) ((List.range 8).map (lane 32 x))
        ((List.range 8).map (lane 32 r)) := by
  let v : Nat → Int := fun i => val sgn (lane 32 x i)
  have H := minMax_int I sgn (k := 4) (Or.inr rfl) rfl
  obtain ⟨X, Y, a, b, e, hX, hY, ha, hb⟩ := rep_halves H (regPermute4_some)
    (rep_inp (k := 8) (val sgn) _ x fun _ _ => trivial)
  obtain ⟨rb, erb, prb⟩ := regPermute4_some 0 1 2 3 b (by decide)
  have hrb := hb.shuffle32 prb (by decide)
  have sa := net_sorts check_a (by decide) v
  have sb := net_sorts check_rb (by decide) v
  have ge : ∀ p q : BitVec 32, (if sgn then q.sle p else q.ule p) = decide (val sgn q ≤ val sgn p) := by
    intro p q
    cases sgn
    · simp only [val, Bool.false_eq_true, if_false, BitVec.ule]
      exact decide_eq_decide.mpr (by omega)
    · simp only [val, if_true, BitVec.sle]
  -- the smallest and largest entries of the two halves
  have hle : ∀ {E : Nat → Wire} {vars : List Nat}, vars.length = 4 →
      IsSorted (fun a b : Int => decide (a ≤ b)) (vars.map v) ((List.range vars.length).map fun i => evI v (E i)) →
      (∀ c ∈ (List.range 4).map fun i => evI v (E i), evI v (E 0) ≤ c ∧ c ≤ evI v (E 3)) := by
    intro E vars hl h c hc
    rw [hl] at h
    have h := List.pairwise_map.mp h.1
    obtain ⟨i, hi, rfl⟩ := List.mem_map.mp hc
    have hi := List.mem_range.mp hi
    have h' : ∀ i j, i < j → j < 4 → evI v (E i) ≤ evI v (E j) := by
      intro i j hij hj
      have := List.pairwise_iff_getElem.mp h i j (by simp; omega) (by simpa using hj) hij
      simpa using this
    constructor
    · by_cases h0 : i = 0
      · rw [h0]; exact Int.le_refl _
      · exact h' 0 i (by omega) hi
    · by_cases h0 : i = 3
      · rw [h0]; exact Int.le_refl _
      · exact h' i 3 (by omega) (by decide)
  have la := hle (E := wA) rfl sa
  have lb := hle (E := wRB) rfl sb
  have cat : ∀ {p q : M128} {E F : Nat → Wire},
      Rep (w := 32) (fun _ => True) (val sgn) 4 v p E → Rep (w := 32) (fun _ => True) (val sgn) 4 v q F →
      ((List.range 8).map (lane 32 (concat128 p q))).map (val sgn) =
        ((List.range 4).map fun i => evI v (E i)) ++ (List.range 4).map fun i => evI v (F i) := by
    intro p q E F hp hq
    have hc := hp.concat (k := 4) rfl hq
    rw [List.map_map]
    have e : (List.range 8).map (val sgn ∘ lane 32 (concat128 p q)) =
        (List.range 8).map fun i => evI v (wcat 4 E F i) :=
      List.map_congr_left fun i hi => (hc i (List.mem_range.mp hi)).2
    rw [e]; rfl
  unfold sortedAvx32 sortAvx32
  simp only [e, bind, Option.bind, pure, erb, ge]
  by_cases c1 : val sgn (lane 32 Y 1) ≤ val sgn (lane 32 X 2)
  · rw [if_pos (decide_eq_true c1)]
    refine ⟨_, rfl, sorted_of_keys (fun _ _ => val_inj sgn) ?_⟩
    rw [cat hrb ha, List.map_map]
    refine sorted_append sb sa ?_ (fun c hc => (lb c hc).2) (fun c hc => (la c hc).1) ?_
    · rw [← List.map_append]
      exact List.Perm.map v (by decide)
    · have h1 := (hY 1 (by decide)).2
      have h2 := (hX 2 (by decide)).2
      rw [h1, h2] at c1
      exact c1
  · rw [if_neg (by simpa using c1)]
    by_cases c2 : val sgn (lane 32 Y 3) ≤ val sgn (lane 32 X 0)
    · rw [if_pos (decide_eq_true c2)]
      refine ⟨_, rfl, sorted_of_keys (fun _ _ => val_inj sgn) ?_⟩
      rw [cat ha hrb, List.map_map]
      refine sorted_append sa sb ?_ (fun c hc => (la c hc).2) (fun c hc => (lb c hc).1) ?_
      · rw [← List.map_append]
        exact List.Perm.map v (by decide)
      · have h1 := (hY 3 (by decide)).2
        have h2 := (hX 0 (by decide)).2
        rw [h1, h2] at c2
        exact c2
    · rw [if_neg (by simpa using c2)]
      exact ⟨_, rfl, sorted_of_keys (fun _ _ => val_inj sgn)
        (sorted_of_rep check_merge (by decide) (rep_merge H ha hb))⟩

/-! ### Floating point -/

/-- Not NaN and one of the lanes of `x`. -/
private def okLane (F : Fmt) {w n : Nat} (k : Nat) (x : BitVec n) (a : BitVec w) : Prop :=
  isNaN F a = false ∧ a ∈ (List.range k).map (lane w x)

private theorem not_nan_of_fnum {F : Fmt} {w : Nat} {a : BitVec w} {p : Int} (h : fnum F a = some p) :
    isNaN F a = false ∧ fval F a = p := by
  unfold fnum at h
  cases e : isNaN F a
  · rw [e] at h; simp at h; exact ⟨rfl, h⟩
  · rw [e] at h; simp at h

private theorem minMax_float {F : Fmt} {w : Nat} {K : FConst 128} (hP : Platform F 128 w K) {n k k' : Nat} (hk : w * k = 128)
    (u : BitVec n) : MinMax (w := w) (okLane F k' u) (fval F) k (vFMin F w) (vFMax F w) where
  mn x y i hi hx hy := by
    obtain ⟨h1, -, h3, -⟩ := (C54_min_max hP x y (i := i) (hk ▸ Nat.mul_le_mul_left _ hi)).1 hx.1 hy.1
    have := not_nan_of_fnum h1
    exact ⟨⟨this.1, by rcases h3 with e | e <;> rw [e]; exact hx.2; exact hy.2⟩, this.2⟩
  mx x y i hi hx hy := by
    obtain ⟨-, h1, -, h3⟩ := (C54_min_max hP x y (i := i) (hk ▸ Nat.mul_le_mul_left _ hi)).1 hx.1 hy.1
    have := not_nan_of_fnum h1
    exact ⟨⟨this.1, by rcases h3 with e | e <;> rw [e]; exact hx.2; exact hy.2⟩, this.2⟩

/-- What `sorted()` guarantees for floating-point entries: the numbers are those of the input in ascending
order, and each entry is one of the input, bit for bit. -/
def FloatSorted (F : Fmt) {w : Nat} (inp out : List (BitVec w)) : Prop :=
  IsSorted (fun a b : Int => decide (a ≤ b)) (inp.map (fval F)) (out.map (fval F)) ∧ ∀ a ∈ out, a ∈ inp

private theorem floatSorted_of_rep {F : Fmt} {w n k : Nat} {x r : BitVec n}
    {E : Nat → Wire} {m : Nat} (hc : check m (List.range k) E = true) (hm : k ≤ m)
    (h : Rep (w := w) (okLane F k x) (fval F) k (fun i => fval F (lane w x i)) r E) :
    FloatSorted F ((List.range k).map (lane w x)) ((List.range k).map (lane w r)) := by
  refine ⟨sorted_of_rep hc hm h, fun a ha => ?_⟩
  obtain ⟨i, hi, rfl⟩ := List.mem_map.mp ha
  exact (h i (List.mem_range.mp hi)).1.2

private theorem rep_float {F : Fmt} {w n k : Nat} (x : BitVec n)
    (h : ∀ i, i < k → isNaN F (lane w x i) = false) :
    Rep (w := w) (okLane F k x) (fval F) k (fun i => fval F (lane w x i)) x .inp :=
  rep_inp _ _ _ fun i hi => ⟨h i hi, List.mem_map.mpr ⟨i, List.mem_range.mpr hi, rfl⟩⟩

private theorem lane_movehl32 (z : M128) {i : Nat} (hi : i < 4) :
    lane 32 (movehl z z) i = lane 32 z (2 + i % 2) := by
  have e : ∀ q, q < 2 → lane 64 (movehl z z) q = lane 64 z 1 := by
    intro q hq
    unfold movehl
    rw [lane_ofLanes _ (by omega)]
    split <;> rfl
  exact lane_of_wide64 (w := 32) (c := 2) rfl (by decide) rfl (e (i / 2) (by omega))

/-- SSE float_v. -/
theorem C31_sse_float (x : M128) (h : ∀ i, i < 4 → isNaN f32 (lane 32 x i) = false) :
    FloatSorted f32 ((List.range 4).map (lane 32 x)) ((List.range 4).map (lane 32 (sortSseFloat x))) := by
  have r := rep_sse32 (minMax_float Platform.sseFloat rfl x) (rep_float x h)
    (y := shufflePs x x (mmShuffle 2 3 0 1)) (fun i hi => by
      rw [lane_shufflePs _ _ _ hi]
      match i, hi with
      | 0, _ | 1, _ | 2, _ | 3, _ => rfl)
    (fun z => movehl z z) (fun z E hz => hz.mix hz _ _ fun i hi => ⟨by show 2 + i % 2 < 4; omega, by
      rw [lane_movehl32 z hi]; split <;> rfl⟩)
  exact floatSorted_of_rep check_sse32 (by decide) r

example : ∀ i, i < 4 → isNaN f32 (lane 32 (set1 32 0xff800000#32 : M128) i) = false := by
  intro i hi; rw [lane_set1 _ (by omega)]; decide

private def wPair (i : Nat) : Wire := if i = 0 then .mn (.inp 0) (.inp 1) else .mx (.inp 0) (.inp 1)

/-- SSE double_v. -/
theorem C31_sse_double (x : M128) (h : ∀ i, i < 2 → isNaN f64 (lane 64 x i) = false) :
    FloatSorted f64 ((List.range 2).map (lane 64 x)) ((List.range 2).map (lane 64 (sortSseDouble x))) := by
  have hx := rep_float (F := f64) (w := 64) (k := 2) x h
  have H := minMax_float (k := 2) (k' := 2) Platform.sseDouble rfl x
  have hy := hx.sel (r := shufflePd x x 1) (fun i => 1 - i)
    fun i hi => ⟨by show 1 - i < 2; omega, lane_shuffle_swap x hi⟩
  have l := hx.mn H hy 0 (by decide)
  have u := hx.mx H hy 0 (by decide)
  have e0 : lane 64 (sortSseDouble x) 0 = lane 64 (vFMin f64 64 x (shufflePd x x 1)) 0 := by
    unfold sortSseDouble vFMin
    rw [lane_unpacklo _ _ (by decide), if_pos rfl, minSd, lane_ofLanes _ (by decide), if_pos rfl,
      lane_map2 _ _ _ (by decide)]
  have e1 : lane 64 (sortSseDouble x) 1 = lane 64 (vFMax f64 64 x (shufflePd x x 1)) 0 := by
    unfold sortSseDouble vFMax
    rw [lane_unpacklo _ _ (by decide), if_neg (by decide), maxSd, lane_ofLanes _ (by decide), if_pos rfl,
      lane_map2 _ _ _ (by decide)]
  refine floatSorted_of_rep (E := wPair) (m := 2) (by decide +kernel) (by decide) fun i hi => ?_
  match i, hi with
  | 0, _ => rw [e0]; exact l
  | 1, _ => rw [e1]; exact u

example : ∀ i, i < 2 → isNaN f64 (lane 64 (set1 64 0x7ff0000000000000#64 : M128) i) = false := by
  intro i hi; rw [lane_set1 _ (by omega)]; decide

/-- AVX float_v. -/
theorem C31_avx_float (x : M256) (h : ∀ i, i < 8 → isNaN f32 (lane 32 x i) = false) :
    ∃ r, sortAvxFloat x = some r ∧
      FloatSorted f32 ((List.range 8).map (lane 32 x)) ((List.range 8).map (lane 32 r)) := by
  have H := minMax_float (k := 4) (k' := 8) Platform.sseFloat rfl x
  obtain ⟨X, Y, a, b, e, -, -, ha, hb⟩ := rep_halves H (regPermutePs_some) (rep_float x h)
  refine ⟨_, ?_, floatSorted_of_rep check_merge (by decide) (rep_merge H ha hb)⟩
  unfold sortAvxFloat
  simp only [e, bind, Option.bind, pure]

example : ∀ i, i < 8 → isNaN f32 (lane 32 (set1 32 0x80000000#32 : M256) i) = false := by
  intro i hi; rw [lane_set1 _ (by omega)]; decide

/-- AVX double_v. -/
theorem C31_avx_double (x : M256) (h : ∀ i, i < 4 → isNaN f64 (lane 64 x i) = false) :
    ∃ r, sortAvxDouble x = some r ∧
      FloatSorted f64 ((List.range 4).map (lane 64 x)) ((List.range 4).map (lane 64 r)) := by
  obtain ⟨r, e, hr⟩ := rep_double (minMax_float (k := 2) (k' := 4) Platform.sseDouble rfl x) (rep_float x h)
  exact ⟨r, e, floatSorted_of_rep check_double (by decide) hr⟩

example : ∀ i, i < 4 → isNaN f64 (lane 64 (set1 64 0x3ff0000000000000#64 : M256) i) = false := by
  intro i hi; rw [lane_set1 _ (by omega)]; decide

private theorem sse_double_lanes (a b : BitVec 64) :
    (List.range 2).map (lane 64 (sortSseDouble (ofLanes 64 fun i => if i = 0 then a else b))) =
      [fMin f64 a b, fMax f64 a b] := by
  have h0 : lane 64 (ofLanes 64 fun i => if i = 0 then a else b : M128) 0 = a := by
    rw [lane_ofLanes _ (by decide), if_pos rfl]
  have h1 : lane 64 (ofLanes 64 fun i => if i = 0 then a else b : M128) 1 = b := by
    rw [lane_ofLanes _ (by decide), if_neg (by decide)]
  have e0 : lane 64 (sortSseDouble (ofLanes 64 fun i => if i = 0 then a else b)) 0 = fMin f64 a b := by
    unfold sortSseDouble
    rw [lane_unpacklo _ _ (by decide), if_pos rfl, minSd, lane_ofLanes _ (by decide), if_pos rfl,
      lane_shuffle_swap _ (by decide), h0, h1]
  have e1 : lane 64 (sortSseDouble (ofLanes 64 fun i => if i = 0 then a else b)) 1 = fMax f64 a b := by
    unfold sortSseDouble
    rw [lane_unpacklo _ _ (by decide), if_neg (by decide), maxSd, lane_ofLanes _ (by decide), if_pos rfl,
      lane_shuffle_swap _ (by decide), h0, h1]
  show [_, _] = _
  rw [e0, e1]

/-- The limits of the guarantee: of two zeros of different sign one is lost (both results are `-0`), and a
NaN is replaced by a copy of the other entry. -/
theorem C31_zero_nan :
    (List.range 2).map (lane 64 (sortSseDouble (ofLanes 64 fun i =>
      if i = 0 then 0#64 else 0x8000000000000000#64))) = [0x8000000000000000#64, 0x8000000000000000#64] ∧
    (List.range 2).map (lane 64 (sortSseDouble (ofLanes 64 fun i =>
      if i = 0 then 0x7ff8000000000000#64 else 0x3ff0000000000000#64))) =
        [0x3ff0000000000000#64, 0x3ff0000000000000#64] := by
  rw [sse_double_lanes, sse_double_lanes]
  decide +kernel

end Vc.Prop
