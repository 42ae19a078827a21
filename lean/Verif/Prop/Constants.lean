import Verif.Model.Constants
import Verif.Spec.Constants
import Verif.Prop.SimdArray
import Verif.Prop.Logical
import Verif.Lemma.AvxDiv
import Verif.Lemma.FloatCvt

/-!
# C96: constant vectors, generators and initializer lists
-/

namespace Vc.Prop
open Vc.Model Vc.Spec Vc.Lemma

/-! ## Zero, One, IndexesFromZero -/

private theorem lane_idx {n w : Nat} {t : List Nat} {k i : Nat} (ht : t = List.range k) (hi : i < k)
    (h : w * (i + 1) ≤ n) : lane w (ofLanes w fun i => BitVec.ofNat w (t.getD i 0) : BitVec n) i = BitVec.ofNat w i := by
  rw [lane_ofLanes _ h, ht]
  congr 1
  simp [List.getD_eq_getElem?_getD, hi]

private theorem exact_small32 {i : Nat} (hi : i < 8) : ExactInt f32 i (cvtI2F f32 32 (BitVec.ofNat 32 i)) := by
  have e : (BitVec.ofNat 32 i).toInt = i := by
    rw [BitVec.toInt_eq_toNat_of_lt] <;> rw [BitVec.toNat_ofNat] <;> omega
  have := cvtI2F_single (a := BitVec.ofNat 32 i) (by rw [e]; omega)
  rwa [e] at this

private theorem exact_small64 {i : Nat} (hi : i < 8) : ExactInt f64 i (cvtI2F f64 64 (BitVec.ofNat 32 i)) := by
  have e : (BitVec.ofNat 32 i).toInt = i := by
    rw [BitVec.toInt_eq_toNat_of_lt] <;> rw [BitVec.toNat_ofNat] <;> omega
  have := cvtI2F_double (BitVec.ofNat 32 i)
  rwa [e] at this

/-- All entries of `Zero()` and of a vector without initializer are zero, all entries of `One()` are one. -/
theorem C96_zero_one :
    (∀ n w i, lane w (vZero n) i = 0#w) ∧
    (∀ w, IntWidth w → (∀ i, i < 128 / w → lane w (sseOne w) i = 1#w) ∧ ∀ i, i < 256 / w → lane w (avxOne w) i = 1#w) ∧
    (∀ n i, i < n / 32 → ExactInt f32 1 (lane 32 (vOneF f32 n 32) i)) ∧
    ∀ n i, i < n / 64 → ExactInt f64 1 (lane 64 (vOneF f64 n 64) i) := by
  refine ⟨fun n w i => lane_zero i, fun w hw => ⟨?_, ?_⟩, fun n i hi => ?_, fun n i hi => ?_⟩
  · intro i hi
    rcases hw with rfl | rfl <;> exact lane_set1 _ (by omega)
  · intro i hi
    rcases hw with rfl | rfl
    · have : ∀ j < 16, lane 16 (avxOne 16) j = 1#16 := by decide +kernel
      exact this i hi
    · have : ∀ j < 8, lane 32 (avxOne 32) j = 1#32 := by decide +kernel
      exact this i hi
  · unfold vOneF; rw [lane_set1 _ (by omega)]
    unfold ExactInt; decide +kernel
  · unfold vOneF; rw [lane_set1 _ (by omega)]
    unfold ExactInt; decide +kernel

/-- `IndexesFromZero()` of the SSE vectors: entry `i` is `i`. -/
theorem C96_indexes_sse :
    (∀ w, IntWidth w → ∀ i, i < 128 / w → lane w (sseIndexes w) i = BitVec.ofNat w i) ∧
    (∀ i : Nat, i < 4 → ExactInt f32 i (lane 32 sseIndexesPs i)) ∧ ∀ i : Nat, i < 2 → ExactInt f64 i (lane 64 sseIndexesPd i) := by
  have h32 : ∀ i, i < 4 → lane 32 (sseIndexes 32) i = BitVec.ofNat 32 i := fun i hi =>
    lane_idx (k := 4) (by decide) hi (by omega)
  refine ⟨?_, fun i hi => ?_, fun i hi => ?_⟩
  · rintro w (rfl | rfl) i hi
    · exact lane_idx (k := 8) (by decide) hi (by omega)
    · exact h32 i hi
  · unfold sseIndexesPs cvtepi32PsN
    rw [lane_map1 _ _ (by omega), h32 i hi]
    exact exact_small32 (by omega)
  · unfold sseIndexesPd cvtepi32Pd
    rw [lane_ofLanes _ (by omega), h32 i (by omega)]
    exact exact_small64 (by omega)

/-- `IndexesFromZero()` of the AVX vectors, wherever the tables are: entry `i` is `i`, for the types that use the table of
32-bit numbers; for the vectors of 16-bit integers if the table happens to be at a multiple of 32. -/
theorem C96_indexes_avx_partial {addr : Nat} :
    (avxTable32.align ∣ addr →
      (∃ r, avxIndexes32 addr = some r ∧ ∀ i, i < 8 → lane 32 r i = BitVec.ofNat 32 i) ∧
      (∃ r, avxIndexesPs addr = some r ∧ ∀ i : Nat, i < 8 → ExactInt f32 i (lane 32 r i)) ∧
      ∃ r, avxIndexesPd addr = some r ∧ ∀ i : Nat, i < 4 → ExactInt f64 i (lane 64 r i)) ∧
    ((∃ r, avxIndexes16 addr = some r) ↔ 32 ∣ addr) ∧
    ∀ r, avxIndexes16 addr = some r → ∀ i, i < 16 → lane 16 r i = BitVec.ofNat 16 i := by
  refine ⟨fun h => ?_, ?_, ?_⟩
  · have h' : 64 ∣ addr := h
    have l256 : (loadAligned 32 avxTable32 addr : Option M256) = some (ofLanes 32 fun i =>
        BitVec.ofNat 32 (avxTable32.entries.getD i 0)) := if_pos (show addr % 32 = 0 by omega)
    have l128 : (loadAligned 32 avxTable32 addr : Option M128) = some (ofLanes 32 fun i =>
        BitVec.ofNat 32 (avxTable32.entries.getD i 0)) := if_pos (show addr % 16 = 0 by omega)
    have e256 : ∀ i, i < 8 → lane 32 (ofLanes 32 fun i => BitVec.ofNat 32 (avxTable32.entries.getD i 0) : M256) i =
        BitVec.ofNat 32 i := fun i hi => lane_idx (k := 8) (by decide) hi (by omega)
    have e128 : ∀ i, i < 4 → lane 32 (ofLanes 32 fun i => BitVec.ofNat 32 (avxTable32.entries.getD i 0) : M128) i =
        BitVec.ofNat 32 i := fun i hi => lane_idx (k := 8) (by decide) (by omega) (by omega)
    refine ⟨⟨_, l256, e256⟩, ⟨cvtepi32PsN _, by unfold avxIndexesPs; rw [l256]; rfl, fun i hi => ?_⟩,
      ⟨cvtepi32Pd256 _, by unfold avxIndexesPd; rw [l128]; rfl, fun i hi => ?_⟩⟩
    · unfold cvtepi32PsN
      rw [lane_map1 _ _ (by omega), e256 i hi]
      exact exact_small32 (by omega)
    · unfold cvtepi32Pd256
      rw [lane_ofLanes _ (by omega), e128 i hi]
      exact exact_small64 (by omega)
  · unfold avxIndexes16 loadAligned
    constructor
    · rintro ⟨r, h⟩
      by_cases hc : addr % (256 / 8) = 0
      · omega
      · rw [if_neg hc] at h; cases h
    · intro h
      exact ⟨_, if_pos (show addr % 32 = 0 by omega)⟩
  · intro r h i hi
    by_cases hc : addr % (256 / 8) = 0
    · have h' : avxIndexes16 addr = some (ofLanes 16 fun i => BitVec.ofNat 16 (avxTable16.entries.getD i 0)) := if_pos hc
      rw [h'] at h
      rw [← Option.some.inj h]
      exact lane_idx (k := 16) (by decide) hi (by omega)
    · have h' : avxIndexes16 addr = none := if_neg hc
      rw [h'] at h
      cases h

example : avxTable32.align ∣ 128 ∧ (32 : Nat) ∣ 96 := by decide

/-- `short_v::IndexesFromZero()` with AVX2: the table may be at an address that is not a multiple of 32, then the load
is an exception. -/
theorem C96_indexes_avx_violated : ∃ addr, avxTable16.align ∣ addr ∧ avxIndexes16 addr = none :=
  ⟨16, by decide, by decide⟩

/-! ## generate -/

/-- The functor as a function of one state. -/
def joinState {ρ σ β : Type} (g : GenFun ρ σ β) (i : Nat) (q : ρ × σ) : β × (ρ × σ) :=
  ((g i q.1 q.2).1, (g i q.1 q.2).2)

private theorem runCalls_snoc {ρ σ β : Type} (g : GenFun ρ σ β) : ∀ (cnt i : Nat) (r : ρ) (s : σ),
    runCalls g i (cnt + 1) r s =
      let t := runCalls g i cnt r s
      let c := g (i + cnt) t.2.1 t.2.2
      (t.1 ++ [c.1], c.2)
  | 0, i, r, s => by simp [runCalls]
  | cnt + 1, i, r, s => by
    rw [runCalls]
    simp only []
    rw [runCalls_snoc g cnt (i + 1)]
    simp only [runCalls, List.cons_append]
    rw [show i + 1 + cnt = i + (cnt + 1) by omega]

private theorem runCalls_seq {ρ σ β : Type} (g : GenFun ρ σ β) (r : ρ) (s : σ) : ∀ n : Nat,
    CallSeq (joinState g) n (r, s) (runCalls g 0 n r s).1 (runCalls g 0 n r s).2
  | 0 => .nil _
  | n + 1 => by
    have ih := runCalls_seq g r s n
    rw [runCalls_snoc, Nat.zero_add]
    exact .snoc ih rfl

private theorem runCalls_length {ρ σ β : Type} (g : GenFun ρ σ β) : ∀ (cnt i : Nat) (r : ρ) (s : σ),
    (runCalls g i cnt r s).1.length = cnt
  | 0, _, _, _ => rfl
  | cnt + 1, i, r, s => by simp only [runCalls, List.length_cons, runCalls_length g cnt]

/-- `generate(f)` of the native vectors: entry `i` is the result of `f(i)`, called in ascending order on one object. -/
theorem C96_generate_native {ρ σ : Type} {n w : Nat} (g : GenFun ρ σ (BitVec w)) (r : ρ) (s : σ) :
    ∃ l r', CallSeq (joinState g) (n / w) (r, s) l (r', (vGenerate n w g r s).2) ∧ l.length = n / w ∧
      ∀ i, i < n / w → some (lane w (vGenerate n w g r s).1 i) = l[i]? := by
  have hl := runCalls_length g (n / w) 0 r s
  refine ⟨_, _, runCalls_seq g r s (n / w), hl, fun i hi => ?_⟩
  have h1 : w * (i + 1) ≤ n := Nat.le_trans (Nat.mul_le_mul_left w hi) (Nat.mul_div_le n w)
  unfold vGenerate
  rw [lane_ofLanes _ h1, List.getD_eq_getElem?_getD, List.getElem?_eq_getElem (by omega)]
  rfl

private theorem runCalls_append {ρ σ β : Type} (g : GenFun ρ σ β) : ∀ (a i b : Nat) (r : ρ) (s : σ),
    runCalls g i (a + b) r s =
      let t := runCalls g i a r s
      let u := runCalls g (i + a) b t.2.1 t.2.2
      (t.1 ++ u.1, u.2)
  | 0, i, b, r, s => by simp [runCalls]
  | a + 1, i, b, r, s => by
    rw [show a + 1 + b = (a + b) + 1 by omega, runCalls, runCalls]
    simp only []
    rw [runCalls_append g a (i + 1) b]
    simp only [List.cons_append]
    rw [show i + 1 + a = i + (a + 1) by omega]

/-- The functor does not change its own data members. -/
def Stateless {ρ σ β : Type} (g : GenFun ρ σ β) : Prop := ∀ i r s, (g i r s).2.1 = r

private theorem Stateless.run {ρ σ β : Type} {g : GenFun ρ σ β} (h : Stateless g) : ∀ (cnt i : Nat) (r : ρ) (s : σ),
    (runCalls g i cnt r s).2.1 = r
  | 0, _, _, _ => rfl
  | cnt + 1, i, r, s => by simp only [runCalls]; rw [h.run cnt, h]

private theorem runCalls_ref {ρ σ β : Type} (g : GenFun ρ σ β) (k : Nat) : ∀ (cnt i : Nat) (r : ρ) (s : σ),
    runCalls (fun i _ q => ((g (i + k) q.1 q.2).1, (), ((g (i + k) q.1 q.2).2.1, (g (i + k) q.1 q.2).2.2)) :
        GenFun Unit (ρ × σ) β) i cnt () (r, s) =
      ((runCalls g (i + k) cnt r s).1, (), (runCalls g (i + k) cnt r s).2)
  | 0, _, _, _ => rfl
  | cnt + 1, i, r, s => by
    rw [runCalls, runCalls]
    simp only []
    rw [runCalls_ref g k cnt (i + 1)]
    rw [show i + 1 + k = i + k + 1 by omega]

private theorem generateObj_eq {C : Cfg} (hC : C.Valid) {β : Type} {n : Nat} (hn : 1 ≤ n) :
    ∀ {ρ σ : Type} (g : GenFun ρ σ β) (_ : Stateless g) (r : ρ) (s : σ),
      SA.WF C n (SA.generateObj C n g r s).1 ∧ (SA.generateObj C n g r s).1.toList = (runCalls g 0 n r s).1 ∧
        (SA.generateObj C n g r s).2 = (runCalls g 0 n r s).2 := by
  refine template_induction hC (P := fun n => ∀ {ρ σ : Type} (g : GenFun ρ σ β) (_ : Stateless g) (r : ρ) (s : σ),
      SA.WF C n (SA.generateObj C n g r s).1 ∧ (SA.generateObj C n g r s).1.toList = (runCalls g 0 n r s).1 ∧
        (SA.generateObj C n g r s).2 = (runCalls g 0 n r s).2) ?_ ?_ n hn
  · intro n hn ha ρ σ g hg r s
    rw [SA.generateObj, if_pos ha]
    refine ⟨⟨runCalls_length .., ha⟩, rfl, ?_⟩
    have := hg.run n 0 r s
    exact Prod.ext this.symm rfl
  · intro n hn ha ih0 ih1 ρ σ g hg r s
    obtain ⟨w0, l0, e0⟩ := ih0 g hg r s
    rw [SA.generateObj, if_neg (by simp [ha]), dif_pos hn]
    simp only []
    obtain ⟨w1, l1, e1⟩ := ih1 (fun i _ q => ((g (i + leftSize n) q.1 q.2).1, (),
        ((g (i + leftSize n) q.1 q.2).2.1, (g (i + leftSize n) q.1 q.2).2.2)) : GenFun Unit (ρ × σ) β)
      (fun _ _ _ => rfl) () ((SA.generateObj C (leftSize n) g r s).2.1, (SA.generateObj C (leftSize n) g r s).2.2)
    rw [runCalls_ref, Nat.zero_add] at l1 e1
    have ha' := runCalls_append g (leftSize n) 0 (rightSize n) r s
    rw [leftSize_add_rightSize hn, Nat.zero_add] at ha'
    simp only [] at ha'
    refine ⟨⟨ha, w0, w1⟩, ?_, ?_⟩
    · rw [SA.toList, l0, l1, ha', e0]
    · rw [e1, ha', e0]

/-- `generate(f)` of a SimdArray with a functor that does not change its own data members (references to other state are
allowed): entry `i` is the result of `f(i)`, called in ascending order. -/
theorem C96_generate_partial {C : Cfg} (hC : C.Valid) {β : Type} {n : Nat} (hn : 1 ≤ n) {ρ σ : Type} (g : GenFun ρ σ β)
    (hg : Stateless g) (r : ρ) (s : σ) :
    SA.WF C n (SA.generateObj C n g r s).1 ∧
      CallSeq (joinState g) n (r, s) (SA.generateObj C n g r s).1.toList (SA.generateObj C n g r s).2 := by
  obtain ⟨h1, h2, h3⟩ := generateObj_eq hC hn g hg r s
  refine ⟨h1, ?_⟩
  rw [h2, h3]
  exact runCalls_seq g r s n

/-- A lambda that counts in a captured reference. -/
example : Stateless (fun i _ s => (i * 10 + s, (), s + 1) : GenFun Unit Nat Nat) := fun _ _ _ => rfl

/-- The results of a sequence of calls are unique. -/
theorem C96_callSeq_unique {τ β : Type} {f : Nat → τ → β × τ} {n : Nat} {s : τ} {l l' : List β} {t t' : τ}
    (h : CallSeq f n s l t) (h' : CallSeq f n s l' t') : l = l' ∧ t = t' := by
  induction h generalizing l' t' with
  | nil s => cases h'; exact ⟨rfl, rfl⟩
  | snoc h e ih =>
    cases h' with
    | snoc h2 e2 =>
      obtain ⟨rfl, rfl⟩ := ih h2
      rw [e] at e2
      cases e2
      exact ⟨rfl, rfl⟩

/-- A functor that counts its calls in a (mutable) data member: `SimdArray<int, 8>` with SSE is 0, 1, 2, 3, 0, 1, 2, 3. -/
theorem C96_generate_violated :
    let g : GenFun Nat Unit Nat := fun _ r _ => (r, r + 1, ())
    (SA.generateObj exCfg 8 g 0 ()).1.toList = [0, 1, 2, 3, 0, 1, 2, 3] ∧
      ¬ ∃ t, CallSeq (joinState g) 8 (0, ()) (SA.generateObj exCfg 8 g 0 ()).1.toList t := by
  intro g
  have e : (SA.generateObj exCfg 8 g 0 ()).1.toList = [0, 1, 2, 3, 0, 1, 2, 3] := by decide +kernel
  refine ⟨e, ?_⟩
  rintro ⟨t, h⟩
  have := (C96_callSeq_unique h (runCalls_seq g 0 () 8)).1
  rw [e] at this
  revert this
  decide

/-- The result of the functor is converted to the entry type: always for signed entries and for functors that return
integers, for unsigned entries only if a floating-point result is a value of the signed type. -/
theorem C96_convert_partial (sgn : Bool) (w : Nat) (hw : 0 < w) (x : GenValue)
    (h : sgn = true ∨ (∃ v, x = .int v) ∨ ∃ t, x = .real t ∧ -1 < t ∧ t < 2 ^ (w - 1)) :
    genParam sgn w x = x.conv sgn w := by
  unfold genParam
  rcases h with rfl | ⟨v, rfl⟩ | ⟨t, rfl, h1, h2⟩
  · rfl
  · cases sgn <;> rfl
  · cases sgn
    · have hp : (2 : Int) ^ w = 2 * 2 ^ (w - 1) := by
        rw [← Int.pow_succ' ]; congr 1; omega
      have hpos : (0 : Int) < 2 ^ (w - 1) := Int.pow_pos (by decide)
      simp only [GenValue.conv, if_true, Bool.false_eq_true, if_false]
      rw [if_pos ⟨by omega, h2⟩, if_pos ⟨h1, by omega⟩]
    · rfl

example : (GenValue.real 7).conv false 32 = some 7#32 ∧ genParam false 32 (.int (-1)) = some 0xffffffff#32 := by decide

/-- `uint_v::generate([](int) { return 3e9; })` is undefined although 3e9 is a value of `unsigned int`. -/
theorem C96_convert_violated : (GenValue.real 3000000000).conv false 32 = some 3000000000#32 ∧
    genParam false 32 (.real 3000000000) = none := by decide

/-! ## Initializer lists -/

private theorem load_short {α : Type} {C : Cfg} (hC : C.Valid) (mem : List α) {n : Nat} (hn : 1 ≤ n) :
    ∀ p, mem.length < p + n → SA.load C mem n p = none := by
  refine template_induction hC (P := fun n => ∀ p, mem.length < p + n → SA.load C mem n p = none) ?_ ?_ n hn
  · intro n hn ha p h
    rw [SA.load, if_pos ha, if_neg (by omega)]
  · intro n hn ha ih0 ih1 p h
    rw [SA.load, if_neg (by simp [ha]), dif_pos hn]
    have := leftSize_add_rightSize hn
    by_cases h0 : mem.length < p + leftSize n
    · rw [ih0 p h0]; rfl
    · rw [ih1 (p + leftSize n) (by omega)]
      cases SA.load C mem (leftSize n) p <;> rfl

/-- `SimdArray{...}` with as many values as entries: entry `i` is value `i`. -/
theorem C96_list {α : Type} {C : Cfg} (hC : C.Valid) {n : Nat} (hn : 1 ≤ n) (debug : Bool) {l : List α}
    (hl : l.length = n) :
    ∃ x, SA.ofInitList debug C n l = .ok x ∧ SA.WF C n x ∧ ∀ i : Nat, i < n → x.get C (i : Int) = l[i]? := by
  obtain ⟨x, e, w, h⟩ := C14_load_get hC l n 0 hn (by omega)
  refine ⟨x, ?_, w, fun i hi => by rw [h i hi, Nat.zero_add]⟩
  unfold SA.ofInitList
  rw [e]
  simp [hl]

example : exCfg.Valid ∧ [1, 2, 3, 4, 5].length = 5 := ⟨exCfg_valid, rfl⟩

/-- With more values an assertion fails (if assertions are enabled). -/
theorem C96_list_long {α : Type} {C : Cfg} (hC : C.Valid) {n : Nat} (hn : 1 ≤ n) {l : List α} (hl : n < l.length) :
    SA.ofInitList true C n l = .assertion := by
  obtain ⟨x, e, w, h⟩ := C14_load_get hC l n 0 hn (by omega)
  unfold SA.ofInitList
  rw [e]
  have : l.length ≠ n := by omega
  simp [this]

/-- With fewer values the constructor reads behind the list before it looks at the size. -/
theorem C96_list_short_violated {α : Type} {C : Cfg} (hC : C.Valid) {n : Nat} (hn : 1 ≤ n) (debug : Bool) {l : List α}
    (hl : l.length < n) : SA.ofInitList debug C n l = .undefined := by
  unfold SA.ofInitList
  rw [load_short hC l hn 0 (by omega)]

end Vc.Prop
