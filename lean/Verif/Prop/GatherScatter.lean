import Verif.Lemma.GatherScatter

/-!
# C28, C29, C30: masked gather and scatter strategies of native vectors

Native vectors have 2, 4, 8 or 16 lanes. `p` is the position of `mem[0]` in the accessible memory,
`ix i` the index of lane `i`. `none` is an access outside of the memory.
-/

namespace Vc.Prop
open Vc.Model Vc.Spec Vc.Lemma

variable {α : Type}

theorem natAssign_lanes : ∀ (v tmp : List α) (mask : List Bool), v.length = tmp.length →
    v.length = mask.length → (SA.natAssign v tmp mask).length = v.length ∧ ∀ i : Nat,
    (mask[i]? = some true → (SA.natAssign v tmp mask)[i]? = tmp[i]?) ∧
    (mask[i]? = some false → (SA.natAssign v tmp mask)[i]? = v[i]?)
  | [], [], [], _, _ => ⟨rfl, fun i => by simp⟩
  | x :: v, y :: t, b :: m, h1, h2 => by
    obtain ⟨l, h⟩ := natAssign_lanes v t m (by simpa using h1) (by simpa using h2)
    refine ⟨by simp [SA.natAssign, l], fun i => ?_⟩
    cases i with
    | zero => cases b <;> simp [SA.natAssign]
    | succ i => simpa [SA.natAssign] using h i

/-- A strategy other than the zeroed-index one, for any action. -/
def loopStrategy {τ : Type} (s : Strategy) (act : Nat → τ → Option τ) (full : τ → Option τ)
    (n : Nat) (mask : List Bool) (t : τ) : Option τ :=
  match s with
  | .simpleLoop => simpleLoop act mask t
  | .setIndexZero => none
  | .bitScanLoop => bitScanLoop act 64 (natToInt mask).toNat t
  | .bitScanLoop' => bitScanLoop' act 64 (natToInt mask).toNat t
  | .popcntSwitch => popcntSwitch act full n (natToInt mask).toNat t

/-- Loop strategies: the actions are those of the active lanes, in some order. -/
theorem loop_strategy {τ : Type} (s : Strategy) (hs : s ≠ .setIndexZero) (n : Nat)
    (hn : NativeSize n) (act : Nat → τ → Option τ) (full : τ → Option τ)
    (mask : List Bool) (hm : mask.length = n) :
    ((∀ i, i < n → mask[i]? = some true) ∧ ∀ t, loopStrategy s act full n mask t = full t) ∨
    ∃ L, (∀ i, i ∈ L ↔ mask[i]? = some true) ∧
      ∀ t, loopStrategy s act full n mask t = runLanes act L t := by
  have h32 : mask.length ≤ 32 := by rcases hn with rfl | rfl | rfl | rfl <;> omega
  have h32' : (natToInt mask).toNat < 2 ^ 32 := (natToInt mask).isLt
  cases s with
  | setIndexZero => exact absurd rfl hs
  | simpleLoop =>
    exact Or.inr ⟨activeLanes mask, mem_activeLanes mask, simpleLoop_eq _ _⟩
  | bitScanLoop =>
    obtain ⟨L, hL, e⟩ := bitScanLoop_spec act 64 (natToInt mask).toNat (by omega)
    exact Or.inr ⟨L, fun i => by rw [hL, natToInt_testBit mask h32], e⟩
  | bitScanLoop' =>
    have hc : (setBits 32 (natToInt mask).toNat).length ≤ 64 := by
      rw [setBits_length]; have := countBits_le 32 (natToInt mask).toNat; omega
    exact Or.inr ⟨setBits 32 (natToInt mask).toNat,
      fun i => by rw [mem_setBits h32', natToInt_testBit mask h32],
      bitScanLoop'_spec _ 32 64 _ h32' hc⟩
  | popcntSwitch => exact popcntSwitch_spec act full n hn mask hm

theorem executeGather_loop (s : Strategy) (hs : s ≠ .setIndexZero) (mem : List α) (p : Int)
    (idx : List Int) (mask : List Bool) (v : List α) :
    executeGather s mem p idx mask v =
      loopStrategy s (gatherAct mem p idx) (gatherFull mem p idx) v.length mask v := by
  cases s <;> first | rfl | exact absurd rfl hs

theorem executeScatter_loop (s : Strategy) (hs : s ≠ .setIndexZero) (mem : List α) (p : Int)
    (idx : List Int) (mask : List Bool) (v : List α) :
    executeScatter s v p idx mask mem =
      loopStrategy s (scatterAct v p idx) (scatterFull v p idx) v.length mask mem := by
  cases s <;> first | rfl | exact absurd rfl hs

theorem zeroed_lane {idx : List Int} {mask : List Bool} {i : Nat} {j : Int} {b : Bool}
    (hi : idx[i]? = some j) (hb : mask[i]? = some b) :
    (List.zipWith (fun (j : Int) b => if b then j else 0) idx mask)[i]? =
      some (if b then j else 0) := by
  rw [List.getElem?_zipWith, hi, hb]

theorem lane_bool {mask : List Bool} {n i : Nat} (hm : mask.length = n) (hi : i < n) :
    mask[i]? = some true ∨ mask[i]? = some false := by
  rw [List.getElem?_eq_getElem (by omega)]
  cases mask[i]'(by omega) <;> simp

/-! ## C28 -/

/-- Every strategy: active lanes become `mem[index]`, inactive lanes keep their value, if the
indexes of the active lanes are valid; the zeroed-index strategy in addition needs `mem[0]` to be
readable unless all lanes are active. -/
theorem C28_gather (s : Strategy) (n : Nat) (hn : NativeSize n) (mem : List α) (p : Int)
    (idx : List Int) (ix : Nat → Int) (hix : ∀ i, i < n → idx[i]? = some (ix i))
    (mask : List Bool) (hm : mask.length = n) (v : List α) (hv : v.length = n)
    (hr : ∀ i, i < n → mask[i]? = some true → 0 ≤ p + ix i ∧ p + ix i < mem.length)
    (h0 : s = .setIndexZero → (∃ i : Nat, mask[i]? = some false) → 0 ≤ p ∧ p < mem.length) :
    ∃ v', executeGather s mem p idx mask v = some v' ∧ v'.length = n ∧ ∀ i, i < n →
      (mask[i]? = some true → v'[i]? = entry mem (p + ix i)) ∧
      (mask[i]? = some false → v'[i]? = v[i]?) := by
  by_cases hs : s = .setIndexZero
  · subst hs
    obtain ⟨tmp, e, hl, ht⟩ := gatherFull_some mem p
      (List.zipWith (fun (j : Int) b => if b then j else 0) idx mask)
      (fun i => if mask[i]? = some true then ix i else 0) v (fun i hi => by
        rw [hv] at hi
        rcases lane_bool hm hi with hb | hb
        · rw [zeroed_lane (hix i hi) hb, if_pos hb]
          exact ⟨rfl, hr i hi hb⟩
        · have hb' : ¬ mask[i]? = some true := by rw [hb]; decide
          rw [zeroed_lane (hix i hi) hb]
          simp only [if_neg hb', Int.add_zero]
          exact ⟨rfl, h0 rfl ⟨i, hb⟩⟩)
    obtain ⟨nl, nv⟩ := natAssign_lanes v tmp mask hl.symm (by omega)
    refine ⟨SA.natAssign v tmp mask, ?_, by omega, fun i hi => ⟨fun hb => ?_, (nv i).2⟩⟩
    · simp only [executeGather, e, Option.bind_eq_bind, Option.bind_some]; rfl
    · rw [(nv i).1 hb, ht i (by omega), if_pos hb]
  · rw [executeGather_loop s hs, hv]
    rcases loop_strategy s hs n hn (gatherAct mem p idx) (gatherFull mem p idx) mask hm with
      ⟨hall, e⟩ | ⟨L, hL, e⟩
    · rw [e]
      obtain ⟨v', e', hl, ht⟩ := gatherFull_some mem p idx ix v (fun i hi => by
        rw [hv] at hi; exact ⟨hix i hi, hr i hi (hall i hi)⟩)
      refine ⟨v', e', by omega, fun i hi => ⟨fun _ => ht i (by omega), fun hf => ?_⟩⟩
      rw [hall i hi] at hf; cases hf
    · rw [e]
      have hLn : ∀ i, i ∈ L → i < n := fun i hi => by
        have := (List.getElem?_eq_some_iff.mp ((hL i).mp hi)).1; omega
      obtain ⟨v', e', hl, ht⟩ := gather_runLanes mem p idx ix L v (fun i hi =>
        ⟨by rw [hv]; exact hLn i hi, hix i (hLn i hi), hr i (hLn i hi) ((hL i).mp hi)⟩)
      refine ⟨v', e', by omega, fun i hi => ⟨fun hb => (ht i).1 ((hL i).mpr hb), fun hf => (ht i).2 ?_⟩⟩
      rw [hL, hf]; decide

/-- Every strategy reads the indexes of all active lanes. -/
theorem C28_gather_reads (s : Strategy) (n : Nat) (hn : NativeSize n) (mem : List α) (p : Int)
    (idx : List Int) (ix : Nat → Int) (hix : ∀ i, i < n → idx[i]? = some (ix i))
    (mask : List Bool) (hm : mask.length = n) (v : List α) (hv : v.length = n)
    (hr : ∃ i, i < n ∧ mask[i]? = some true ∧ ¬ (0 ≤ p + ix i ∧ p + ix i < mem.length)) :
    executeGather s mem p idx mask v = none := by
  obtain ⟨i, hi, hb, hr⟩ := hr
  by_cases hs : s = .setIndexZero
  · subst hs
    have := gatherFull_none mem p (List.zipWith (fun (j : Int) b => if b then j else 0) idx mask) v i
      (ix i) (by omega) (by rw [zeroed_lane (hix i hi) hb]; rfl) hr
    simp only [executeGather, this]; rfl
  · rw [executeGather_loop s hs, hv]
    rcases loop_strategy s hs n hn (gatherAct mem p idx) (gatherFull mem p idx) mask hm with
      ⟨hall, e⟩ | ⟨L, hL, e⟩
    · rw [e]; exact gatherFull_none mem p idx v i (ix i) (by omega) (hix i hi) hr
    · rw [e]; exact gather_runLanes_none mem p idx L v i (ix i) ((hL i).mpr hb) (hix i hi) hr

/-- The zeroed-index strategy reads `mem[0]` as soon as one lane is inactive. -/
theorem C28_zeroed_reads_first (n : Nat) (mem : List α) (p : Int)
    (idx : List Int) (ix : Nat → Int) (hix : ∀ i, i < n → idx[i]? = some (ix i))
    (mask : List Bool) (hm : mask.length = n) (v : List α) (hv : v.length = n)
    (hf : ∃ i : Nat, mask[i]? = some false) (hp : ¬ (0 ≤ p ∧ p < mem.length)) :
    executeGather .setIndexZero mem p idx mask v = none := by
  obtain ⟨i, hf⟩ := hf
  have hi : i < n := by have := (List.getElem?_eq_some_iff.mp hf).1; omega
  have := gatherFull_none mem p (List.zipWith (fun (j : Int) b => if b then j else 0) idx mask) v i
    0 (by omega) (by rw [zeroed_lane (hix i hi) hf]; rfl) (by simpa using hp)
  simp only [executeGather, this]; rfl

/-- All strategies give the same vector. -/
theorem C28_strategies_agree (s s' : Strategy) (n : Nat) (hn : NativeSize n) (mem : List α) (p : Int)
    (idx : List Int) (hix : n ≤ idx.length)
    (mask : List Bool) (hm : mask.length = n) (v : List α) (hv : v.length = n)
    (hp : 0 ≤ p ∧ p < mem.length) :
    executeGather s mem p idx mask v = executeGather s' mem p idx mask v := by
  have hix' : ∀ i, i < n → idx[i]? = some (idx[i]?.getD 0) := fun i hi => by
    rw [List.getElem?_eq_getElem (by omega)]; rfl
  by_cases hr : ∀ i, i < n → mask[i]? = some true →
      0 ≤ p + idx[i]?.getD 0 ∧ p + idx[i]?.getD 0 < mem.length
  · obtain ⟨a, ea, la, ha⟩ := C28_gather s n hn mem p idx _ hix' mask hm v hv hr (fun _ _ => hp)
    obtain ⟨b, eb, lb, hb⟩ := C28_gather s' n hn mem p idx _ hix' mask hm v hv hr (fun _ _ => hp)
    rw [ea, eb]
    congr 1
    apply List.ext_getElem?
    intro i
    by_cases hi : i < n
    · rcases lane_bool hm hi with h | h
      · rw [(ha i hi).1 h, (hb i hi).1 h]
      · rw [(ha i hi).2 h, (hb i hi).2 h]
    · rw [List.getElem?_eq_none (by omega), List.getElem?_eq_none (by omega)]
  · have : ∃ i, i < n ∧ mask[i]? = some true ∧
        ¬ (0 ≤ p + idx[i]?.getD 0 ∧ p + idx[i]?.getD 0 < mem.length) := by
      apply Classical.byContradiction
      intro hn
      apply hr
      intro i hi hb
      apply Classical.byContradiction
      intro h
      exact hn ⟨i, hi, hb, h⟩
    rw [C28_gather_reads s n hn mem p idx _ hix' mask hm v hv this,
      C28_gather_reads s' n hn mem p idx _ hix' mask hm v hv this]

/-- Four lanes, lane 2 inactive with an index far outside of the memory. -/
example (s : Strategy) : ∃ v', executeGather s [10, 11, 12, 13, 14] 0 [3, 0, 1000, 4]
    [true, true, false, true] [1, 2, 3, 4] = some v' ∧ v' = [13, 10, 3, 14] := by
  obtain ⟨v', e, l, h⟩ := C28_gather s 4 (Or.inr (Or.inl rfl)) [10, 11, 12, 13, 14] 0 [3, 0, 1000, 4]
    (fun i => [3, 0, 1000, 4][i]?.getD 0) (by decide) [true, true, false, true] rfl [1, 2, 3, 4] rfl
    (by decide) (fun _ _ => by decide)
  refine ⟨v', e, ?_⟩
  match v', l with
  | [a, b, c, d], _ =>
    have h0 := (h 0 (by decide)).1 rfl
    have h1 := (h 1 (by decide)).1 rfl
    have h2 := (h 2 (by decide)).2 rfl
    have h3 := (h 3 (by decide)).1 rfl
    simp [entry] at h0 h1 h2 h3
    simp [h0, h1, h2, h3]

/-! ## C29 -/

/-- Strategies other than the zeroed-index one, distinct indexes: exactly the active lanes are
stored. -/
theorem C29_scatter_partial (s : Strategy) (hs : s ≠ .setIndexZero) (n : Nat) (hn : NativeSize n)
    (mem : List α) (p : Int) (idx : List Int) (ix : Nat → Int)
    (hix : ∀ i, i < n → idx[i]? = some (ix i)) (mask : List Bool) (hm : mask.length = n)
    (v : List α) (hv : v.length = n) (val : Nat → α) (hval : ∀ i, i < n → v[i]? = some (val i))
    (hr : ∀ i, i < n → mask[i]? = some true → 0 ≤ p + ix i ∧ p + ix i < mem.length)
    (hd : ∀ i j, i < n → j < n → mask[i]? = some true → mask[j]? = some true → ix i = ix j → i = j) :
    ∃ mem', executeScatter s v p idx mask mem = some mem' ∧ mem'.length = mem.length ∧
      (∀ i, i < n → mask[i]? = some true → entry mem' (p + ix i) = some (val i)) ∧
      (∀ a, (∀ i, i < n → mask[i]? = some true → p + ix i ≠ a) → entry mem' a = entry mem a) := by
  rw [executeScatter_loop s hs, hv]
  have fin : ∀ L, (∀ i, i ∈ L ↔ i < n ∧ mask[i]? = some true) →
      ∃ mem', runLanes (scatterAct v p idx) L mem = some mem' ∧ mem'.length = mem.length ∧
      (∀ i, i < n → mask[i]? = some true → entry mem' (p + ix i) = some (val i)) ∧
      (∀ a, (∀ i, i < n → mask[i]? = some true → p + ix i ≠ a) → entry mem' a = entry mem a) := by
    intro L hL
    obtain ⟨mem', e, sp⟩ := scatter_runLanes v p idx ix val L mem (fun i hi =>
      have := (hL i).mp hi
      ⟨hval i this.1, hix i this.1, hr i this.1 this.2⟩)
    have := sp.distinct n (fun i => mask[i]? = some true) hL
      (fun i j hi hj ai aj h => hd i j hi hj ai aj (by omega))
    refine ⟨mem', e, this.length, fun i hi ha => this.last i hi ha fun j hij hj aj h => ?_, this.other⟩
    have := hd j i hj hi aj ha (by omega)
    omega
  rcases loop_strategy s hs n hn (scatterAct v p idx) (scatterFull v p idx) mask hm with
    ⟨hall, e⟩ | ⟨L, hL, e⟩
  · rw [e, scatterFull_eq]
    refine fin _ fun i => ?_
    rw [List.mem_range, hv]
    exact ⟨fun h => ⟨h, hall i h⟩, fun h => h.1⟩
  · rw [e]
    refine fin L fun i => ?_
    rw [hL]
    exact ⟨fun h => ⟨by have := (List.getElem?_eq_some_iff.mp h).1; omega, h⟩, fun h => h.2⟩

/-- Every strategy but the zeroed-index one writes to the addresses of all active lanes. -/
theorem C29_scatter_writes (s : Strategy) (hs : s ≠ .setIndexZero) (n : Nat) (hn : NativeSize n)
    (mem : List α) (p : Int) (idx : List Int) (ix : Nat → Int)
    (hix : ∀ i, i < n → idx[i]? = some (ix i)) (mask : List Bool) (hm : mask.length = n)
    (v : List α) (hv : v.length = n)
    (hr : ∃ i, i < n ∧ mask[i]? = some true ∧ ¬ (0 ≤ p + ix i ∧ p + ix i < mem.length)) :
    executeScatter s v p idx mask mem = none := by
  obtain ⟨i, hi, hb, hr⟩ := hr
  rw [executeScatter_loop s hs, hv]
  rcases loop_strategy s hs n hn (scatterAct v p idx) (scatterFull v p idx) mask hm with
    ⟨hall, e⟩ | ⟨L, hL, e⟩
  · rw [e, scatterFull_eq]
    exact scatter_runLanes_none v p idx _ mem i (ix i) (by simpa [hv] using hi) (hix i hi) hr
  · rw [e]; exact scatter_runLanes_none v p idx L mem i (ix i) ((hL i).mpr hb) (hix i hi) hr

/-- The zeroed-index strategy never changes the memory. -/
theorem C29_zeroed_violated (v : List α) (p : Int) (idx : List Int) (mask : List Bool)
    (mem mem' : List α) (h : executeScatter .setIndexZero v p idx mask mem = some mem') :
    mem' = mem := by
  simp only [executeScatter, Option.bind_eq_bind] at h
  cases e : gatherFull mem p (List.zipWith (fun (j : Int) b => if b then j else 0) idx mask) v with
  | none => rw [e] at h; cases h
  | some t => rw [e] at h; cases h; rfl

/-- In particular the claim fails for it: lane 0 is active and not stored. -/
theorem C29_zeroed_witness_violated :
    executeScatter .setIndexZero [7, 8] 0 [0, 1] [true, false] [1, 2] = some [1, 2] := by decide

/-- Four lanes, lanes 0, 1, 3 active. -/
example (s : Strategy) (hs : s ≠ .setIndexZero) :
    ∃ mem', executeScatter s [1, 2, 3, 4] 0 [3, 0, 1000, 4] [true, true, false, true]
      [10, 11, 12, 13, 14] = some mem' ∧ mem'.length = 5 ∧ entry mem' 3 = some 1 ∧
      entry mem' 1 = some 11 := by
  obtain ⟨mem', e, l, h1, h2⟩ := C29_scatter_partial s hs 4 (Or.inr (Or.inl rfl))
    [10, 11, 12, 13, 14] 0 [3, 0, 1000, 4]
    (fun i => [3, 0, 1000, 4][i]?.getD 0) (by decide) [true, true, false, true] rfl [1, 2, 3, 4] rfl
    (fun i => [1, 2, 3, 4][i]?.getD 0) (by decide) (by decide)
    (fun i j hi hj => (by decide : ∀ i, i < 4 → ∀ j, j < 4 →
      [true, true, false, true][i]? = some true → [true, true, false, true][j]? = some true →
      ([3, 0, 1000, 4] : List Int)[i]?.getD 0 = [3, 0, 1000, 4][j]?.getD 0 → i = j) i hi j hj)
  exact ⟨mem', e, l, h1 0 (by decide) rfl, h2 1 (by decide)⟩

/-! ## C30 -/

/-- The simple loop (the strategy used unless a macro selects another one) stores in lane order:
for equal indexes the highest active lane wins. -/
theorem C30_simpleLoop_partial (n : Nat)
    (mem : List α) (p : Int) (idx : List Int) (ix : Nat → Int)
    (hix : ∀ i, i < n → idx[i]? = some (ix i)) (mask : List Bool) (hm : mask.length = n)
    (v : List α) (val : Nat → α) (hval : ∀ i, i < n → v[i]? = some (val i))
    (hr : ∀ i, i < n → mask[i]? = some true → 0 ≤ p + ix i ∧ p + ix i < mem.length) :
    ∃ mem', executeScatter .simpleLoop v p idx mask mem = some mem' ∧
      IsStoredInOrder n (fun i => mask[i]? = some true) (fun i => p + ix i) val mem mem' := by
  have hL : ∀ i, i ∈ activeLanes mask ↔ i < n ∧ mask[i]? = some true := fun i => by
    rw [mem_activeLanes]
    exact ⟨fun h => ⟨by have := (List.getElem?_eq_some_iff.mp h).1; omega, h⟩, fun h => h.2⟩
  obtain ⟨mem', e, sp⟩ := scatter_runLanes v p idx ix val (activeLanes mask) mem (fun i hi =>
    have := (hL i).mp hi
    ⟨hval i this.1, hix i this.1, hr i this.1 this.2⟩)
  exact ⟨mem', by simp only [executeScatter]; rw [simpleLoop_eq]; exact e,
    sp.inOrder n _ hL (activeLanes_sorted mask)⟩

/-- So does the unmasked scatter. -/
theorem C30_unmasked (n : Nat)
    (mem : List α) (p : Int) (idx : List Int) (ix : Nat → Int)
    (hix : ∀ i, i < n → idx[i]? = some (ix i)) (v : List α) (hv : v.length = n) (val : Nat → α)
    (hval : ∀ i, i < n → v[i]? = some (val i))
    (hr : ∀ i, i < n → 0 ≤ p + ix i ∧ p + ix i < mem.length) :
    ∃ mem', scatterFull v p idx mem = some mem' ∧
      IsStoredInOrder n (fun _ => True) (fun i => p + ix i) val mem mem' := by
  obtain ⟨mem', e, sp⟩ := scatter_runLanes v p idx ix val (List.range n) mem (fun i hi => by
    have hi : i < n := by simpa using hi
    exact ⟨hval i hi, hix i hi, hr i hi⟩)
  refine ⟨mem', by rw [scatterFull_eq, hv]; exact e, sp.inOrder n _ (by simp) List.pairwise_lt_range⟩

/-- The loop with the lowest set bit stores in lane order too. -/
theorem C30_lowest_bit_loop (n : Nat) (hn : NativeSize n)
    (mem : List α) (p : Int) (idx : List Int) (ix : Nat → Int)
    (hix : ∀ i, i < n → idx[i]? = some (ix i)) (mask : List Bool) (hm : mask.length = n)
    (v : List α) (val : Nat → α) (hval : ∀ i, i < n → v[i]? = some (val i))
    (hr : ∀ i, i < n → mask[i]? = some true → 0 ≤ p + ix i ∧ p + ix i < mem.length) :
    ∃ mem', executeScatter .bitScanLoop' v p idx mask mem = some mem' ∧
      IsStoredInOrder n (fun i => mask[i]? = some true) (fun i => p + ix i) val mem mem' := by
  have h32 : mask.length ≤ 32 := by rcases hn with rfl | rfl | rfl | rfl <;> omega
  have h32' : (natToInt mask).toNat < 2 ^ 32 := (natToInt mask).isLt
  have hL : ∀ i, i ∈ setBits 32 (natToInt mask).toNat ↔ i < n ∧ mask[i]? = some true := fun i => by
    rw [mem_setBits h32', natToInt_testBit mask h32]
    exact ⟨fun h => ⟨by have := (List.getElem?_eq_some_iff.mp h).1; omega, h⟩, fun h => h.2⟩
  have hc : (setBits 32 (natToInt mask).toNat).length ≤ 64 := by
    rw [setBits_length]; have := countBits_le 32 (natToInt mask).toNat; omega
  obtain ⟨mem', e, sp⟩ := scatter_runLanes v p idx ix val (setBits 32 (natToInt mask).toNat) mem
    (fun i hi =>
      have := (hL i).mp hi
      ⟨hval i this.1, hix i this.1, hr i this.1 this.2⟩)
  exact ⟨mem', by simp only [executeScatter]; rw [bitScanLoop'_spec _ 32 64 _ h32' hc]; exact e,
    sp.inOrder n _ hL (List.Pairwise.filter _ List.pairwise_lt_range)⟩

/-- Any strategy but the zeroed-index one: the entry gets the value of one of the active lanes that
address it. -/
theorem C30_some_lane_partial (s : Strategy) (hs : s ≠ .setIndexZero) (n : Nat) (hn : NativeSize n)
    (mem : List α) (p : Int) (idx : List Int) (ix : Nat → Int)
    (hix : ∀ i, i < n → idx[i]? = some (ix i)) (mask : List Bool) (hm : mask.length = n)
    (v : List α) (hv : v.length = n) (val : Nat → α) (hval : ∀ i, i < n → v[i]? = some (val i))
    (hr : ∀ i, i < n → mask[i]? = some true → 0 ≤ p + ix i ∧ p + ix i < mem.length) :
    ∃ mem', executeScatter s v p idx mask mem = some mem' ∧ mem'.length = mem.length ∧
      (∀ i, i < n → mask[i]? = some true →
        ∃ j, j < n ∧ mask[j]? = some true ∧ ix j = ix i ∧ entry mem' (p + ix i) = some (val j)) ∧
      (∀ a, (∀ i, i < n → mask[i]? = some true → p + ix i ≠ a) → entry mem' a = entry mem a) := by
  rw [executeScatter_loop s hs, hv]
  have fin : ∀ L, (∀ i, i ∈ L ↔ i < n ∧ mask[i]? = some true) →
      ∃ mem', runLanes (scatterAct v p idx) L mem = some mem' ∧ mem'.length = mem.length ∧
      (∀ i, i < n → mask[i]? = some true →
        ∃ j, j < n ∧ mask[j]? = some true ∧ ix j = ix i ∧ entry mem' (p + ix i) = some (val j)) ∧
      (∀ a, (∀ i, i < n → mask[i]? = some true → p + ix i ≠ a) → entry mem' a = entry mem a) := by
    intro L hL
    obtain ⟨mem', e, sp⟩ := scatter_runLanes v p idx ix val L mem (fun i hi =>
      have := (hL i).mp hi
      ⟨hval i this.1, hix i this.1, hr i this.1 this.2⟩)
    refine ⟨mem', e, sp.length, fun i hi ha => ?_, fun a ha =>
      sp.other a fun i hi => ha i ((hL i).mp hi).1 ((hL i).mp hi).2⟩
    obtain ⟨j, hj, h1, h2⟩ := sp.some_lane i ((hL i).mpr ⟨hi, ha⟩)
    exact ⟨j, ((hL j).mp hj).1, ((hL j).mp hj).2, by have : p + ix j = p + ix i := h1; omega, h2⟩
  rcases loop_strategy s hs n hn (scatterAct v p idx) (scatterFull v p idx) mask hm with
    ⟨hall, e⟩ | ⟨L, hL, e⟩
  · rw [e, scatterFull_eq]
    refine fin _ fun i => ?_
    rw [List.mem_range, hv]
    exact ⟨fun h => ⟨h, hall i h⟩, fun h => h.1⟩
  · rw [e]
    refine fin L fun i => ?_
    rw [hL]
    exact ⟨fun h => ⟨by have := (List.getElem?_eq_some_iff.mp h).1; omega, h⟩, fun h => h.2⟩

theorem bsf_eq (x : Nat) : bsf x = if x = 0 then none else if x % 2 = 1 then some 0
    else (bsf (x / 2)).map (· + 1) := by
  conv => lhs; rw [bsf]
  rfl

theorem bsr_eq (x : Nat) : bsr x = if x = 0 then none else if x = 1 then some 0
    else (bsr (x / 2)).map (· + 1) := by
  conv => lhs; rw [bsr]
  rfl

theorem bitScanLoop_step {τ : Type} (act : Nat → τ → Option τ) (fuel bits i j : Nat)
    (hi : bsf bits = some i) (hj : bsr bits = some j) (t : τ) :
    bitScanLoop act (fuel + 1) bits t = (act i t).bind fun t => (act j t).bind
      (bitScanLoop act fuel (btr (btr bits i) j)) := by
  have : bits > 0 := by
    rcases Nat.eq_zero_or_pos bits with h | h
    · subst h; rw [bsf] at hi; simp at hi
    · exact h
  rw [bitScanLoop, if_pos this, hi, hj]
  rfl

/-- The bit-scan loop: lanes 0, 1, 2 active with the same index; lane 1 wins. -/
theorem C30_bitScanLoop_violated :
    executeScatter .bitScanLoop [1, 2, 3, 4] 0 [0, 0, 0, 0] [true, true, true, false] [9] =
      some [2] := by
  have e : (natToInt [true, true, true, false]).toNat = 7 := by decide
  simp only [executeScatter, e]
  rw [bitScanLoop_step _ 63 7 0 2 (by rw [bsf_eq]; rfl)
    (by rw [bsr_eq, bsr_eq (7 / 2), bsr_eq (7 / 2 / 2)]; rfl)]
  rw [show scatterAct [1, 2, 3, 4] 0 [0, 0, 0, 0] 0 [9] = some [1] from rfl, Option.bind_some,
    show scatterAct [1, 2, 3, 4] 0 [0, 0, 0, 0] 2 [1] = some [3] from rfl, Option.bind_some,
    show btr (btr 7 0) 2 = 2 by decide,
    bitScanLoop_step _ 62 2 1 1 (by rw [bsf_eq, bsf_eq (2 / 2)]; rfl)
      (by rw [bsr_eq, bsr_eq (2 / 2)]; rfl)]
  rfl

/-- The popcount switch: the same. -/
theorem C30_popcntSwitch_violated :
    executeScatter .popcntSwitch [1, 2, 3, 4] 0 [0, 0, 0, 0] [true, true, true, false] [9] =
      some [2] := by
  have e : (natToInt [true, true, true, false]).toNat = 7 := by decide
  simp only [executeScatter, e]
  rw [popcntSwitch, show popcntFor ([1, 2, 3, 4] : List Nat).length 7 = 3 by decide,
    if_neg (by decide), fallThrough, show bsf 7 = some 0 by rw [bsf_eq]; rfl, if_neg (by decide)]
  simp only [Option.bind_eq_bind, Option.bind_some]
  rw [show 7 ^^^ (0 ||| 2 ^ 0) = 6 by decide]
  simp only [fallThrough]
  rw [show bsr 6 = some 2 by rw [bsr_eq, bsr_eq (6 / 2), bsr_eq (6 / 2 / 2)]; rfl,
    show bsf 6 = some 1 by rw [bsf_eq, bsf_eq (6 / 2)]; rfl]
  rfl

/-- The simple loop in the same case. -/
example : ∃ mem', executeScatter .simpleLoop [1, 2, 3, 4] 0 [0, 0, 0, 0] [true, true, true, false]
    [9] = some mem' ∧ entry mem' 0 = some 3 := by
  obtain ⟨mem', e, h⟩ := C30_simpleLoop_partial 4 [9] 0 [0, 0, 0, 0] (fun _ => 0)
    (by decide) [true, true, true, false] rfl [1, 2, 3, 4] (fun i => [1, 2, 3, 4][i]?.getD 0)
    (by decide) (by decide)
  exact ⟨mem', e, h.last 2 (by decide) rfl (by
    intro j h1 h2
    match j, h1, h2 with
    | 3, _, _ => decide)⟩

end Vc.Prop
