import Verif.Model.GatherScatter
import Verif.Lemma.Bits
import Verif.Lemma.Gather
import Verif.Lemma.SimdMask

/-!
# Lemmas on the masked gather and scatter strategies

Every loop strategy performs its action for a list of lanes that contains exactly the active ones.
-/

namespace Vc.Lemma
open Vc.Model Vc.Spec

variable {τ α : Type}

/-- The actions of the lanes `L`, in this order. -/
def runLanes (act : Nat → τ → Option τ) : List Nat → τ → Option τ
  | [], t => some t
  | i :: L, t => (act i t).bind (runLanes act L)

/-- The active lanes, ascending. -/
def activeLanes (mask : List Bool) : List Nat :=
  (List.range mask.length).filter (fun i => mask[i]?.getD false)

theorem simpleLoop_go_eq (act : Nat → τ → Option τ) : ∀ (mask : List Bool) (s : Nat) (t : τ),
    simpleLoop.go act s mask t = runLanes act ((activeLanes mask).map (s + ·)) t
  | [], s, t => by simp [simpleLoop.go, activeLanes, runLanes]
  | b :: bs, s, t => by
    have hr : activeLanes (b :: bs) =
        (if b then [0] else []) ++ (activeLanes bs).map (· + 1) := by
      unfold activeLanes
      rw [List.length_cons, List.range_succ_eq_map, List.filter_cons, List.filter_map]
      cases b <;> simp [Function.comp_def]
    have hm : ((activeLanes bs).map (· + 1)).map (s + ·) = (activeLanes bs).map (s + 1 + ·) := by
      simp only [List.map_map]
      congr 1; funext i; simp; omega
    rw [hr, List.map_append, hm, simpleLoop.go]
    have ih : simpleLoop.go act (s + 1) bs = runLanes act ((activeLanes bs).map (s + 1 + ·)) := by
      funext t; exact simpleLoop_go_eq act bs (s + 1) t
    cases b
    · simp [ih]
    · simp [ih, runLanes]

theorem simpleLoop_eq (act : Nat → τ → Option τ) (mask : List Bool) (t : τ) :
    simpleLoop act mask t = runLanes act (activeLanes mask) t := by
  unfold simpleLoop
  split
  · rename_i h
    have : activeLanes mask = [] := by
      unfold activeLanes
      rw [List.filter_eq_nil_iff]
      intro i hi
      have hi : i < mask.length := by simpa using hi
      rw [List.getElem?_eq_getElem hi]
      have := List.all_eq_true.mp h _ (List.getElem_mem hi)
      simpa using this
    rw [this]; rfl
  · rw [simpleLoop_go_eq]
    congr 1
    conv => rhs; rw [← List.map_id (activeLanes mask)]
    congr 1; funext i; simp

theorem mem_activeLanes (mask : List Bool) (i : Nat) :
    i ∈ activeLanes mask ↔ mask[i]? = some true := by
  unfold activeLanes
  rw [List.mem_filter, List.mem_range]
  constructor
  · rintro ⟨h, e⟩
    rw [List.getElem?_eq_getElem h] at e ⊢
    simpa using e
  · intro h
    exact ⟨(List.getElem?_eq_some_iff.mp h).1, by rw [h]; rfl⟩

theorem activeLanes_sorted (mask : List Bool) : (activeLanes mask).Pairwise (· < ·) := by
  unfold activeLanes
  exact List.Pairwise.filter _ List.pairwise_lt_range

theorem lt_two_pow_of_high (x j : Nat) (h : ∀ i, j ≤ i → x.testBit i = false) : x < 2 ^ j := by
  exact Nat.lt_pow_two_of_testBit x h

theorem bitScanLoop_spec (act : Nat → τ → Option τ) : ∀ (fuel bits : Nat), bits < 2 ^ fuel →
    ∃ L, (∀ i, i ∈ L ↔ bits.testBit i = true) ∧
      ∀ t, bitScanLoop act fuel bits t = runLanes act L t
  | 0, bits, h => by
    have : bits = 0 := by simp at h; exact h
    subst this
    exact ⟨[], by simp, fun t => by simp [bitScanLoop, runLanes]⟩
  | fuel + 1, bits, h => by
    by_cases h0 : bits = 0
    · subst h0
      exact ⟨[], by simp, fun t => by simp [bitScanLoop, runLanes]⟩
    · obtain ⟨i, ei, hi, li⟩ := bsf_spec bits h0
      obtain ⟨j, ej, hj, lj⟩ := bsr_spec bits h0
      have hjf : j ≤ fuel := by
        have := Nat.ge_two_pow_of_testBit hj
        have := (Nat.pow_lt_pow_iff_right (by decide : 1 < 2)).mp (Nat.lt_of_le_of_lt this h)
        omega
      have hlt : btr (btr bits i) j < 2 ^ fuel := by
        refine Nat.lt_of_lt_of_le (lt_two_pow_of_high _ j ?_) (Nat.pow_le_pow_right (by decide) hjf)
        intro q hq
        rw [btr_testBit, btr_testBit]
        by_cases e : j = q
        · simp [e]
        · rw [lj q (by omega)]; simp
      obtain ⟨L, hL, eL⟩ := bitScanLoop_spec act fuel _ hlt
      refine ⟨i :: j :: L, fun q => ?_, fun t => ?_⟩
      · rw [List.mem_cons, List.mem_cons, hL, btr_testBit, btr_testBit]
        by_cases e1 : q = i
        · subst e1; simp [hi]
        · by_cases e2 : q = j
          · subst e2; simp [hj]
          · simp [e1, e2, Ne.symm e1, Ne.symm e2]
      · rw [bitScanLoop, if_pos (by omega), ei]
        simp only [ej, Option.bind_eq_bind, Option.bind_some, runLanes]
        congr 1; funext t; congr 1; funext t; exact eL t

theorem setBits_length (k x : Nat) : (setBits k x).length = countBits k x := by
  unfold setBits countBits
  rw [List.countP_eq_length_filter]

theorem mem_setBits {k x : Nat} (h : x < 2 ^ k) (i : Nat) : i ∈ setBits k x ↔ x.testBit i = true := by
  unfold setBits
  rw [List.mem_filter, List.mem_range]
  refine ⟨fun h => h.2, fun hi => ⟨?_, hi⟩⟩
  have := Nat.ge_two_pow_of_testBit hi
  exact (Nat.pow_lt_pow_iff_right (by decide : 1 < 2)).mp (Nat.lt_of_le_of_lt this h)

theorem testBit_lt {k x i : Nat} (h : x < 2 ^ k) (hi : x.testBit i = true) : i < k := by
  have := Nat.ge_two_pow_of_testBit hi
  exact (Nat.pow_lt_pow_iff_right (by decide : 1 < 2)).mp (Nat.lt_of_le_of_lt this h)

theorem setBits_zero (k : Nat) : setBits k 0 = [] := by simp [setBits]

theorem bitScanLoop'_spec (act : Nat → τ → Option τ) (k : Nat) : ∀ (fuel bits : Nat), bits < 2 ^ k →
    (setBits k bits).length ≤ fuel →
      ∀ t, bitScanLoop' act fuel bits t = runLanes act (setBits k bits) t
  | 0, bits, h, hf, t => by
    by_cases h0 : bits = 0
    · subst h0; simp [bitScanLoop', runLanes, setBits_zero]
    · exfalso
      obtain ⟨i, ei, hi, _⟩ := bsf_spec bits h0
      rw [setBits_cons k bits i ei (testBit_lt h hi)] at hf
      simp at hf
  | fuel + 1, bits, h, hf, t => by
    by_cases h0 : bits = 0
    · subst h0; simp [bitScanLoop', runLanes, setBits_zero]
    · obtain ⟨i, ei, hi, _⟩ := bsf_spec bits h0
      have hc := setBits_cons k bits i ei (testBit_lt h hi)
      have := and_pred_lt bits h0
      rw [hc] at hf ⊢
      rw [bitScanLoop', if_pos h0, ei]
      simp only [Option.bind_eq_bind, Option.bind_some, runLanes]
      congr 1; funext t
      exact bitScanLoop'_spec act k fuel _ (by omega) (by simpa using hf) t

/-- Resetting a set bit decreases the count by one. -/
theorem countBits_reset (k x y i : Nat) (hx : x.testBit i = true) (hi : i < k)
    (hy : ∀ j, y.testBit j = (x.testBit j && decide (i ≠ j))) :
    countBits k x = countBits k y + 1 := by
  unfold countBits
  have hsplit : List.range k = List.range i ++ i :: (List.range (k - i - 1)).map (i + 1 + ·) := by
    have := List.range_add (n := i) (m := k - i)
    rw [show i + (k - i) = k by omega] at this
    rw [this, show k - i = (k - i - 1) + 1 by omega, List.range_succ_eq_map]
    simp [Function.comp_def, Nat.add_assoc, Nat.add_comm 1]
  rw [hsplit, List.countP_append, List.countP_append, List.countP_cons, List.countP_cons, hx, hy i]
  have h1 : (List.range i).countP (fun j => y.testBit j) = (List.range i).countP (fun j => x.testBit j) := by
    apply List.countP_congr
    intro j hj
    have : j < i := by simpa using hj
    rw [hy j]; simp; omega
  have h2 : ((List.range (k - i - 1)).map (i + 1 + ·)).countP (fun j => y.testBit j) =
      ((List.range (k - i - 1)).map (i + 1 + ·)).countP (fun j => x.testBit j) := by
    apply List.countP_congr
    intro j hj
    simp only [List.mem_map] at hj
    obtain ⟨b, _, rfl⟩ := hj
    rw [hy]; simp; omega
  rw [h1, h2]
  simp
  omega

theorem countBits_zero (k : Nat) : countBits k 0 = 0 := by simp [countBits]

theorem xor_pow_testBit (x i j : Nat) (hx : x.testBit i = true) :
    (x ^^^ 2 ^ i).testBit j = (x.testBit j && decide (i ≠ j)) := by
  rw [Nat.testBit_xor, Nat.testBit_two_pow]
  by_cases e : i = j
  · subst e; simp [hx]
  · simp [e]

theorem two_pow_inj {a b : Nat} (h : 2 ^ a = 2 ^ b) : a = b :=
  (Nat.pow_right_inj (by decide : 1 < 2)).mp h

theorem zero_ne_two_pow (a : Nat) : 0 ≠ 2 ^ a := by
  have := Nat.two_pow_pos a; omega

theorem fallThrough_spec (act : Nat → τ → Option τ) (k : Nat) : ∀ (c bits high : Nat), bits < 2 ^ k →
    (c % 2 = 0 → countBits k bits = c) →
    (c % 2 = 1 → (high = 0 ∧ countBits k bits = c) ∨
      ∃ h, bsr bits = some h ∧ high = 2 ^ h ∧ countBits k bits = c + 1) →
    ∃ L, (∀ i, i ∈ L ↔ bits.testBit i = true ∧ (c % 2 = 1 → high ≠ 2 ^ i)) ∧
      ∀ t, fallThrough act c bits high t = runLanes act L t
  | 0, bits, high, hb, he, _ => by
    have : bits = 0 := by
      apply Classical.byContradiction
      intro h0
      obtain ⟨i, ei, hi, _⟩ := bsf_spec bits h0
      have := countBits_reset k bits _ i hi (testBit_lt hb hi) (and_pred_testBit bits i ei)
      have := he rfl
      omega
    subst this
    exact ⟨[], by simp, fun t => by simp [fallThrough, runLanes]⟩
  | c + 1, bits, high, hb, he, ho => by
    have h0 : bits ≠ 0 := by
      intro e; subst e
      rw [countBits_zero] at he ho
      rcases Nat.mod_two_eq_zero_or_one (c + 1) with h | h
      · have := he h; omega
      · rcases ho h with h | ⟨_, _, _, h⟩ <;> omega
    obtain ⟨i, ei, hi, li⟩ := bsf_spec bits h0
    obtain ⟨j, ej, hj, lj⟩ := bsr_spec bits h0
    have cnt : ∀ y q, bits.testBit q = true →
        (∀ j, y.testBit j = (bits.testBit j && decide (q ≠ j))) →
        countBits k bits = countBits k y + 1 :=
      fun y q hq hy => countBits_reset k bits y q hq (testBit_lt hb hq) hy
    rcases Nat.mod_two_eq_zero_or_one (c + 1) with hpar | hpar
    · -- even
      match c, he, ho, hpar with
      | c + 1, he, ho, hpar =>
        obtain ⟨L, hL, eL⟩ := fallThrough_spec act k (c + 1) bits (2 ^ j) hb
          (fun h => by omega) (fun _ => Or.inr ⟨j, ej, rfl, he hpar⟩)
        refine ⟨j :: L, fun q => ?_, fun t => ?_⟩
        · rw [List.mem_cons, hL]
          by_cases e : q = j
          · subst e; simp [hj, hpar]
          · have : (2 : Nat) ^ j ≠ 2 ^ q := fun h => e (two_pow_inj h).symm
            simp [e, this, hpar]
        · rw [fallThrough, if_pos (by omega), ej]
          simp only [Option.bind_eq_bind, Option.bind_some, runLanes]
          congr 1; funext t; exact eL t
    · match c, he, ho, hpar with
      | 0, he, ho, hpar =>
        refine ⟨[i], fun q => ?_, fun t => ?_⟩
        · have c1 := cnt _ i hi (and_pred_testBit bits i ei)
          rw [List.mem_singleton]
          rcases ho rfl with ⟨h, hc⟩ | ⟨h, eh, rfl, hc⟩
          · subst h
            have hz : ∀ q, (bits &&& (bits - 1)).testBit q = false := by
              intro q
              apply Classical.byContradiction
              intro hq
              have hq : (bits &&& (bits - 1)).testBit q = true := by simpa using hq
              have hlt := and_pred_lt bits h0
              have := countBits_reset k _ _ q hq (testBit_lt (by omega) hq) (btr_testBit _ q)
              omega
            constructor
            · rintro rfl; exact ⟨hi, fun _ => (zero_ne_two_pow q)⟩
            · rintro ⟨hq, _⟩
              have := hz q
              rw [and_pred_testBit bits i ei, hq] at this
              simp at this; exact this.symm
          · rw [ej] at eh; cases eh
            have hij : i ≠ j := by
              rintro rfl
              have : btr bits i = 0 := by
                apply Nat.eq_of_testBit_eq
                intro q
                rw [btr_testBit]
                by_cases e : i = q
                · simp [e]
                · rcases Nat.lt_or_gt_of_ne e with h | h
                  · simp [lj q h]
                  · simp [li q h]
              have h2 := cnt _ i hi (btr_testBit bits i)
              rw [this, countBits_zero] at h2
              omega
            have hz : ∀ q, (btr (btr bits i) j).testBit q = false := by
              intro q
              apply Classical.byContradiction
              intro hq
              have hq : (btr (btr bits i) j).testBit q = true := by simpa using hq
              have h1 := cnt _ i hi (btr_testBit bits i)
              have l1 := btr_le bits i
              have l2 := btr_le (btr bits i) j
              have hj' : (btr bits i).testBit j = true := by rw [btr_testBit, hj]; simp [hij]
              have h2 := countBits_reset k _ _ j hj' (testBit_lt (by omega) hj') (btr_testBit _ j)
              have h3 := countBits_reset k _ _ q hq (testBit_lt (by omega) hq) (btr_testBit _ q)
              omega
            constructor
            · rintro rfl
              exact ⟨hi, fun _ h => hij (two_pow_inj h).symm⟩
            · rintro ⟨hq, hne⟩
              have := hz q
              rw [btr_testBit, btr_testBit, hq] at this
              have hqj : j ≠ q := fun e => hne rfl (by rw [e])
              simp [hqj] at this
              exact this.symm
        · rw [fallThrough, ei]
          simp only [Option.bind_eq_bind, Option.bind_some, runLanes]
          cases act i t <;> rfl
      | c + 1, he, ho, hpar =>
        have key : ∀ y, (∀ q, y.testBit q = (bits.testBit q && decide (i ≠ q) && decide (high ≠ 2 ^ q))) →
            countBits k y = c + 1 → y = bits ^^^ (high ||| 2 ^ i) →
            ∃ L, (∀ q, q ∈ L ↔ bits.testBit q = true ∧ ((c + 1 + 1) % 2 = 1 → high ≠ 2 ^ q)) ∧
              (∀ t, fallThrough act (c + 1 + 1) bits high t = runLanes act L t) := by
          intro y hy hc hyy
          have hyl : y < 2 ^ k := by
            refine Nat.lt_of_le_of_lt (Nat.le_of_testBit fun q hq => ?_) hb
            rw [hy] at hq
            simp at hq; exact hq.1.1
          obtain ⟨L, hL, eL⟩ := fallThrough_spec act k (c + 1) y high hyl
            (fun _ => hc) (fun h => by omega)
          have hih : high ≠ 2 ^ i := by
            intro e
            have hyi : ∀ q, y.testBit q = (bits.testBit q && decide (i ≠ q)) := by
              intro q; rw [hy]
              by_cases eq : i = q
              · simp [eq]
              · have : (2 : Nat) ^ i ≠ 2 ^ q := fun h => eq (two_pow_inj h)
                simp [e, this]
            have := cnt y i hi hyi
            rcases ho hpar with ⟨h, _⟩ | ⟨h, _, h2, h3⟩
            · rw [h] at e; exact (zero_ne_two_pow i) e
            · omega
          refine ⟨i :: L, fun q => ?_, fun t => ?_⟩
          · rw [List.mem_cons, hL, hy]
            by_cases e : q = i
            · subst e; simp [hi, hih]
            · have : (c + 1) % 2 ≠ 1 := by omega
              simp [e, Ne.symm e, hpar, this]
          · rw [fallThrough, if_neg (by omega), ei]
            simp only [Option.bind_eq_bind, Option.bind_some, runLanes]
            rw [← hyy]
            congr 1; funext t; exact eL t
        rcases ho hpar with ⟨h, hc⟩ | ⟨h, eh, hh, hc⟩
        · subst h
          have hx : ∀ q, (bits ^^^ (0 ||| 2 ^ i)).testBit q = (bits.testBit q && decide (i ≠ q)) := by
            intro q; rw [Nat.zero_or]; exact xor_pow_testBit bits i q hi
          refine key _ (fun q => ?_) ?_ rfl
          · rw [hx]
            simp [(zero_ne_two_pow q)]
          · have := cnt _ i hi hx; omega
        · rw [ej] at eh; cases eh
          have hij : i ≠ j := by
            rintro rfl
            have : btr bits i = 0 := by
              apply Nat.eq_of_testBit_eq
              intro q
              rw [btr_testBit]
              by_cases e : i = q
              · simp [e]
              · rcases Nat.lt_or_gt_of_ne e with h | h
                · simp [lj q h]
                · simp [li q h]
            have h2 := cnt _ i hi (btr_testBit bits i)
            rw [this, countBits_zero] at h2
            omega
          have hx : ∀ q, (bits ^^^ (high ||| 2 ^ i)).testBit q =
              (bits.testBit q && decide (i ≠ q) && decide (high ≠ 2 ^ q)) := by
            intro q
            rw [hh, Nat.testBit_xor, Nat.testBit_or, Nat.testBit_two_pow, Nat.testBit_two_pow]
            by_cases e1 : i = q
            · subst e1; simp [hi]
            · by_cases e2 : j = q
              · subst e2; simp [hj]
              · have : (2 : Nat) ^ j ≠ 2 ^ q := fun h => e2 (two_pow_inj h)
                simp [e1, e2, this]
          refine key _ hx ?_ rfl
          have h1 := cnt _ i hi (btr_testBit bits i)
          have l1 := btr_le bits i
          have hj' : (btr bits i).testBit j = true := by rw [btr_testBit, hj]; simp [hij]
          have h2 := countBits_reset k _ (bits ^^^ (high ||| 2 ^ i)) j hj' (testBit_lt (by omega) hj') (fun q => by
            rw [hx, btr_testBit, hh]
            by_cases e2 : j = q
            · subst e2; simp
            · have : (2 : Nat) ^ j ≠ 2 ^ q := fun h => e2 (two_pow_inj h)
              simp [e2, this])
          omega

/-! ## Masks as integers -/

theorem natToInt_testBit (mask : List Bool) (h : mask.length ≤ 32) (i : Nat) :
    (natToInt mask).toNat.testBit i = true ↔ mask[i]? = some true := by
  rw [BitVec.testBit_toNat]
  by_cases hi : i < 32
  · rw [natToInt_getLsbD mask i hi]
    cases e : mask[i]? <;> simp
  · rw [BitVec.getLsbD_of_ge _ _ (by omega), List.getElem?_eq_none (by omega)]
    simp

theorem natToInt_lt (mask : List Bool) (h : mask.length ≤ 32) :
    (natToInt mask).toNat < 2 ^ mask.length := by
  refine lt_two_pow_of_high _ _ fun i hi => ?_
  apply Bool.eq_false_iff.mpr
  intro e
  rw [natToInt_testBit mask h, List.getElem?_eq_none hi] at e
  cases e

theorem countBits_mono {k m x : Nat} (hkm : k ≤ m) (hx : x < 2 ^ k) : countBits m x = countBits k x := by
  unfold countBits
  rw [show m = k + (m - k) by omega, List.range_add, List.countP_append]
  have : ((List.range (m - k)).map (k + ·)).countP (fun i => x.testBit i) = 0 := by
    rw [List.countP_eq_zero]
    intro i hi
    simp only [List.mem_map] at hi
    obtain ⟨j, _, rfl⟩ := hi
    rw [Nat.testBit_lt_two_pow (Nat.lt_of_lt_of_le hx (Nat.pow_le_pow_right (by decide) (by omega)))]
    simp
  omega

/-- The numbers of lanes of native vectors. -/
def NativeSize (n : Nat) : Prop := n = 2 ∨ n = 4 ∨ n = 8 ∨ n = 16

theorem popcntFor_eq {n : Nat} (hn : NativeSize n) (x : Nat) (hx : x < 2 ^ n) :
    popcntFor n x = countBits n x := by
  rcases hn with rfl | rfl | rfl | rfl
  · exact (popcnt4_eq x (by omega)).trans (countBits_mono (by decide) hx)
  · exact popcnt4_eq x (by omega)
  · exact popcnt8_eq x (by omega)
  · exact popcnt16_eq x (by omega)

theorem countBits_le (k x : Nat) : countBits k x ≤ k := by
  have := List.countP_le_length (p := fun i => x.testBit i) (l := List.range k)
  simpa [countBits] using this

theorem popcntSwitch_spec (act : Nat → τ → Option τ) (full : τ → Option τ) (n : Nat)
    (hn : NativeSize n) (mask : List Bool) (hm : mask.length = n) :
    ((∀ i, i < n → mask[i]? = some true) ∧
      ∀ t, popcntSwitch act full n (natToInt mask).toNat t = full t) ∨
    ∃ L, (∀ i, i ∈ L ↔ mask[i]? = some true) ∧
      ∀ t, popcntSwitch act full n (natToInt mask).toNat t = runLanes act L t := by
  have h32 : mask.length ≤ 32 := by rcases hn with rfl | rfl | rfl | rfl <;> omega
  have hlt := natToInt_lt mask h32
  rw [hm] at hlt
  have hp := popcntFor_eq hn _ hlt
  by_cases hf : popcntFor n (natToInt mask).toNat = n
  · left
    refine ⟨fun i hi => ?_, fun t => by rw [popcntSwitch, if_pos hf]⟩
    rw [← natToInt_testBit mask h32]
    rw [hp] at hf
    have : (List.range n).countP (fun i => (natToInt mask).toNat.testBit i) = (List.range n).length := by
      simpa [countBits] using hf
    exact List.countP_eq_length.mp this i (by simpa using hi)
  · right
    obtain ⟨L, hL, eL⟩ := fallThrough_spec act n (popcntFor n (natToInt mask).toNat)
      (natToInt mask).toNat 0 hlt (fun _ => hp.symm) (fun _ => Or.inl ⟨rfl, hp.symm⟩)
    refine ⟨L, fun i => ?_, fun t => by rw [popcntSwitch, if_neg hf, eL]⟩
    rw [hL, ← natToInt_testBit mask h32]
    simp [zero_ne_two_pow]

/-! ## Sequences of actions -/

theorem runLanes_none (act : Nat → τ → Option τ) (Inv : τ → Prop)
    (hstep : ∀ i t t', Inv t → act i t = some t' → Inv t') : ∀ (L : List Nat) (t : τ), Inv t →
    (∃ i, i ∈ L ∧ ∀ t, Inv t → act i t = none) → runLanes act L t = none
  | [], t, _, h => by obtain ⟨i, hi, _⟩ := h; cases hi
  | i :: L, t, hI, h => by
    rw [runLanes]
    cases e : act i t with
    | none => rfl
    | some t' =>
      obtain ⟨q, hq, hn⟩ := h
      rcases List.mem_cons.mp hq with rfl | hq
      · rw [hn t hI] at e; cases e
      · exact runLanes_none act Inv hstep L t' (hstep i t t' hI e) ⟨q, hq, hn⟩

theorem gather_runLanes (mem : List α) (p : Int) (idx : List Int) (ix : Nat → Int) :
    ∀ (L : List Nat) (v : List α),
    (∀ i, i ∈ L → i < v.length ∧ idx[i]? = some (ix i) ∧ 0 ≤ p + ix i ∧ p + ix i < mem.length) →
    ∃ v', runLanes (gatherAct mem p idx) L v = some v' ∧ v'.length = v.length ∧
      ∀ i : Nat, (i ∈ L → v'[i]? = entry mem (p + ix i)) ∧ (i ∉ L → v'[i]? = v[i]?)
  | [], v, _ => ⟨v, rfl, rfl, fun i => ⟨fun h => (List.not_mem_nil h).elim, fun _ => rfl⟩⟩
  | i :: L, v, h => by
    obtain ⟨h1, h2, h3, h4⟩ := h i (List.mem_cons_self ..)
    have he : entry mem (p + ix i) = some (mem[(p + ix i).toNat]'(by omega)) := by
      unfold entry; rw [if_pos h3, List.getElem?_eq_getElem]
    obtain ⟨v', e, hl, hv⟩ := gather_runLanes mem p idx ix L (v.set i (mem[(p + ix i).toNat]'(by omega)))
      (fun q hq => by rw [List.length_set]; exact h q (List.mem_cons_of_mem _ hq))
    refine ⟨v', ?_, by rw [hl, List.length_set], fun q => ?_⟩
    · rw [runLanes, gatherAct, h2]
      simp only [Option.bind_eq_bind, Option.bind_some, he, if_pos h1]
      exact e
    · by_cases hq : q ∈ L
      · exact ⟨fun _ => (hv q).1 hq, fun hn => absurd (List.mem_cons_of_mem _ hq) hn⟩
      · rw [(hv q).2 hq, List.getElem?_set]
        by_cases eq : i = q
        · subst eq
          refine ⟨fun _ => by rw [if_pos rfl, if_pos h1, he], fun hn => absurd (List.mem_cons_self ..) hn⟩
        · rw [if_neg eq]
          refine ⟨fun hm => ?_, fun _ => rfl⟩
          rcases List.mem_cons.mp hm with rfl | hm
          · exact absurd rfl eq
          · exact absurd hm hq

theorem gather_runLanes_none (mem : List α) (p : Int) (idx : List Int) (L : List Nat) (v : List α)
    (i : Nat) (j : Int) (hi : i ∈ L) (hj : idx[i]? = some j)
    (hr : ¬ (0 ≤ p + j ∧ p + j < mem.length)) : runLanes (gatherAct mem p idx) L v = none := by
  refine runLanes_none _ (fun _ => True) (fun _ _ _ _ _ => trivial) L v trivial ⟨i, hi, fun t _ => ?_⟩
  rw [gatherAct, hj]
  have : entry mem (p + j) = none := by
    unfold entry
    by_cases h0 : 0 ≤ p + j
    · rw [if_pos h0, List.getElem?_eq_none (by omega)]
    · rw [if_neg h0]
  simp [this]

theorem entry_isSome {mem : List α} {a : Int} :
    (∃ x, entry mem a = some x) ↔ 0 ≤ a ∧ a < mem.length := by
  unfold entry
  by_cases h0 : 0 ≤ a
  · rw [if_pos h0]
    by_cases h1 : a < mem.length
    · rw [List.getElem?_eq_getElem (by omega)]; simp [h0, h1]
    · rw [List.getElem?_eq_none (by omega)]; simp [h1]
  · rw [if_neg h0]; simp [h0]

theorem entry_eq_none {mem : List α} {a : Int} (h : ¬ (0 ≤ a ∧ a < mem.length)) :
    entry mem a = none := by
  cases e : entry mem a with
  | none => rfl
  | some x => exact absurd (entry_isSome.mp ⟨x, e⟩) h

theorem mapM_lanes {β γ : Type} (f : β → Option γ) : ∀ (l : List β),
    (∀ (i : Nat) (x : β), l[i]? = some x → ∃ y, f x = some y) →
    ∃ r, l.mapM f = some r ∧ r.length = l.length ∧
      ∀ (i : Nat) (x : β), l[i]? = some x → r[i]? = f x
  | [], _ => ⟨[], rfl, rfl, fun i x h => by simp at h⟩
  | a :: l, h => by
    obtain ⟨y, hy⟩ := h 0 a rfl
    obtain ⟨r, e, hl, hr⟩ := mapM_lanes f l (fun i x hx => h (i + 1) x (by simpa using hx))
    refine ⟨y :: r, by rw [List.mapM_cons, hy, e]; rfl, by simp [hl], fun i x hx => ?_⟩
    cases i with
    | zero => simp at hx; subst hx; simp [hy]
    | succ i => simpa using hr i x (by simpa using hx)

theorem gatherFull_some (mem : List α) (p : Int) (idx : List Int) (ix : Nat → Int) (v : List α)
    (h : ∀ i, i < v.length → idx[i]? = some (ix i) ∧ 0 ≤ p + ix i ∧ p + ix i < mem.length) :
    ∃ v', gatherFull mem p idx v = some v' ∧ v'.length = v.length ∧
      ∀ i : Nat, i < v.length → v'[i]? = entry mem (p + ix i) := by
  have hl : v.length ≤ idx.length := by
    by_cases h0 : v.length = 0
    · omega
    · have := (List.getElem?_eq_some_iff.mp (h (v.length - 1) (by omega)).1).1
      omega
  have ht : ∀ i, i < v.length → (idx.take v.length)[i]? = some (ix i) := fun i hi => by
    rw [List.getElem?_take_of_lt hi]; exact (h i hi).1
  obtain ⟨r, e, rl, hr⟩ := mapM_lanes (fun j => entry mem (p + j)) (idx.take v.length)
    (fun i x hx => by
      have hi : i < v.length := by
        have := (List.getElem?_eq_some_iff.mp hx).1
        rw [List.length_take] at this; omega
      rw [ht i hi] at hx; cases hx
      exact entry_isSome.mpr (h i hi).2)
  refine ⟨r, by rw [gatherFull, if_pos hl]; exact e, by rw [rl, List.length_take]; omega,
    fun i hi => hr i _ (ht i hi)⟩

theorem gatherFull_none (mem : List α) (p : Int) (idx : List Int) (v : List α) (i : Nat) (j : Int)
    (hi : i < v.length) (hj : idx[i]? = some j) (hr : ¬ (0 ≤ p + j ∧ p + j < mem.length)) :
    gatherFull mem p idx v = none := by
  unfold gatherFull
  split
  · refine mapM_none j ?_ (entry_eq_none hr)
    refine List.mem_of_getElem? (i := i) ?_
    rw [List.getElem?_take_of_lt hi]; exact hj
  · rfl

/-! ### Scatter -/

/-- What is known of the memory after storing the lanes of `L` in this order. -/
structure StoredList (L : List Nat) (addr : Nat → Int) (val : Nat → α) (mem mem' : List α) : Prop where
  length : mem'.length = mem.length
  /-- an addressed entry has the value of the last lane of `L` with this address -/
  last : ∀ L0 i L1, L = L0 ++ i :: L1 → (∀ j, j ∈ L1 → addr j ≠ addr i) →
    entry mem' (addr i) = some (val i)
  other : ∀ a, (∀ i, i ∈ L → addr i ≠ a) → entry mem' a = entry mem a

theorem scatter_runLanes (v : List α) (p : Int) (idx : List Int) (ix : Nat → Int) (val : Nat → α) :
    ∀ (L : List Nat) (mem : List α),
    (∀ i, i ∈ L → v[i]? = some (val i) ∧ idx[i]? = some (ix i) ∧ 0 ≤ p + ix i ∧
      p + ix i < mem.length) →
    ∃ mem', runLanes (scatterAct v p idx) L mem = some mem' ∧
      StoredList L (fun i => p + ix i) val mem mem'
  | [], mem, _ => ⟨mem, rfl, rfl, fun L0 i L1 h => by simp at h, fun _ _ => rfl⟩
  | i :: L, mem, h => by
    obtain ⟨h1, h2, h3, h4⟩ := h i (List.mem_cons_self ..)
    have hlt : (p + ix i).toNat < mem.length := by omega
    obtain ⟨mem', e, sp⟩ := scatter_runLanes v p idx ix val L (mem.set (p + ix i).toNat (val i))
      (fun q hq => by rw [List.length_set]; exact h q (List.mem_cons_of_mem _ hq))
    refine ⟨mem', ?_, by rw [sp.length, List.length_set], ?_, ?_⟩
    · rw [runLanes, scatterAct, h2, h1]
      simp only [Option.bind_eq_bind, Option.bind_some, SA.storeAt, if_pos (And.intro h3 hlt)]
      exact e
    · intro L0 q L1 hL hlast
      cases L0 with
      | nil =>
        simp only [List.nil_append, List.cons.injEq] at hL
        obtain ⟨rfl, rfl⟩ := hL
        rw [sp.other _ hlast, entry_set mem _ _ h3 hlt, if_pos rfl]
      | cons b L0 =>
        simp only [List.cons_append, List.cons.injEq] at hL
        exact sp.last L0 q L1 hL.2 hlast
    · intro a ha
      rw [sp.other a (fun q hq => ha q (List.mem_cons_of_mem _ hq)), entry_set mem _ _ h3 hlt,
        if_neg (fun e => ha i (List.mem_cons_self ..) e.symm)]

theorem scatter_runLanes_none (v : List α) (p : Int) (idx : List Int) (L : List Nat) (mem : List α)
    (i : Nat) (j : Int) (hi : i ∈ L) (hj : idx[i]? = some j)
    (hr : ¬ (0 ≤ p + j ∧ p + j < mem.length)) : runLanes (scatterAct v p idx) L mem = none := by
  refine runLanes_none _ (fun t => t.length = mem.length) (fun i t t' hI e => ?_) L mem rfl
    ⟨i, hi, fun t ht => ?_⟩
  · rw [scatterAct] at e
    cases h1 : idx[i]? with
    | none => rw [h1] at e; cases e
    | some j =>
      cases h2 : v[i]? with
      | none => rw [h1, h2] at e; cases e
      | some x =>
        rw [h1, h2] at e
        simp only [Option.bind_eq_bind, Option.bind_some, SA.storeAt] at e
        split at e
        · cases e; rw [List.length_set]; exact hI
        · cases e
  · rw [scatterAct, hj]
    cases v[i]? with
    | none => rfl
    | some x =>
      simp only [Option.bind_eq_bind, Option.bind_some, SA.storeAt]
      rw [if_neg (by rw [ht]; omega)]

theorem scatterFull_eq (v : List α) (p : Int) (idx : List Int) (mem : List α) :
    scatterFull v p idx mem = runLanes (scatterAct v p idx) (List.range v.length) mem := by
  unfold scatterFull
  generalize List.range v.length = L
  induction L generalizing mem with
  | nil => rfl
  | cons i L ih =>
    rw [List.foldlM_cons, runLanes]
    cases scatterAct v p idx i mem with
    | none => rfl
    | some m => exact ih m

/-- The last element of a list satisfying a predicate. -/
theorem exists_last {β : Type} (P : β → Prop) : ∀ (L : List β) (x : β), x ∈ L → P x →
    ∃ L0 y L1, L = L0 ++ y :: L1 ∧ P y ∧ ∀ z, z ∈ L1 → ¬ P z
  | a :: L, x, hx, hp => by
    by_cases h : ∃ z, z ∈ L ∧ P z
    · obtain ⟨z, hz, pz⟩ := h
      obtain ⟨L0, y, L1, e, py, hl⟩ := exists_last P L z hz pz
      exact ⟨a :: L0, y, L1, by rw [e]; rfl, py, hl⟩
    · rcases List.mem_cons.mp hx with rfl | hx
      · exact ⟨[], x, L, rfl, hp, fun z hz pz => h ⟨z, hz, pz⟩⟩
      · exact absurd ⟨x, hx, hp⟩ h

/-- In ascending order this is storing in lane order. -/
theorem StoredList.inOrder {L : List Nat} {addr : Nat → Int} {val : Nat → α} {mem mem' : List α}
    (h : StoredList L addr val mem mem') (n : Nat) (active : Nat → Prop)
    (hL : ∀ i, i ∈ L ↔ i < n ∧ active i) (hs : L.Pairwise (· < ·)) :
    IsStoredInOrder n active addr val mem mem' := by
  refine ⟨h.length, fun i hi ha hlast => ?_, fun a ha => ?_⟩
  · obtain ⟨L0, L1, e⟩ := List.append_of_mem ((hL i).mpr ⟨hi, ha⟩)
    refine h.last L0 i L1 e fun j hj => ?_
    have hjL : j ∈ L := by rw [e]; simp [hj]
    have : i < j := by
      rw [e, List.pairwise_append, List.pairwise_cons] at hs
      exact hs.2.1.1 j hj
    exact hlast j this ((hL j).mp hjL).1 ((hL j).mp hjL).2
  · exact h.other a fun i hi => ha i ((hL i).mp hi).1 ((hL i).mp hi).2

/-- With distinct addresses every order is as good as the lane order. -/
theorem StoredList.distinct {L : List Nat} {addr : Nat → Int} {val : Nat → α} {mem mem' : List α}
    (h : StoredList L addr val mem mem') (n : Nat) (active : Nat → Prop)
    (hL : ∀ i, i ∈ L ↔ i < n ∧ active i)
    (hd : ∀ i j, i < n → j < n → active i → active j → addr i = addr j → i = j) :
    IsStoredInOrder n active addr val mem mem' := by
  refine ⟨h.length, fun i hi ha _ => ?_, fun a ha => ?_⟩
  · obtain ⟨L0, y, L1, e, rfl, hl⟩ := exists_last (· = i) L i ((hL i).mpr ⟨hi, ha⟩) rfl
    refine h.last L0 y L1 e fun j hj ej => ?_
    have hjL : j ∈ L := by rw [e]; simp [hj]
    exact hl j hj (hd j y ((hL j).mp hjL).1 hi ((hL j).mp hjL).2 ha ej)
  · exact h.other a fun i hi => ha i ((hL i).mp hi).1 ((hL i).mp hi).2

/-- In any order an addressed entry ends up with the value of a lane that addresses it. -/
theorem StoredList.some_lane {L : List Nat} {addr : Nat → Int} {val : Nat → α} {mem mem' : List α}
    (h : StoredList L addr val mem mem') (i : Nat) (hi : i ∈ L) :
    ∃ j, j ∈ L ∧ addr j = addr i ∧ entry mem' (addr i) = some (val j) := by
  obtain ⟨L0, y, L1, e, hy, hl⟩ := exists_last (fun j => addr j = addr i) L i hi rfl
  refine ⟨y, by rw [e]; simp, hy, ?_⟩
  rw [← hy]
  exact h.last L0 y L1 e fun j hj ej => hl j hj (ej.trans hy)

end Vc.Lemma
