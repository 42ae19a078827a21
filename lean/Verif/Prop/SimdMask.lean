import Verif.Prop.ExCfg
import Verif.Lemma.SimdMask

/-!
# C27: SimdMaskArray

`m.maskGet n i` is `m[i]`. A value `none` is undefined behaviour.
-/

namespace Vc.Prop
open Vc.Model Vc.Spec Vc.Lemma

variable {C : Cfg}

/-- `m[i]` exists exactly for `i < n`. -/
theorem C27_index (hC : C.Valid) (n : Nat) (hn : 1 ≤ n) (m : SA Bool) (hm : SA.WF C n m) (i : Nat) :
    (m.maskGet n i).isSome = true ↔ i < n := by
  rw [maskGet_eq hC n hn m hm, Option.isSome_iff_ne_none, Ne, List.getElem?_eq_none_iff,
    WF.length hC hn hm]
  omega

example : ∃ m : SA Bool, SA.WF exCfg 7 m := exMask7.imp fun _ h => h.1

/-- `m[i] = v` changes lane `i` and nothing else. -/
theorem C27_set (hC : C.Valid) (n : Nat) (hn : 1 ≤ n) (m : SA Bool) (hm : SA.WF C n m) (i : Nat)
    (hi : i < n) (v : Bool) :
    ∃ r, m.maskSet n i v = some r ∧ SA.WF C n r ∧
      ∀ j, j < n → r.maskGet n j = if j = i then some v else m.maskGet n j := by
  obtain ⟨r, e, w, t⟩ := maskSet_eq hC v n hn m hm i hi
  refine ⟨r, e, w, fun j hj => ?_⟩
  rw [maskGet_eq hC n hn r w, maskGet_eq hC n hn m hm, t, List.getElem?_set]
  have := WF.length hC hn hm
  by_cases h : i = j
  · subst h; simp only [if_true]; rw [if_pos (by omega)]
  · rw [if_neg h, if_neg (fun e => h e.symm)]

example : ∃ m : SA Bool, SA.WF exCfg 7 m ∧ 6 < 7 := exMask7.imp fun _ h => ⟨h.1, by decide⟩

/-- Lanes by index. -/
theorem mem_iff_maskGet (hC : C.Valid) {n : Nat} (hn : 1 ≤ n) {m : SA Bool} (hm : SA.WF C n m)
    (b : Bool) : b ∈ m.toList ↔ ∃ i, i < n ∧ m.maskGet n i = some b := by
  rw [List.mem_iff_getElem?]
  constructor
  · rintro ⟨i, h⟩
    obtain ⟨hi, _⟩ := List.getElem?_eq_some_iff.mp h
    exact ⟨i, by rw [WF.length hC hn hm] at hi; exact hi, by rw [maskGet_eq hC n hn m hm, h]⟩
  · rintro ⟨i, _, h⟩
    exact ⟨i, by rw [← maskGet_eq hC n hn m hm]; exact h⟩

/-- `isFull()`, `isEmpty()`, `isNotEmpty()` and `isMix()`. -/
theorem C27_is (hC : C.Valid) (n : Nat) (hn : 1 ≤ n) (m : SA Bool) (hm : SA.WF C n m) :
    (m.isFull = true ↔ ∀ i, i < n → m.maskGet n i = some true) ∧
    (m.isEmpty = true ↔ ∀ i, i < n → m.maskGet n i = some false) ∧
    (m.isNotEmpty = true ↔ ∃ i, i < n ∧ m.maskGet n i = some true) ∧
    (m.isMix = true ↔ (∃ i, i < n ∧ m.maskGet n i = some true) ∧
      ∃ i, i < n ∧ m.maskGet n i = some false) := by
  have hall : ∀ b : Bool, (∀ c ∈ m.toList, c = b) ↔ ∀ i, i < n → m.maskGet n i = some b := by
    intro b
    constructor
    · intro h i hi
      rw [maskGet_eq hC n hn m hm, List.getElem?_eq_getElem (by rw [WF.length hC hn hm]; exact hi)]
      rw [h _ (List.getElem_mem _)]
    · intro h c hc
      obtain ⟨i, hi, e⟩ := (mem_iff_maskGet hC hn hm c).mp hc
      rw [h i hi] at e
      exact (Option.some.inj e).symm
  refine ⟨?_, ?_, ?_, ?_⟩
  · rw [isFull_iff, hall]
  · rw [isEmpty_iff, hall]
  · rw [isNotEmpty_iff, mem_iff_maskGet hC hn hm]
  · rw [isMix_iff, mem_iff_maskGet hC hn hm, mem_iff_maskGet hC hn hm]

example : ∃ m : SA Bool, SA.WF exCfg 7 m ∧ m.isMix = true := by
  obtain ⟨m, hm, tm⟩ := exMask7
  exact ⟨m, hm, by rw [isMix_iff, tm]; decide⟩

/-- `count()` is the number of set lanes. -/
theorem C27_count (hC : C.Valid) (n : Nat) (hn : 1 ≤ n) (m : SA Bool) (hm : SA.WF C n m) :
    m.maskCount = ((List.range n).filter fun i => m.maskGet n i = some true).length := by
  rw [maskCount_eq]
  have hl := WF.length hC hn hm
  have : m.toList = (List.range n).map fun i => m.toList[i]?.getD false := by
    apply List.ext_getElem
    · simp only [List.length_map, List.length_range, hl]
    · intro i h1 h2
      simp [List.getElem?_eq_getElem h1]
  rw [this, List.count_eq_countP, List.countP_map, List.countP_eq_length_filter]
  congr 1
  apply List.filter_congr
  intro i hi
  rw [maskGet_eq hC n hn m hm]
  have hi' : i < m.toList.length := by rw [hl]; simpa using hi
  rw [Function.comp_apply, List.getElem?_eq_getElem hi']
  cases m.toList[i] <;> rfl

example : ∃ m : SA Bool, SA.WF exCfg 7 m ∧ m.maskCount = 3 := by
  obtain ⟨m, hm, tm⟩ := exMask7
  exact ⟨m, hm, by rw [maskCount_eq, tm]; decide⟩

/-- `firstOne()` of a mask that is not empty is the least index of a set lane. -/
theorem C27_firstOne (hC : C.Valid) (n : Nat) (hn : 1 ≤ n) (m : SA Bool) (hm : SA.WF C n m)
    (h : m.isNotEmpty = true) :
    ∃ i, m.firstOne n = some i ∧ i < n ∧ m.maskGet n i = some true ∧
      ∀ j, j < i → m.maskGet n j = some false := by
  obtain ⟨i, e, h1, h2⟩ := natFirstOne_spec m.toList ((isNotEmpty_iff m).mp h)
  refine ⟨i, by rw [firstOne_wf hC n hn m hm, e], ?_, ?_, ?_⟩
  · obtain ⟨hi, _⟩ := List.getElem?_eq_some_iff.mp h1
    rw [WF.length hC hn hm] at hi
    exact hi
  · rw [maskGet_eq hC n hn m hm, h1]
  · intro j hj
    rw [maskGet_eq hC n hn m hm, h2 j hj]

example : ∃ m : SA Bool, SA.WF exCfg 7 m ∧ m.isNotEmpty = true := by
  obtain ⟨m, hm, tm⟩ := exMask7
  exact ⟨m, hm, by rw [isNotEmpty_iff, tm]; decide⟩

/-- `toInt()` of a mask with at most 32 lanes: bit `i` is lane `i`. -/
theorem C27_toInt (hC : C.Valid) (n : Nat) (hn : 1 ≤ n) (h32 : n ≤ 32) (m : SA Bool)
    (hm : SA.WF C n m) :
    ∃ r, m.toInt n = some r ∧ ∀ i, (r.getLsbD i = true ↔ m.maskGet n i = some true) := by
  have hl := WF.length hC hn hm
  refine ⟨_, toInt_wf hC n hn h32 m hm, fun i => ?_⟩
  rw [maskGet_eq hC n hn m hm]
  by_cases hi : i < 32
  · rw [natToInt_getLsbD _ _ hi]
    cases m.toList[i]? with
    | none => simp
    | some b => simp
  · rw [BitVec.getLsbD_of_ge _ _ (by omega), List.getElem?_eq_none (by omega)]
    simp

example : ∃ m : SA Bool, SA.WF exCfg 32 m ∧ 32 ≤ 32 := by
  obtain ⟨m, hm, _⟩ := exists_of_lanes exCfg_valid (List.replicate 32 true) (by decide)
  exact ⟨m, hm, by decide⟩

/-- `toInt()` of a mask with more than 32 lanes is undefined (shift of an `int` by at least 32);
native masks have at most 32 lanes. -/
theorem C27_toInt_wide (hC : C.Valid) (n : Nat) (hn : 32 < n) (hw : ∀ w ∈ C.ws, w ≤ 32)
    (m : SA Bool) (hm : SA.WF C n m) : m.toInt n = none :=
  toInt_none hC n hn hw m hm

example : ∀ w ∈ exCfg.ws, w ≤ 32 := by decide

/-- `==` holds exactly if all lanes agree, `!=` is its negation. -/
theorem C27_compare (hC : C.Valid) (n : Nat) (hn : 1 ≤ n) (x y : SA Bool) (hx : SA.WF C n x)
    (hy : SA.WF C n y) :
    ∃ e, x.maskEq y = some e ∧ x.maskNe y = some (!e) ∧
      (e = true ↔ ∀ i, i < n → x.maskGet n i = y.maskGet n i) := by
  obtain ⟨h1, h2⟩ := maskEq_wf hC n hn x y hx hy
  refine ⟨_, h1, h2, ?_⟩
  have lx := WF.length hC hn hx
  have ly := WF.length hC hn hy
  rw [beq_iff_eq]
  constructor
  · intro h i _
    rw [maskGet_eq hC n hn x hx, maskGet_eq hC n hn y hy, h]
  · intro h
    apply List.ext_getElem (by omega)
    intro i h1 h2
    have := h i (by omega)
    rw [maskGet_eq hC n hn x hx, maskGet_eq hC n hn y hy, List.getElem?_eq_getElem h1,
      List.getElem?_eq_getElem h2] at this
    exact Option.some.inj this

/-- `shifted(k)` for every `int`: lane `i` is lane `i + k`, or false. -/
theorem C27_shifted (hC : C.Valid) (n : Nat) (hn : 1 ≤ n) (hN : n ≤ 2 ^ 31) (k : Int)
    (hk : -2 ^ 31 ≤ k ∧ k < 2 ^ 31) (m : SA Bool) (hm : SA.WF C n m) :
    ∃ r, m.maskShifted C n k = some r ∧ SA.WF C n r ∧ r.toList = Spec.shifted false k m.toList := by
  obtain ⟨r, e, w, t⟩ := maskShifted_wf hC n hn hN k hk m hm
  refine ⟨r, e, w, t.trans ?_⟩
  unfold Spec.shifted
  rw [WF.length hC hn hm]

example : ∃ m : SA Bool, SA.WF exCfg 7 m ∧ (7 : Nat) ≤ 2 ^ 31 ∧ -2 ^ 31 ≤ (-3 : Int) :=
  exMask7.imp fun _ h => ⟨h.1, by decide, by decide⟩

end Vc.Prop
