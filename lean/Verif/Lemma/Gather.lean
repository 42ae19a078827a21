import Verif.Model.Gather
import Verif.Lemma.Where

namespace Vc.Lemma
open Vc.Spec Vc.Model

variable {α : Type _} {C C' : Cfg}

/-- What `Split` needs to know about an index argument for `n` lanes. -/
def IdxValid (C' : Cfg) (n : Nat) : Idx → Prop
  | .tree x => SA.WF C' n x
  | .seg l p k => l.length = n * p ∧ IsPow2 n ∧ k < p
  | .ptr l o => o + n ≤ l.length

theorem isPow2_of_atomic (hC : C.Valid) {n : Nat} (h : C.atomic n = true) : IsPow2 n := by
  unfold Cfg.atomic at h
  have hb : bestWidth n C.ws = n := by simpa using h
  rw [← hb]
  apply hC.widths
  apply bestWidth_mem
  intro e
  have := hC.last
  rw [e] at this
  cases this

theorem half_of_pow2 {n : Nat} (hn : 2 ≤ n) (h : IsPow2 n) :
    leftSize n = n / 2 ∧ rightSize n = n / 2 ∧ n = 2 * (n / 2) ∧ IsPow2 (n / 2) := by
  have h1 := (leftSize_eq_rightSize_iff hn).mpr h
  have h2 := leftSize_add_rightSize hn
  have h3 : leftSize n = n / 2 := by omega
  refine ⟨h3, by omega, by omega, ?_⟩
  rw [← h3]; exact isPow2_leftSize (by omega)

theorem seg_at {l : List Int} {n p k : Nat} (h : l.length = n * p) (hk : k < p) (i : Nat) :
    (Idx.seg l p k).at? C' i = l[i + k * n]? := by
  have hp : 0 < p := by omega
  have e : k * l.length / p = k * n := by
    rw [h, ← Nat.mul_assoc, Nat.mul_div_cancel _ hp]
  simp only [Idx.at?, e]

theorem idx_at_some (hC' : C'.Valid) {n : Nat} (hn : 1 ≤ n) {idx : Idx} (h : IdxValid C' n idx)
    {i : Nat} (hi : i < n) : ∃ j, idx.at? C' i = some j := by
  cases idx with
  | tree x =>
    have hl := WF.length hC' hn h
    exact ⟨_, get_lane hC' hn h (i := i) (by omega)⟩
  | seg l p k =>
    obtain ⟨hl, hp, hk⟩ := h
    rw [seg_at hl hk]
    have h1 : (k + 1) * n ≤ p * n := Nat.mul_le_mul_right n hk
    have h2 : (k + 1) * n = k * n + n := by rw [Nat.add_mul, Nat.one_mul]
    have h3 : n * p = p * n := Nat.mul_comm _ _
    exact ⟨_, List.getElem?_eq_getElem (by omega)⟩
  | ptr l o =>
    have h : o + n ≤ l.length := h
    exact ⟨_, List.getElem?_eq_getElem (by omega)⟩

theorem idx_split (hC' : C'.Valid) {n : Nat} (hn : 2 ≤ n) {idx : Idx} (h : IdxValid C' n idx) :
    IdxValid C' (leftSize n) idx.lo ∧ IdxValid C' (rightSize n) (idx.hi (leftSize n)) ∧
    (∀ i, i < leftSize n → idx.lo.at? C' i = idx.at? C' i) ∧
    (∀ i, i < rightSize n → (idx.hi (leftSize n)).at? C' i = idx.at? C' (leftSize n + i)) := by
  have hsum := leftSize_add_rightSize hn
  have h0 := one_le_leftSize (n := n) (by omega)
  have h1 := one_le_rightSize hn
  cases idx with
  | tree x =>
    have h : SA.WF C' n x := h
    cases x with
    | node a b =>
      have wa := h.2.1
      have wb := h.2.2
      have la := WF.length hC' h0 wa
      refine ⟨wa, wb, fun i hi => ?_, fun i hi => ?_⟩
      · simp only [Idx.lo, Idx.at?]
        rw [get_eq hC' h0 wa, get_eq hC' (by omega) h, SA.toList,
          List.getElem?_append_left (by omega)]
      · simp only [Idx.hi, Idx.at?]
        rw [get_eq hC' h1 wb, get_eq hC' (by omega) h, SA.toList,
          List.getElem?_append_right (by omega)]
        congr 1; omega
    | atom l =>
      obtain ⟨hl, ha⟩ := h
      have w : SA.WF C' n (.atom l) := ⟨hl, ha⟩
      have hp := isPow2_of_atomic hC' ha
      obtain ⟨e0, e1, e2, e3⟩ := half_of_pow2 hn hp
      have ee : l.length = n / 2 * 2 := by omega
      refine ⟨?_, ?_, fun i hi => ?_, fun i hi => ?_⟩
      · rw [e0]; exact ⟨ee, e3, by omega⟩
      · rw [e1]; exact ⟨ee, e3, by omega⟩
      · simp only [Idx.lo]
        rw [seg_at ee (by omega)]
        simp only [Idx.at?]
        rw [get_eq hC' (by omega) w]
        simp [SA.toList]
      · simp only [Idx.hi]
        rw [seg_at ee (by omega)]
        simp only [Idx.at?]
        rw [get_eq hC' (by omega) w, e0]
        simp only [SA.toList]
        congr 1; omega
  | seg l p k =>
    obtain ⟨hl, hp, hk⟩ := h
    obtain ⟨e0, e1, e2, e3⟩ := half_of_pow2 hn hp
    have ee : l.length = n / 2 * (2 * p) := by
      rw [hl, ← Nat.mul_assoc, Nat.mul_comm (n / 2) 2, ← e2]
    refine ⟨?_, ?_, fun i hi => ?_, fun i hi => ?_⟩
    · rw [e0]; exact ⟨ee, e3, by omega⟩
    · rw [e1]; exact ⟨ee, e3, by omega⟩
    · simp only [Idx.lo]
      rw [seg_at ee (by omega), seg_at hl hk]
      congr 2
      rw [Nat.mul_comm 2 k, Nat.mul_assoc, ← e2]
    · simp only [Idx.hi]
      rw [seg_at ee (by omega), seg_at hl hk, e0]
      congr 1
      have : (2 * k + 1) * (n / 2) = k * n + n / 2 := by
        rw [Nat.add_mul, Nat.one_mul, Nat.mul_comm 2 k, Nat.mul_assoc, ← e2]
      omega
  | ptr l o =>
    have h : o + n ≤ l.length := h
    refine ⟨show o + _ ≤ _ by omega, show o + leftSize n + _ ≤ _ by omega, fun _ _ => rfl,
      fun i _ => ?_⟩
    simp only [Idx.hi, Idx.at?]
    congr 1; omega

theorem mapM_congr' {γ δ : Type _} {f g : γ → Option δ} :
    ∀ {l : List γ}, (∀ a ∈ l, f a = g a) → l.mapM f = l.mapM g
  | [], _ => rfl
  | a :: l, h => by
    rw [List.mapM_cons, List.mapM_cons, h a (by simp),
      mapM_congr' (fun b hb => h b (List.mem_cons_of_mem _ hb))]

theorem gen_atomic {n : Nat} (ha : C.atomic n = true) (f : Nat → Option α) :
    SA.gen C n f = ((List.range n).mapM f).map .atom := by rw [SA.gen, if_pos ha]

theorem gen_node {n : Nat} (hn : 2 ≤ n) (ha : C.atomic n = false) (f : Nat → Option α) :
    SA.gen C n f = (do
      let a ← SA.gen C (leftSize n) f
      let b ← SA.gen C (rightSize n) (fun i => f (i + leftSize n))
      return .node a b) := by rw [SA.gen, if_neg (by simp [ha]), dif_pos hn]

theorem gen_congr (hC : C.Valid) (n : Nat) (hn : 1 ≤ n) :
    ∀ (f g : Nat → Option α), (∀ i, i < n → f i = g i) → SA.gen C n f = SA.gen C n g := by
  refine template_induction hC (P := fun n => ∀ (f g : Nat → Option α),
      (∀ i, i < n → f i = g i) → SA.gen C n f = SA.gen C n g) ?_ ?_ n hn
  · intro n hn ha f g h
    rw [gen_atomic ha, gen_atomic ha, mapM_congr' (fun i hi => h i (List.mem_range.mp hi))]
  · intro n hn ha ih0 ih1 f g h
    have hsum := leftSize_add_rightSize hn
    rw [gen_node hn ha, gen_node hn ha,
      ih0 f g (fun i hi => h i (by omega)), ih1 _ (fun i => g (i + leftSize n))
        (fun i hi => h _ (by omega))]

/-- A gather is the generator call that reads memory through the index. -/
theorem gather_eq_gen (hC : C.Valid) (hC' : C'.Valid) (mem : List α) (p : Int) (n : Nat)
    (hn : 1 ≤ n) : ∀ (idx : Idx), IdxValid C' n idx →
    SA.gather C C' mem p n idx = SA.gen C n (SA.gatherAt C' mem p idx) := by
  refine template_induction hC (P := fun n => ∀ (idx : Idx), IdxValid C' n idx →
    SA.gather C C' mem p n idx = SA.gen C n (SA.gatherAt C' mem p idx)) ?_ ?_ n hn
  · intro n hn ha idx h
    rw [SA.gather, gen_atomic ha, if_pos ha]
  · intro n hn ha ih0 ih1 idx h
    obtain ⟨v0, v1, a0, a1⟩ := idx_split hC' hn h
    rw [SA.gather, gen_node hn ha, if_neg (by simp [ha]), dif_pos hn,
      ih0 _ v0, ih1 _ v1]
    rw [gen_congr hC (leftSize n) (one_le_leftSize (by omega)) _ (SA.gatherAt C' mem p idx)
        (fun i hi => by simp only [SA.gatherAt, a0 i hi]),
      gen_congr hC (rightSize n) (one_le_rightSize hn) (SA.gatherAt C' mem p (idx.hi (leftSize n)))
        (fun i => SA.gatherAt C' mem p idx (i + leftSize n))
        (fun i hi => by simp only [SA.gatherAt, a1 i hi, Nat.add_comm i])]

/-- A generator that is undefined for one lane makes the construction undefined. -/
theorem gen_none (hC : C.Valid) (n : Nat) (hn : 1 ≤ n) :
    ∀ (f : Nat → Option α), (∃ i, i < n ∧ f i = none) → SA.gen C n f = none := by
  refine template_induction hC (P := fun n => ∀ (f : Nat → Option α),
      (∃ i, i < n ∧ f i = none) → SA.gen C n f = none) ?_ ?_ n hn
  · intro n hn ha f ⟨i, hi, h⟩
    rw [SA.gen, if_pos ha, mapM_none i (List.mem_range.mpr hi) h]; rfl
  · intro n hn ha ih0 ih1 f ⟨i, hi, h⟩
    have hsum := leftSize_add_rightSize hn
    rw [SA.gen, if_neg (by simp [ha]), dif_pos hn]
    by_cases hl : i < leftSize n
    · rw [ih0 f ⟨i, hl, h⟩]; rfl
    · rw [ih1 (fun i => f (i + leftSize n)) ⟨i - leftSize n, by omega, by
        show f (i - leftSize n + leftSize n) = none
        rw [Nat.sub_add_cancel (by omega)]; exact h⟩]
      cases SA.gen C (leftSize n) f <;> rfl

/-! ## Masked gather -/

theorem natGatherMasked_some (mem : List α) (p : Int) (idx : Idx) :
    ∀ (i : Nat) (x : List α) (m : List Bool), x.length = m.length →
    (∀ t, t < x.length → m[t]? = some true → (SA.gatherAt C' mem p idx (i + t)).isSome = true) →
    ∃ r, SA.natGatherMasked C' mem p idx i x m = some r ∧ r.length = x.length ∧
      ∀ t, t < x.length →
        (m[t]? = some true → r[t]? = SA.gatherAt C' mem p idx (i + t)) ∧
        (m[t]? ≠ some true → r[t]? = x[t]?)
  | i, [], [], _, _ => ⟨[], rfl, rfl, fun t ht => by simp at ht⟩
  | i, x :: xs, m :: ms, hl, h => by
    obtain ⟨r, e, el, ev⟩ := natGatherMasked_some mem p idx (i + 1) xs ms (by simpa using hl)
      (fun t ht hm => by
        have := h (t + 1) (by simpa using ht) (by simpa using hm)
        rwa [show i + 1 + t = i + (t + 1) by omega])
    have hv : ∃ v, (if m = true then SA.gatherAt C' mem p idx i else some x) = some v := by
      by_cases hm : m = true
      · rw [if_pos hm]
        exact Option.isSome_iff_exists.mp (h 0 (by simp) (by simp [hm]))
      · rw [if_neg hm]; exact ⟨x, rfl⟩
    obtain ⟨v, hv⟩ := hv
    refine ⟨v :: r, ?_, by simp [el], fun t ht => ?_⟩
    · simp only [SA.natGatherMasked, hv, e]; rfl
    · cases t with
      | zero =>
        simp only [List.getElem?_cons_zero, Nat.add_zero, Option.some.injEq, ne_eq]
        constructor <;> intro hm
        · rw [if_pos hm] at hv; exact hv.symm
        · rw [if_neg hm] at hv; exact (Option.some.inj hv).symm
      | succ t =>
        simp only [List.getElem?_cons_succ]
        have := ev t (by simpa using ht)
        rwa [show i + 1 + t = i + (t + 1) by omega] at this
  | i, [], _ :: _, hl, _ => by simp at hl
  | i, _ :: _, [], hl, _ => by simp at hl

theorem natGatherMasked_none (mem : List α) (p : Int) (idx : Idx) :
    ∀ (i : Nat) (x : List α) (m : List Bool), x.length = m.length →
    (∃ t, t < x.length ∧ m[t]? = some true ∧ SA.gatherAt C' mem p idx (i + t) = none) →
    SA.natGatherMasked C' mem p idx i x m = none
  | i, [], [], _, h => by simp at h
  | i, x :: xs, m :: ms, hl, ⟨t, ht, hm, hg⟩ => by
    cases t with
    | zero =>
      have hm : m = true := by simpa using hm
      simp only [SA.natGatherMasked, hm, if_true]
      rw [show SA.gatherAt C' mem p idx i = none from hg]; rfl
    | succ t =>
      have ih := natGatherMasked_none mem p idx (i + 1) xs ms (by simpa using hl)
        ⟨t, by simpa using ht, by simpa using hm, by
          rwa [show i + 1 + t = i + (t + 1) by omega]⟩
      simp only [SA.natGatherMasked, ih]
      cases (if m = true then SA.gatherAt C' mem p idx i else some x) <;> rfl
  | i, [], _ :: _, hl, _ => by simp at hl
  | i, _ :: _, [], hl, _ => by simp at hl

theorem gatherMasked_some (hC : C.Valid) (hC' : C'.Valid) (mem : List α) (p : Int) (n : Nat)
    (hn : 1 ≤ n) : ∀ (idx : Idx) (x : SA α) (m : SA Bool), IdxValid C' n idx → SA.WF C n x →
    SA.WF C n m →
    (∀ t, t < n → m.toList[t]? = some true → (SA.gatherAt C' mem p idx t).isSome = true) →
    ∃ r, SA.gatherMasked C' mem p n idx x m = some r ∧ SA.WF C n r ∧
      ∀ t, t < n →
        (m.toList[t]? = some true → r.toList[t]? = SA.gatherAt C' mem p idx t) ∧
        (m.toList[t]? ≠ some true → r.toList[t]? = x.toList[t]?) := by
  refine template_induction hC (P := fun n => ∀ (idx : Idx) (x : SA α) (m : SA Bool),
    IdxValid C' n idx → SA.WF C n x → SA.WF C n m →
    (∀ t, t < n → m.toList[t]? = some true → (SA.gatherAt C' mem p idx t).isSome = true) →
    ∃ r, SA.gatherMasked C' mem p n idx x m = some r ∧ SA.WF C n r ∧
      ∀ t, t < n →
        (m.toList[t]? = some true → r.toList[t]? = SA.gatherAt C' mem p idx t) ∧
        (m.toList[t]? ≠ some true → r.toList[t]? = x.toList[t]?)) ?_ ?_ n hn
  · intro n hn ha idx x m hi hx hm h
    obtain ⟨l, rfl, ll⟩ := WF.exists_atom ha hx
    obtain ⟨k, rfl, lk⟩ := WF.exists_atom ha hm
    obtain ⟨r, e, el, ev⟩ := natGatherMasked_some (C' := C') mem p idx 0 l k (by omega)
      (fun t ht hm => by rw [Nat.zero_add]; exact h t (by omega) hm)
    refine ⟨.atom r, by simp only [SA.gatherMasked, e]; rfl, ⟨by omega, ha⟩, fun t ht => ?_⟩
    have := ev t (by omega)
    rwa [Nat.zero_add] at this
  · intro n hn ha ih0 ih1 idx x m hi hx hm h
    obtain ⟨a, b, rfl, wa, wb⟩ := WF.exists_node ha hx
    obtain ⟨k, l, rfl, wk, wl⟩ := WF.exists_node ha hm
    obtain ⟨v0, v1, a0, a1⟩ := idx_split hC' hn hi
    have hsum := leftSize_add_rightSize hn
    have la := WF.length hC (one_le_leftSize (by omega)) wa
    have lk := WF.length hC (one_le_leftSize (by omega)) wk
    have g0 : ∀ t, t < leftSize n → SA.gatherAt C' mem p idx.lo t = SA.gatherAt C' mem p idx t :=
      fun t ht => by simp only [SA.gatherAt, a0 t ht]
    have g1 : ∀ t, t < rightSize n → SA.gatherAt C' mem p (idx.hi (leftSize n)) t =
        SA.gatherAt C' mem p idx (leftSize n + t) :=
      fun t ht => by simp only [SA.gatherAt, a1 t ht]
    obtain ⟨r0, e0, w0, t0⟩ := ih0 idx.lo a k v0 wa wk (fun t ht hm => by
      rw [g0 t ht]
      refine h t (by omega) ?_
      simp only [SA.toList]; rwa [List.getElem?_append_left (by omega)])
    obtain ⟨r1, e1, w1, t1⟩ := ih1 (idx.hi (leftSize n)) b l v1 wb wl (fun t ht hm => by
      rw [g1 t ht]
      refine h _ (by omega) ?_
      simp only [SA.toList]; rw [List.getElem?_append_right (by omega), lk]
      rwa [Nat.add_sub_cancel_left])
    have l0 := WF.length hC (one_le_leftSize (by omega)) w0
    refine ⟨.node r0 r1, by simp only [SA.gatherMasked, e0, e1]; rfl, ⟨ha, w0, w1⟩, fun t ht => ?_⟩
    simp only [SA.toList]
    by_cases hl : t < leftSize n
    · rw [List.getElem?_append_left (by omega), List.getElem?_append_left (by omega),
        List.getElem?_append_left (by omega), ← g0 t hl]
      exact t0 t hl
    · rw [List.getElem?_append_right (by omega), List.getElem?_append_right (by omega),
        List.getElem?_append_right (by omega), l0, lk, la]
      have := t1 (t - leftSize n) (by omega)
      rwa [g1 _ (by omega), show leftSize n + (t - leftSize n) = t by omega] at this

theorem gatherMasked_none (hC : C.Valid) (hC' : C'.Valid) (mem : List α) (p : Int) (n : Nat)
    (hn : 1 ≤ n) : ∀ (idx : Idx) (x : SA α) (m : SA Bool), IdxValid C' n idx → SA.WF C n x →
    SA.WF C n m →
    (∃ t, t < n ∧ m.toList[t]? = some true ∧ SA.gatherAt C' mem p idx t = none) →
    SA.gatherMasked C' mem p n idx x m = none := by
  refine template_induction hC (P := fun n => ∀ (idx : Idx) (x : SA α) (m : SA Bool),
    IdxValid C' n idx → SA.WF C n x → SA.WF C n m →
    (∃ t, t < n ∧ m.toList[t]? = some true ∧ SA.gatherAt C' mem p idx t = none) →
    SA.gatherMasked C' mem p n idx x m = none) ?_ ?_ n hn
  · intro n hn ha idx x m hi hx hm ⟨t, ht, h1, h2⟩
    obtain ⟨l, rfl, ll⟩ := WF.exists_atom ha hx
    obtain ⟨k, rfl, lk⟩ := WF.exists_atom ha hm
    simp only [SA.gatherMasked, natGatherMasked_none (C' := C') mem p idx 0 l k (by omega)
      ⟨t, by omega, h1, by rw [Nat.zero_add]; exact h2⟩]
    rfl
  · intro n hn ha ih0 ih1 idx x m hi hx hm ⟨t, ht, h1, h2⟩
    obtain ⟨a, b, rfl, wa, wb⟩ := WF.exists_node ha hx
    obtain ⟨k, l, rfl, wk, wl⟩ := WF.exists_node ha hm
    obtain ⟨v0, v1, a0, a1⟩ := idx_split hC' hn hi
    have hsum := leftSize_add_rightSize hn
    have lk := WF.length hC (one_le_leftSize (by omega)) wk
    simp only [SA.toList] at h1
    simp only [SA.gatherMasked]
    by_cases hl : t < leftSize n
    · rw [List.getElem?_append_left (by omega)] at h1
      rw [ih0 idx.lo a k v0 wa wk ⟨t, hl, h1, by simp only [SA.gatherAt, a0 t hl]; exact h2⟩]
      rfl
    · rw [List.getElem?_append_right (by omega), lk] at h1
      rw [ih1 (idx.hi (leftSize n)) b l v1 wb wl ⟨t - leftSize n, by omega, h1, by
        simp only [SA.gatherAt, a1 _ (show t - leftSize n < rightSize n by omega)]
        rw [show leftSize n + (t - leftSize n) = t by omega]; exact h2⟩]
      cases SA.gatherMasked C' mem p (leftSize n) idx.lo a k <;> rfl

/-! ## Scatter -/

/-- `natScatter` with the index argument reduced to the function it denotes. -/
def scatF (f : Nat → Option Int) (p : Int) : Nat → List α → List Bool → List α → Option (List α)
  | i, x :: xs, m :: ms, mem => do
    let mem ← (if m then (f i).bind (fun j => SA.storeAt mem (p + j) x) else some mem)
    scatF f p (i + 1) xs ms mem
  | _, _, _, mem => some mem

theorem natScatter_eq (p : Int) (idx : Idx) : ∀ (i : Nat) (x : List α) (m : List Bool) (mem : List α),
    SA.natScatter C' p idx i x m mem = scatF (idx.at? C') p i x m mem
  | i, x :: xs, m :: ms, mem => by
    simp only [SA.natScatter, scatF]
    congr 1
    funext mem'
    exact natScatter_eq p idx (i + 1) xs ms mem'
  | i, [], m, mem => by simp only [SA.natScatter, scatF]
  | i, x :: xs, [], mem => by simp only [SA.natScatter, scatF]

theorem scatF_congr {f g : Nat → Option Int} (p : Int) (d : Nat) :
    ∀ (i : Nat) (x : List α) (m : List Bool) (mem : List α),
    (∀ t, t < x.length → f (i + t) = g (d + i + t)) →
    scatF f p i x m mem = scatF g p (d + i) x m mem
  | i, x :: xs, m :: ms, mem, h => by
    have h0 := h 0 (by simp)
    simp only [Nat.add_zero] at h0
    simp only [scatF, h0]
    congr 1
    funext mem'
    rw [show d + i + 1 = d + (i + 1) by omega]
    refine scatF_congr p d (i + 1) xs ms mem' (fun t ht => ?_)
    have := h (t + 1) (by simpa using ht)
    rwa [show i + (t + 1) = i + 1 + t by omega, show d + i + (t + 1) = d + (i + 1) + t by omega]
      at this
  | i, [], m, mem, _ => by simp only [scatF]
  | i, x :: xs, [], mem, _ => by simp only [scatF]

theorem scatF_append (f : Nat → Option Int) (p : Int) :
    ∀ (i : Nat) (a b : List α) (k l : List Bool) (mem : List α), a.length = k.length →
    scatF f p i (a ++ b) (k ++ l) mem =
      (scatF f p i a k mem).bind (scatF f p (i + a.length) b l)
  | i, x :: xs, b, m :: ms, l, mem, h => by
    simp only [List.cons_append, scatF]
    cases hs : (if m = true then (f i).bind (fun j => SA.storeAt mem (p + j) x) else some mem) with
    | none => rfl
    | some mem' =>
      show scatF f p (i + 1) (xs ++ b) (ms ++ l) mem' = _
      rw [scatF_append f p (i + 1) xs b ms l mem' (by simpa using h)]
      simp only [List.length_cons]
      rw [show i + (xs.length + 1) = i + 1 + xs.length by omega]
      rfl
  | i, [], b, [], l, mem, _ => by simp [scatF]
  | i, [], b, _ :: _, l, mem, h => by simp at h
  | i, _ :: _, b, [], l, mem, h => by simp at h

theorem scatterMasked_eq (hC : C.Valid) (hC' : C'.Valid) (p : Int) (n : Nat) (hn : 1 ≤ n) :
    ∀ (idx : Idx) (x : SA α) (m : SA Bool) (mem : List α), IdxValid C' n idx → SA.WF C n x →
    SA.WF C n m →
    SA.scatterMasked C' p n idx x m mem = scatF (idx.at? C') p 0 x.toList m.toList mem := by
  refine template_induction hC (P := fun n => ∀ (idx : Idx) (x : SA α) (m : SA Bool)
    (mem : List α), IdxValid C' n idx → SA.WF C n x → SA.WF C n m →
    SA.scatterMasked C' p n idx x m mem = scatF (idx.at? C') p 0 x.toList m.toList mem) ?_ ?_ n hn
  · intro n hn ha idx x m mem hi hx hm
    obtain ⟨l, rfl, ll⟩ := WF.exists_atom ha hx
    obtain ⟨k, rfl, lk⟩ := WF.exists_atom ha hm
    simp only [SA.scatterMasked, SA.toList, natScatter_eq]
  · intro n hn ha ih0 ih1 idx x m mem hi hx hm
    obtain ⟨a, b, rfl, wa, wb⟩ := WF.exists_node ha hx
    obtain ⟨k, l, rfl, wk, wl⟩ := WF.exists_node ha hm
    obtain ⟨v0, v1, a0, a1⟩ := idx_split hC' hn hi
    have la := WF.length hC (one_le_leftSize (by omega)) wa
    have lb := WF.length hC (one_le_rightSize hn) wb
    have lk := WF.length hC (one_le_leftSize (by omega)) wk
    simp only [SA.scatterMasked, SA.toList]
    rw [scatF_append _ _ _ _ _ _ _ _ (by omega), ih0 idx.lo a k mem v0 wa wk, la]
    rw [scatF_congr (g := idx.at? C') p 0 0 a.toList k.toList mem (fun t ht => by
      simp only [Nat.zero_add]; exact a0 t (by omega))]
    congr 1
    funext mem'
    rw [ih1 _ b l mem' v1 wb wl, scatF_congr (g := idx.at? C') p (leftSize n) 0 b.toList l.toList mem'
      (fun t ht => by simp only [Nat.zero_add, Nat.add_zero]; exact a1 t (by omega))]
    simp

theorem scatter_eq_masked (hC : C.Valid) (p : Int) (n : Nat) (hn : 1 ≤ n) :
    ∀ (idx : Idx) (x : SA α) (m : SA Bool) (mem : List α), SA.WF C n x →
    SA.WF C n m → m.toList = List.replicate n true →
    SA.scatter C' p n idx x mem = SA.scatterMasked C' p n idx x m mem := by
  refine template_induction hC (P := fun n => ∀ (idx : Idx) (x : SA α) (m : SA Bool)
    (mem : List α), SA.WF C n x → SA.WF C n m → m.toList = List.replicate n true →
    SA.scatter C' p n idx x mem = SA.scatterMasked C' p n idx x m mem) ?_ ?_ n hn
  · intro n hn ha idx x m mem hx hm h
    obtain ⟨l, rfl, ll⟩ := WF.exists_atom ha hx
    obtain ⟨k, rfl, lk⟩ := WF.exists_atom ha hm
    simp only [SA.toList] at h
    simp only [SA.scatterMasked, SA.scatter, h, ll]
  · intro n hn ha ih0 ih1 idx x m mem hx hm h
    obtain ⟨a, b, rfl, wa, wb⟩ := WF.exists_node ha hx
    obtain ⟨k, l, rfl, wk, wl⟩ := WF.exists_node ha hm
    have lk := WF.length hC (one_le_leftSize (by omega)) wk
    have ll := WF.length hC (one_le_rightSize hn) wl
    have hsum := leftSize_add_rightSize hn
    simp only [SA.toList] at h
    have hr : List.replicate n true = List.replicate (leftSize n) true ++
        List.replicate (rightSize n) true := by
      rw [List.replicate_append_replicate, hsum]
    rw [hr] at h
    obtain ⟨h0, h1⟩ := List.append_inj h (by simp [lk])
    simp only [SA.scatterMasked, SA.scatter]
    rw [ih0 idx.lo a k mem wa wk h0]
    congr 1
    funext mem'
    exact ih1 _ b l mem' wb wl h1

theorem entry_set (mem : List α) (a : Int) (v : α) (h0 : 0 ≤ a) (h1 : a.toNat < mem.length)
    (b : Int) : entry (mem.set a.toNat v) b = if b = a then some v else entry mem b := by
  unfold entry
  by_cases hb : 0 ≤ b
  · rw [if_pos hb, if_pos hb, List.getElem?_set]
    by_cases e : b = a
    · subst e; simp only [if_true]; rw [if_pos h1]
    · rw [if_neg (show ¬ a.toNat = b.toNat by omega), if_neg e]
  · rw [if_neg hb, if_neg hb, if_neg (by omega)]

/-- Sequential stores, general form: `addr t`/`val t` describe lane `t` of the lists. -/
theorem scatF_spec (f : Nat → Option Int) (p : Int) (addr : Nat → Int) (val : Nat → α) :
    ∀ (i : Nat) (x : List α) (m : List Bool) (mem : List α), x.length = m.length →
    (∀ t, t < x.length → f (i + t) = some (addr (i + t) - p)) →
    (∀ t, t < x.length → x[t]? = some (val (i + t))) →
    (∀ t, t < x.length → m[t]? = some true → 0 ≤ addr (i + t) ∧ addr (i + t) < mem.length) →
    ∃ mem', scatF f p i x m mem = some mem' ∧
      IsStoredInOrder x.length (fun t => m[t]? = some true) (fun t => addr (i + t))
        (fun t => val (i + t)) mem mem'
  | i, [], [], mem, _, _, _, _ =>
    ⟨mem, by simp only [scatF], ⟨rfl, fun _ h => by simp at h, fun _ _ => rfl⟩⟩
  | i, x :: xs, m :: ms, mem, hl, hf, hv, hr => by
    have step : ∀ (mem1 : List α), mem1.length = mem.length →
        ∃ mem', scatF f p (i + 1) xs ms mem1 = some mem' ∧
        IsStoredInOrder xs.length (fun t => ms[t]? = some true) (fun t => addr (i + 1 + t))
          (fun t => val (i + 1 + t)) mem1 mem' := by
      intro mem1 hlen
      refine scatF_spec f p addr val (i + 1) xs ms mem1 (by simpa using hl) ?_ ?_ ?_
      · intro t ht
        have := hf (t + 1) (by simpa using ht)
        rwa [show i + (t + 1) = i + 1 + t by omega] at this
      · intro t ht
        have := hv (t + 1) (by simpa using ht)
        rw [show i + (t + 1) = i + 1 + t by omega] at this
        simpa using this
      · intro t ht hm
        have := hr (t + 1) (by simpa using ht) (by simpa using hm)
        rw [show i + (t + 1) = i + 1 + t by omega] at this
        rwa [hlen]
    by_cases hm : m = true
    · have h0 := hr 0 (by simp) (by simp [hm])
      simp only [Nat.add_zero] at h0
      have hf0 := hf 0 (by simp)
      have hv0 := hv 0 (by simp)
      simp only [Nat.add_zero, List.getElem?_cons_zero, Option.some.injEq] at hf0 hv0
      have hst : SA.storeAt mem (p + (addr i - p)) x = some (mem.set (addr i).toNat x) := by
        unfold SA.storeAt
        rw [show p + (addr i - p) = addr i by omega, if_pos ⟨h0.1, by omega⟩]
      obtain ⟨mem', e, sp⟩ := step (mem.set (addr i).toNat x) (by simp)
      have ent := entry_set mem (addr i) x h0.1 (by omega)
      refine ⟨mem', ?_, ⟨?_, ?_, ?_⟩⟩
      · simp only [scatF, hm, if_true, hf0]
        simp only [Option.bind_eq_bind, Option.bind_some, hst]
        exact e
      · simpa using sp.length
      · intro t ht hact hlast
        cases t with
        | zero =>
          simp only [Nat.add_zero]
          rw [sp.other (addr i) (fun t' ht' ha' => by
            have := hlast (t' + 1) (by omega) (by simpa using ht') (by simpa using ha')
            simp only [Nat.add_zero] at this
            rwa [show i + (t' + 1) = i + 1 + t' by omega] at this), ent, if_pos rfl, hv0]
        | succ t =>
          have := sp.last t (by simpa using ht) (by simpa using hact) (fun j hj hj' hja => by
            have := hlast (j + 1) (by omega) (by simpa using hj') (by simpa using hja)
            rwa [show i + (j + 1) = i + 1 + j by omega, show i + (t + 1) = i + 1 + t by omega]
              at this)
          rwa [show i + (t + 1) = i + 1 + t by omega]
      · intro a ha
        rw [sp.other a (fun t ht hact => by
          have := ha (t + 1) (by simpa using ht) (by simpa using hact)
          rwa [show i + (t + 1) = i + 1 + t by omega] at this), ent,
          if_neg (fun e => ha 0 (by simp) (by simp [hm]) (by simpa using e.symm))]
    · obtain ⟨mem', e, sp⟩ := step mem rfl
      refine ⟨mem', ?_, ⟨sp.length, ?_, ?_⟩⟩
      · simp only [scatF]
        rw [if_neg hm]
        exact e
      · intro t ht hact hlast
        cases t with
        | zero => exact absurd (by simpa using hact) hm
        | succ t =>
          have := sp.last t (by simpa using ht) (by simpa using hact) (fun j hj hj' hja => by
            have := hlast (j + 1) (by omega) (by simpa using hj') (by simpa using hja)
            rwa [show i + (j + 1) = i + 1 + j by omega, show i + (t + 1) = i + 1 + t by omega]
              at this)
          rwa [show i + (t + 1) = i + 1 + t by omega]
      · intro a ha
        exact sp.other a (fun t ht hact => by
          have := ha (t + 1) (by simpa using ht) (by simpa using hact)
          rwa [show i + (t + 1) = i + 1 + t by omega] at this)
  | i, [], _ :: _, mem, hl, _, _, _ => by simp at hl
  | i, _ :: _, [], mem, hl, _, _, _ => by simp at hl

/-- An active store outside of the memory makes the scatter undefined. -/
theorem scatF_none (f : Nat → Option Int) (p : Int) :
    ∀ (i : Nat) (x : List α) (m : List Bool) (mem : List α), x.length = m.length →
    (∃ t, t < x.length ∧ m[t]? = some true ∧
      ∀ j, f (i + t) = some j → ¬ (0 ≤ p + j ∧ p + j < mem.length)) →
    scatF f p i x m mem = none
  | i, [], [], mem, _, h => by simp at h
  | i, x :: xs, m :: ms, mem, hl, ⟨t, ht, hm, hf⟩ => by
    cases t with
    | zero =>
      have hm : m = true := by simpa using hm
      simp only [scatF, hm, if_true]
      simp only [Nat.add_zero] at hf
      cases hfi : f i with
      | none => rfl
      | some j =>
        have := hf j hfi
        have hs : SA.storeAt mem (p + j) x = none := by
          unfold SA.storeAt; rw [if_neg (by omega)]
        simp only [Option.bind_eq_bind, Option.bind_some, hs, Option.bind_none]
    | succ t =>
      simp only [scatF]
      cases hs : (if m = true then (f i).bind (fun j => SA.storeAt mem (p + j) x) else some mem) with
      | none => rfl
      | some mem' =>
        have hlen : mem'.length = mem.length := by
          by_cases hm : m = true
          · rw [if_pos hm] at hs
            cases hfi : f i with
            | none => rw [hfi] at hs; cases hs
            | some j =>
              rw [hfi] at hs
              simp only [Option.bind_some, SA.storeAt] at hs
              split at hs
              · cases hs; simp
              · cases hs
          · rw [if_neg hm] at hs; cases hs; rfl
        show scatF f p (i + 1) xs ms mem' = none
        refine scatF_none f p (i + 1) xs ms mem' (by simpa using hl) ⟨t, by simpa using ht,
          by simpa using hm, fun j hj => ?_⟩
        rw [hlen]
        exact hf j (by rwa [show i + (t + 1) = i + 1 + t by omega])
  | i, [], _ :: _, mem, hl, _ => by simp at hl
  | i, _ :: _, [], mem, hl, _ => by simp at hl

end Vc.Lemma
